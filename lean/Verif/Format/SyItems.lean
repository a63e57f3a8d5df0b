import Verif.Model.SyItems
import Verif.Format.Common
/-!
# Graphic items of symbols: values and well-formedness
-/
namespace Kiutils

def SyArc.toVal (o : SyArc) : Val :=
  .list ([.str k!"arc"] ++ ifL o.priv [.str k!"private"] ++
    [o.start.toVal k!"start", o.mid.toVal k!"mid", o.end.toVal k!"end", o.stroke.toVal, o.fill.toVal])

structure SyArc.WF [TextRule] (o : SyArc) : Prop where
  start : o.start.WF
  mid : o.mid.WF
  «end» : o.end.WF
  stroke : o.stroke.WF
  fill : o.fill.WF

def SyCircle.toVal (o : SyCircle) : Val :=
  .list ([.str k!"circle"] ++ ifL o.priv [.str k!"private"] ++
    [o.center.toValXY k!"center", .list [.str k!"radius", o.radius.canon], o.stroke.toVal, o.fill.toVal])

structure SyCircle.WF [TextRule] (o : SyCircle) : Prop where
  center : o.center.WFXY
  radius : NumOk o.radius
  stroke : o.stroke.WF
  fill : o.fill.WF

def SyPolyLine.toVal (o : SyPolyLine) : Val :=
  .list ([.str k!"polyline", .list (.str k!"pts" :: o.points.map (Position.toValXY k!"xy")), o.stroke.toVal, o.fill.toVal])

structure SyPolyLine.WF [TextRule] (o : SyPolyLine) : Prop where
  points : ∀ v ∈ o.points, v.WFXY
  stroke : o.stroke.WF
  fill : o.fill.WF

def SyRect.toVal (o : SyRect) : Val :=
  .list ([.str k!"rectangle"] ++ ifL o.priv [.str k!"private"] ++
    [o.start.toValXY k!"start", o.end.toValXY k!"end", o.stroke.toVal, o.fill.toVal])

structure SyRect.WF [TextRule] (o : SyRect) : Prop where
  start : o.start.WFXY
  «end» : o.end.WFXY
  stroke : o.stroke.WF
  fill : o.fill.WF

def SyText.toVal (o : SyText) : Val :=
  .list ([.str k!"text", o.text.canon, o.position.toVal k!"at", o.effects.toVal])

structure SyText.WF [TextRule] (o : SyText) : Prop where
  text : TextOk o.text
  position : o.position.WF
  effects : o.effects.WF

def SyTextBox.toVal (o : SyTextBox) : Val :=
  .list ([.str k!"text_box"] ++ ifL o.priv [.str k!"private"] ++
    [o.text.canon, o.position.toVal k!"at", o.size.toValXY k!"size", o.stroke.toVal, o.fill.toVal, o.effects.toVal] ++
    (optL o.uuid fun v => [.list [.str k!"uuid", v.canon]]))

structure SyTextBox.WF [TextRule] (o : SyTextBox) : Prop where
  text : TextOk o.text
  position : o.position.WF
  size : o.size.WFXY
  stroke : o.stroke.WF
  fill : o.fill.WF
  effects : o.effects.WF
  uuid : ∀ v, o.uuid = some v → TokOk v

/-- A curve is not written as anything readable (see `SyCurve.toSexpr`); this is the value its text should have. -/
def SyCurve.toVal (o : SyCurve) : Val :=
  .list [.str k!"curve", .list (.str k!"pts" :: o.points.map (Position.toValXY k!"xy")), o.stroke.toVal, o.fill.toVal]

def SyItem.toVal : SyItem → Val
  | .arc o => o.toVal
  | .circle o => o.toVal
  | .curve o => o.toVal
  | .polyline o => o.toVal
  | .rect o => o.toVal
  | .text o => o.toVal
  | .textBox o => o.toVal

/-- Curves are excluded: their text is malformed. -/
def SyItem.WF [TextRule] : SyItem → Prop
  | .arc o => o.WF
  | .circle o => o.WF
  | .curve _ => False
  | .polyline o => o.WF
  | .rect o => o.WF
  | .text o => o.WF
  | .textBox o => o.WF

end Kiutils
