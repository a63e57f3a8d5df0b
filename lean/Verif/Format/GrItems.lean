import Verif.Model.GrItems
import Verif.Format.Common
import Verif.Format.Req
/-!
# Graphic items of boards: values and well-formedness
-/
namespace Kiutils

def GrText.toVal (o : GrText) : Val :=
  .list ([.str k!"gr_text", o.text.canon, o.position.toVal k!"at"] ++
    (optL o.layer fun v => [.list ([.str k!"layer", v.canon] ++ ifL o.knockout [.str k!"knockout"])]) ++
    (optL o.tstamp fun v => [.list [.str k!"tstamp", v.canon]]) ++ [o.effects.toVal] ++
    (optL o.renderCache fun v => [v.toVal]))

/-- A text that is not locked. -/
structure GrText.WF [TextRule] (o : GrText) : Prop where
  text : TextOk o.text
  position : o.position.WF
  layer : ∀ v, o.layer = some v → TextOk v
  tstamp : ∀ v, o.tstamp = some v → AtomOk v
  effects : o.effects.WF
  renderCache : ∀ v, o.renderCache = some v → v.WF
  /-- the flag is written inside the token of the layer -/
  knockout : o.layer = none → o.knockout = false
  /-- the word `locked` is written where the text is expected -/
  locked : o.locked = false

def GrTextBox.toVal (o : GrTextBox) : Val :=
  .list ([.str k!"gr_text_box"] ++ ifL o.locked [.str k!"locked"] ++ [o.text.canon] ++
    ifL (!o.pts.isEmpty) [.list (.str k!"pts" :: o.pts.map (Position.toValXY k!"xy"))] ++
    (optL o.start fun v => [v.toValXY k!"start"]) ++ (optL o.«end» fun v => [v.toValXY k!"end"]) ++
    (optL o.angle fun v => [.list [.str k!"angle", v.canon]]) ++ [.list [.str k!"layer", o.layer.canon]] ++
    (optL o.tstamp fun v => [.list [.str k!"tstamp", v.canon]]) ++ (optL o.effects fun v => [v.toVal]) ++
    (optL o.stroke fun v => [v.toVal]) ++ (optL o.renderCache fun v => [v.toVal]))

/-- The box is given by four points or none; without points (or with a right angle) by its corners. -/
structure GrTextBox.WF [TextRule] (o : GrTextBox) : Prop where
  text : TextOk o.text
  pts : ∀ v ∈ o.pts, v.WFXY
  start : ∀ v, o.start = some v → v.WFXY
  «end» : ∀ v, o.«end» = some v → v.WFXY
  angle : ∀ v, o.angle = some v → NumOk v
  layer : TextOk o.layer
  tstamp : ∀ v, o.tstamp = some v → AtomOk v
  effects : ∀ v, o.effects = some v → v.WF
  stroke : ∀ v, o.stroke = some v → v.WF
  renderCache : ∀ v, o.renderCache = some v → v.WF
  four : o.pts = [] ∨ ∃ a b c d, o.pts = [a, b, c, d]
  oblique : ∀ a, o.angle = some a → isCardinal a = false → o.pts ≠ []
  corners : (∀ a, o.angle = some a → isCardinal a = true) → o.start ≠ none ∧ o.«end» ≠ none

def GrLine.toVal (o : GrLine) : Val :=
  .list ([.str k!"gr_line"] ++ ifL o.locked [.str k!"locked"] ++
    [o.start.toValXY k!"start", o.«end».toValXY k!"end"] ++
    (optL o.layer fun v => [.list [.str k!"layer", v.canon]]) ++ [.list [.str k!"width", optCanon o.width]] ++
    (optL o.tstamp fun v => [.list [.str k!"tstamp", v.canon]]))

/-- A line without an angle. -/
structure GrLine.WF [TextRule] (o : GrLine) : Prop where
  start : o.start.WFXY
  «end» : o.«end».WFXY
  layer : ∀ v, o.layer = some v → TextOk v
  width : ReqOk NumOk o.width
  tstamp : ∀ v, o.tstamp = some v → AtomOk v
  /-- an angle is written without its closing bracket, and never read -/
  angle : o.angle = none

def GrRect.toVal (o : GrRect) : Val :=
  .list ([.str k!"gr_rect"] ++ ifL o.locked [.str k!"locked"] ++
    [o.start.toValXY k!"start", o.«end».toValXY k!"end"] ++
    (optL o.layer fun v => [.list [.str k!"layer", v.canon]]) ++ [.list [.str k!"width", optCanon o.width]] ++
    (optL o.fill fun v => [.list [.str k!"fill", v.canon]]) ++
    (optL o.tstamp fun v => [.list [.str k!"tstamp", v.canon]]))

structure GrRect.WF [TextRule] (o : GrRect) : Prop where
  start : o.start.WFXY
  «end» : o.«end».WFXY
  layer : ∀ v, o.layer = some v → TextOk v
  width : ReqOk NumOk o.width
  fill : ∀ v, o.fill = some v → TokOk v
  tstamp : ∀ v, o.tstamp = some v → AtomOk v

def GrCircle.toVal (o : GrCircle) : Val :=
  .list ([.str k!"gr_circle"] ++ ifL o.locked [.str k!"locked"] ++
    [o.center.toValXY k!"center", o.«end».toValXY k!"end"] ++
    (optL o.layer fun v => [.list [.str k!"layer", v.canon]]) ++ [.list [.str k!"width", optCanon o.width]] ++
    (optL o.fill fun v => [.list [.str k!"fill", v.canon]]) ++
    (optL o.tstamp fun v => [.list [.str k!"tstamp", v.canon]]))

structure GrCircle.WF [TextRule] (o : GrCircle) : Prop where
  center : o.center.WFXY
  «end» : o.«end».WFXY
  layer : ∀ v, o.layer = some v → TextOk v
  width : ReqOk NumOk o.width
  fill : ∀ v, o.fill = some v → TokOk v
  tstamp : ∀ v, o.tstamp = some v → AtomOk v

def GrArc.toVal (o : GrArc) : Val :=
  .list ([.str k!"gr_arc"] ++ ifL o.locked [.str k!"locked"] ++
    [o.start.toValXY k!"start", o.mid.toValXY k!"mid", o.«end».toValXY k!"end"] ++
    (optL o.layer fun v => [.list [.str k!"layer", v.canon]]) ++ [.list [.str k!"width", optCanon o.width]] ++
    (optL o.tstamp fun v => [.list [.str k!"tstamp", v.canon]]))

structure GrArc.WF [TextRule] (o : GrArc) : Prop where
  start : o.start.WFXY
  mid : o.mid.WFXY
  «end» : o.«end».WFXY
  layer : ∀ v, o.layer = some v → TextOk v
  width : ReqOk NumOk o.width
  tstamp : ∀ v, o.tstamp = some v → AtomOk v

def GrPoly.toVal (o : GrPoly) : Val :=
  .list ([.str k!"gr_poly"] ++ ifL o.locked [.str k!"locked"] ++
    [.list (.str k!"pts" :: o.coordinates.map (Position.toValXY k!"xy"))] ++
    (optL o.layer fun v => [.list [.str k!"layer", v.canon]]) ++ [.list [.str k!"width", optCanon o.width]] ++
    (optL o.fill fun v => [.list [.str k!"fill", v.canon]]) ++
    (optL o.tstamp fun v => [.list [.str k!"tstamp", v.canon]]))

structure GrPoly.WF [TextRule] (o : GrPoly) : Prop where
  coordinates : ∀ v ∈ o.coordinates, v.WFXY
  layer : ∀ v, o.layer = some v → TextOk v
  width : ReqOk NumOk o.width
  fill : ∀ v, o.fill = some v → TokOk v
  tstamp : ∀ v, o.tstamp = some v → AtomOk v
  /-- without points nothing is written -/
  nonempty : o.coordinates.isEmpty = false

def GrCurve.toVal (o : GrCurve) : Val :=
  .list ([.str k!"gr_curve"] ++ ifL o.locked [.str k!"locked"] ++
    [.list (.str k!"pts" :: o.coordinates.map (Position.toValXY k!"xy"))] ++
    (optL o.layer fun v => [.list [.str k!"layer", v.canon]]) ++ [.list [.str k!"width", optCanon o.width]] ++
    (optL o.tstamp fun v => [.list [.str k!"tstamp", v.canon]]))

structure GrCurve.WF [TextRule] (o : GrCurve) : Prop where
  coordinates : ∀ v ∈ o.coordinates, v.WFXY
  layer : ∀ v, o.layer = some v → TextOk v
  width : ReqOk NumOk o.width
  tstamp : ∀ v, o.tstamp = some v → AtomOk v
  /-- without points nothing is written -/
  nonempty : o.coordinates.isEmpty = false

def GrItem.toVal : GrItem → Val
  | .text o => o.toVal
  | .textBox o => o.toVal
  | .line o => o.toVal
  | .rect o => o.toVal
  | .circle o => o.toVal
  | .arc o => o.toVal
  | .poly o => o.toVal
  | .curve o => o.toVal
  | .image o => o.toVal

def GrItem.WF [TextRule] : GrItem → Prop
  | .text o => o.WF
  | .textBox o => o.WF
  | .line o => o.WF
  | .rect o => o.WF
  | .circle o => o.WF
  | .arc o => o.WF
  | .poly o => o.WF
  | .curve o => o.WF
  | .image o => o.WF

end Kiutils
