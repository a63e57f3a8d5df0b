import Verif.Model.FpItems
import Verif.Format.Common
import Verif.Format.Req
/-!
# Graphic items of footprints: values and well-formedness
-/
namespace Kiutils

/-- `(key X Y)`, followed by the angle and by `unlocked` -/
def Position.toValU (key : Str) (o : Position) : Val :=
  .list ([.str key, o.X.canon, o.Y.canon] ++ (optL o.angle fun a => [a.canon]) ++ ifL o.unlocked [.str k!"unlocked"])

/-- A position that is written with all its attributes. -/
structure Position.WFU (o : Position) : Prop where
  X : NumOk o.X
  Y : NumOk o.Y
  angle : ∀ a, o.angle = some a → NumOk a

/-- The value of the width, or of the stroke. -/
def widthL (width : Option Val) (stroke : Option Stroke) : List Val :=
  match width, stroke with
  | some w, _ => [.list [.str k!"width", w.canon]]
  | none, some s => [s.toVal]
  | none, none => []

/-- Exactly one of width and stroke is given: with both the stroke is lost, with none the default width is read back. -/
def WidthOk [TextRule] (width : Option Val) (stroke : Option Stroke) : Prop :=
  (∃ w, width = some w ∧ NumOk w ∧ stroke = none) ∨ (width = none ∧ ∃ s, stroke = some s ∧ s.WF)

def FpText.toVal (o : FpText) : Val :=
  .list ([.str k!"fp_text", o.type.canon, o.text.canon, o.position.toValU k!"at", .list ([.str k!"layer", o.layer.canon] ++ ifL o.knockout [.str k!"knockout"])] ++
    ifL o.hide [.str k!"hide"] ++ [o.effects.toVal] ++ (optL o.tstamp fun v => [.list [.str k!"tstamp", v.canon]]) ++
    (optL o.renderCache fun v => [v.toVal]))

structure FpText.WF [TextRule] (o : FpText) : Prop where
  type : TokOk o.type
  text : TextOk o.text
  position : o.position.WFU
  layer : TextOk o.layer
  effects : o.effects.WF
  tstamp : ∀ v, o.tstamp = some v → AtomOk v
  renderCache : ∀ v, o.renderCache = some v → v.WF

def FpLine.toVal (o : FpLine) : Val :=
  .list ([.str k!"fp_line", o.start.toValXY k!"start", o.«end».toValXY k!"end", .list [.str k!"layer", o.layer.canon]] ++
    widthL o.width o.stroke ++ (optL o.tstamp fun v => [.list [.str k!"tstamp", v.canon]]))

structure FpLine.WF [TextRule] (o : FpLine) : Prop where
  start : o.start.WFXY
  «end» : o.«end».WFXY
  layer : TextOk o.layer
  width : WidthOk o.width o.stroke
  tstamp : ∀ v, o.tstamp = some v → AtomOk v
  /-- the flag is not written -/
  locked : o.locked = false

def FpRect.toVal (o : FpRect) : Val :=
  .list ([.str k!"fp_rect", o.start.toValXY k!"start", o.«end».toValXY k!"end", .list [.str k!"layer", o.layer.canon]] ++
    widthL o.width o.stroke ++ (optL o.fill fun v => [.list [.str k!"fill", v.canon]]) ++
    ifL o.locked [.str k!"locked"] ++ (optL o.tstamp fun v => [.list [.str k!"tstamp", v.canon]]))

structure FpRect.WF [TextRule] (o : FpRect) : Prop where
  start : o.start.WFXY
  «end» : o.«end».WFXY
  layer : TextOk o.layer
  width : WidthOk o.width o.stroke
  fill : ∀ v, o.fill = some v → TokOk v
  tstamp : ∀ v, o.tstamp = some v → AtomOk v

def FpTextBox.toVal (o : FpTextBox) : Val :=
  .list ([.str k!"fp_text_box"] ++ ifL o.locked [.str k!"locked"] ++ [o.text.canon] ++
    ifL (!o.pts.isEmpty) [.list (.str k!"pts" :: o.pts.map (Position.toValXY k!"xy"))] ++
    (optL o.start fun v => [v.toValXY k!"start"]) ++ (optL o.«end» fun v => [v.toValXY k!"end"]) ++
    (optL o.angle fun v => [.list [.str k!"angle", v.canon]]) ++ [.list [.str k!"layer", o.layer.canon]] ++
    (optL o.tstamp fun v => [.list [.str k!"tstamp", v.canon]]) ++ (optL o.effects fun v => [v.toVal]) ++
    (optL o.stroke fun v => [v.toVal]) ++ (optL o.renderCache fun v => [v.toVal]))

/-- The box is given by four points or none; without points (or with a right angle) by its corners. -/
structure FpTextBox.WF [TextRule] (o : FpTextBox) : Prop where
  text : TextOk o.text
  pts : ∀ v ∈ o.pts, v.WFXY
  start : ∀ v, o.start = some v → v.WFXY
  «end» : ∀ v, o.«end» = some v → v.WFXY
  angle : ∀ v, o.angle = some v → NumOk v
  layer : TextOk o.layer
  tstamp : ∀ v, o.tstamp = some v → AtomOk v
  effects : ∀ v, o.effects = some v → v.WF
  stroke : ∀ v, o.stroke = some v → v.WF
  renderCache : ∀ v, o.renderCache = some v → v.WF
  four : o.pts = [] ∨ ∃ a b c d, o.pts = [a, b, c, d]
  oblique : ∀ a, o.angle = some a → isCardinal a = false → o.pts ≠ []
  corners : (∀ a, o.angle = some a → isCardinal a = true) → o.start ≠ none ∧ o.«end» ≠ none

def FpCircle.toVal (o : FpCircle) : Val :=
  .list ([.str k!"fp_circle", o.center.toValXY k!"center", o.«end».toValXY k!"end", .list [.str k!"layer", o.layer.canon]] ++
    widthL o.width o.stroke ++ (optL o.fill fun v => [.list [.str k!"fill", v.canon]]) ++
    ifL o.locked [.str k!"locked"] ++ (optL o.tstamp fun v => [.list [.str k!"tstamp", v.canon]]))

structure FpCircle.WF [TextRule] (o : FpCircle) : Prop where
  center : o.center.WFXY
  «end» : o.«end».WFXY
  layer : TextOk o.layer
  width : WidthOk o.width o.stroke
  fill : ∀ v, o.fill = some v → TokOk v
  tstamp : ∀ v, o.tstamp = some v → AtomOk v

def FpArc.toVal (o : FpArc) : Val :=
  .list ([.str k!"fp_arc", o.start.toValXY k!"start", o.mid.toValXY k!"mid", o.«end».toValXY k!"end", .list [.str k!"layer", o.layer.canon]] ++
    widthL o.width o.stroke ++ ifL o.locked [.str k!"locked"] ++
    (optL o.tstamp fun v => [.list [.str k!"tstamp", v.canon]]))

structure FpArc.WF [TextRule] (o : FpArc) : Prop where
  start : o.start.WFXY
  mid : o.mid.WFXY
  «end» : o.«end».WFXY
  layer : TextOk o.layer
  width : WidthOk o.width o.stroke
  tstamp : ∀ v, o.tstamp = some v → AtomOk v

def FpPoly.toVal (o : FpPoly) : Val :=
  .list ([.str k!"fp_poly", .list (.str k!"pts" :: o.coordinates.map (Position.toValXY k!"xy")), .list [.str k!"layer", o.layer.canon]] ++
    widthL o.width o.stroke ++ (optL o.fill fun v => [.list [.str k!"fill", v.canon]]) ++
    ifL o.locked [.str k!"locked"] ++ (optL o.tstamp fun v => [.list [.str k!"tstamp", v.canon]]))

structure FpPoly.WF [TextRule] (o : FpPoly) : Prop where
  coordinates : ∀ v ∈ o.coordinates, v.WFXY
  layer : TextOk o.layer
  width : WidthOk o.width o.stroke
  fill : ∀ v, o.fill = some v → TokOk v
  tstamp : ∀ v, o.tstamp = some v → AtomOk v
  /-- without points nothing is written -/
  nonempty : o.coordinates.isEmpty = false

def FpCurve.toVal (o : FpCurve) : Val :=
  .list ([.str k!"fp_curve", .list (.str k!"pts" :: o.coordinates.map (Position.toValXY k!"xy")), .list [.str k!"layer", o.layer.canon]] ++
    widthL o.width o.stroke ++ ifL o.locked [.str k!"locked"] ++
    (optL o.tstamp fun v => [.list [.str k!"tstamp", v.canon]]))

structure FpCurve.WF [TextRule] (o : FpCurve) : Prop where
  coordinates : ∀ v ∈ o.coordinates, v.WFXY
  layer : TextOk o.layer
  width : WidthOk o.width o.stroke
  tstamp : ∀ v, o.tstamp = some v → AtomOk v
  /-- without points nothing is written -/
  nonempty : o.coordinates.isEmpty = false

def FpItem.toVal : FpItem → Val
  | .text o => o.toVal
  | .textBox o => o.toVal
  | .line o => o.toVal
  | .rect o => o.toVal
  | .circle o => o.toVal
  | .arc o => o.toVal
  | .poly o => o.toVal
  | .curve o => o.toVal
  | .image o => o.toVal

def FpItem.WF [TextRule] : FpItem → Prop
  | .text o => o.WF
  | .textBox o => o.WF
  | .line o => o.WF
  | .rect o => o.WF
  | .circle o => o.WF
  | .arc o => o.WF
  | .poly o => o.WF
  | .curve o => o.WF
  | .image o => o.WF

end Kiutils
