import Verif.Model.Wks
import Verif.Format.Common
/-!
# Worksheets: values and well-formedness
-/
namespace Kiutils

def WksFontSize.toVal (o : WksFontSize) : Val :=
  .list ([.str k!"size", o.width.canon, o.height.canon])

structure WksFontSize.WF (o : WksFontSize) : Prop where
  width : NumOk o.width
  height : NumOk o.height

def TextSize.toVal (o : TextSize) : Val :=
  .list ([.str k!"textsize", o.width.canon, o.height.canon])

structure TextSize.WF (o : TextSize) : Prop where
  width : NumOk o.width
  height : NumOk o.height

def WksFont.toVal (o : WksFont) : Val :=
  .list ([.str k!"font"] ++ (optL o.linewidth fun v => [.list [.str k!"linewidth", v.canon]]) ++
    (optL o.size fun v => [v.toVal]) ++ ifL o.bold [.str k!"bold"] ++ ifL o.italic [.str k!"italic"])

structure WksFont.WF [TextRule] (o : WksFont) : Prop where
  linewidth : ∀ v, o.linewidth = some v → NumOk v
  size : ∀ v, o.size = some v → v.WF

/-- `(key X Y)` or `(key X Y corner)` -/
def WksPosition.toVal (key : Str) (o : WksPosition) : Val :=
  .list ([.str key, o.X.canon, o.Y.canon] ++ optL o.corner fun v => [v.canon])

structure WksPosition.WF [TextRule] (o : WksPosition) : Prop where
  X : NumOk o.X
  Y : NumOk o.Y
  corner : ∀ v, o.corner = some v → TokOk v

/-- `head` is `line` or `rect`. -/
def WksShape.toVal (head : Str) (o : WksShape) : Val :=
  .list ([.str head, .list [.str k!"name", o.name.canon], o.start.toVal k!"start", o.end.toVal k!"end"] ++
    (optL o.option fun v => [.list [.str k!"option", v.canon]]) ++ (optL o.lineWidth fun v => [.list [.str k!"linewidth", v.canon]]) ++
    (optL o.repeat fun v => [.list [.str k!"repeat", v.canon]]) ++ (optL o.incrx fun v => [.list [.str k!"incrx", v.canon]]) ++
    (optL o.incry fun v => [.list [.str k!"incry", v.canon]]) ++ (optL o.comment fun v => [.list [.str k!"comment", v.canon]]))

structure WksShape.WF [TextRule] (o : WksShape) : Prop where
  name : TextOk o.name
  start : o.start.WF
  «end» : o.end.WF
  option : ∀ v, o.option = some v → TokOk v
  lineWidth : ∀ v, o.lineWidth = some v → NumOk v
  «repeat» : ∀ v, o.repeat = some v → NumOk v
  incrx : ∀ v, o.incrx = some v → NumOk v
  incry : ∀ v, o.incry = some v → NumOk v
  comment : ∀ v, o.comment = some v → TextOk v

def Bitmap.toVal (o : Bitmap) : Val :=
  .list ([.str k!"bitmap", .list [.str k!"name", o.name.canon], o.position.toVal k!"pos"] ++
    (optL o.option fun v => [.list [.str k!"option", v.canon]]) ++ [.list [.str k!"scale", o.scale.canon]] ++
    (optL o.repeat fun v => [.list [.str k!"repeat", v.canon]]) ++
    (optL o.incrx fun v => [.list [.str k!"incrx", v.canon]]) ++
    (optL o.incry fun v => [.list [.str k!"incry", v.canon]]) ++
    (optL o.comment fun v => [.list [.str k!"comment", v.canon]]) ++
    [.list (.str k!"pngdata" :: o.pngdata.map fun d => .list [.str k!"data", d.canon])])

structure Bitmap.WF [TextRule] (o : Bitmap) : Prop where
  name : TextOk o.name
  position : o.position.WF
  option : ∀ v, o.option = some v → TokOk v
  scale : NumOk o.scale
  «repeat» : ∀ v, o.repeat = some v → NumOk v
  incrx : ∀ v, o.incrx = some v → NumOk v
  incry : ∀ v, o.incry = some v → NumOk v
  comment : ∀ v, o.comment = some v → TextOk v
  pngdata : ∀ v ∈ o.pngdata, RawOk v

def TbText.toVal (o : TbText) : Val :=
  .list ([.str k!"tbtext", o.text.canon, .list [.str k!"name", o.name.canon], o.position.toVal k!"pos"] ++
    (optL o.option fun v => [.list [.str k!"option", v.canon]]) ++
    (optL o.rotate fun v => [.list [.str k!"rotate", v.canon]]) ++ ifL (!o.font.isEmpty) [o.font.toVal] ++
    (optL o.justify fun v => [v.toVal]) ++ (optL o.maxlen fun v => [.list [.str k!"maxlen", v.canon]]) ++
    (optL o.maxheight fun v => [.list [.str k!"maxheight", v.canon]]) ++
    (optL o.repeat fun v => [.list [.str k!"repeat", v.canon]]) ++
    (optL o.incrx fun v => [.list [.str k!"incrx", v.canon]]) ++
    (optL o.incry fun v => [.list [.str k!"incry", v.canon]]) ++
    (optL o.incrlabel fun v => [.list [.str k!"incrlabel", v.canon]]) ++
    (optL o.comment fun v => [.list [.str k!"comment", v.canon]]))

structure TbText.WF [TextRule] (o : TbText) : Prop where
  text : TextOk o.text
  name : TextOk o.name
  position : o.position.WF
  option : ∀ v, o.option = some v → TokOk v
  rotate : ∀ v, o.rotate = some v → NumOk v
  font : o.font.WF
  justify : ∀ v, o.justify = some v → v.WF
  /-- an empty justification is not written -/
  justify_ne : ∀ v, o.justify = some v → v.isEmpty = false
  maxlen : ∀ v, o.maxlen = some v → NumOk v
  maxheight : ∀ v, o.maxheight = some v → NumOk v
  «repeat» : ∀ v, o.repeat = some v → NumOk v
  incrx : ∀ v, o.incrx = some v → NumOk v
  incry : ∀ v, o.incry = some v → NumOk v
  incrlabel : ∀ v, o.incrlabel = some v → NumOk v
  comment : ∀ v, o.comment = some v → TextOk v

def Setup.toVal (o : Setup) : Val :=
  .list ([.str k!"setup", o.textSize.toVal, .list [.str k!"linewidth", o.lineWidth.canon], .list [.str k!"textlinewidth", o.textLineWidth.canon], .list [.str k!"left_margin", o.leftMargin.canon], .list [.str k!"right_margin", o.rightMargin.canon], .list [.str k!"top_margin", o.topMargin.canon], .list [.str k!"bottom_margin", o.bottomMargin.canon]])

structure Setup.WF [TextRule] (o : Setup) : Prop where
  textSize : o.textSize.WF
  lineWidth : NumOk o.lineWidth
  textLineWidth : NumOk o.textLineWidth
  leftMargin : NumOk o.leftMargin
  rightMargin : NumOk o.rightMargin
  topMargin : NumOk o.topMargin
  bottomMargin : NumOk o.bottomMargin

def WksItem.toVal : WksItem → Val
  | .line o => o.toVal k!"line"
  | .rect o => o.toVal k!"rect"
  | .polygon => .list [.str k!"polygon"]
  | .bitmap o => o.toVal
  | .tbtext o => o.toVal

/-- Polygons can be neither written nor read. -/
def WksItem.WF [TextRule] : WksItem → Prop
  | .line o => o.WF
  | .rect o => o.WF
  | .polygon => False
  | .bitmap o => o.WF
  | .tbtext o => o.WF

def WorkSheet.toVal (o : WorkSheet) : Val :=
  .list ([.str k!"kicad_wks", .list [.str k!"version", o.version.canon], .list [.str k!"generator", o.generator.canon], o.setup.toVal] ++
    o.drawingObjects.map WksItem.toVal)

structure WorkSheet.WF [TextRule] (o : WorkSheet) : Prop where
  version : NumOk o.version
  generator : TokOk o.generator
  setup : o.setup.WF
  drawingObjects : ∀ v ∈ o.drawingObjects, v.WF

end Kiutils
