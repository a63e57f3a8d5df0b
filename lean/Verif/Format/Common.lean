import Verif.Model.Common
import Verif.Fmt
/-!
# The values that the shared items denote, and when they are well formed

`toVal` describes, independently of the text produced by `to_sexpr`, the tree that an object is written as (numbers in the form in
which they are read back). `WF` says when an object can be written and read back.
-/
namespace Kiutils

/-- `(key X Y)` or `(key X Y angle)` -/
def Position.toVal (key : Str) (o : Position) : Val :=
  .list ([.str key, o.X.canon, o.Y.canon] ++ optL o.angle fun a => [a.canon])

/-- `(key X Y)` -/
def Position.toValXY (key : Str) (o : Position) : Val := .list [.str key, o.X.canon, o.Y.canon]

structure Position.WF (o : Position) : Prop where
  X : NumOk o.X
  Y : NumOk o.Y
  angle : ∀ a, o.angle = some a → NumOk a
  unlocked : o.unlocked = false

/-- A position that is written without its angle. -/
structure Position.WFXY (o : Position) : Prop where
  X : NumOk o.X
  Y : NumOk o.Y
  angle : o.angle = none
  unlocked : o.unlocked = false

def Coordinate.toVal (o : Coordinate) : Val := .list [.str k!"xyz", o.X.canon, o.Y.canon, o.Z.canon]

structure Coordinate.WF (o : Coordinate) : Prop where
  X : NumOk o.X
  Y : NumOk o.Y
  Z : NumOk o.Z

def ColorRGBA.toVal (o : ColorRGBA) : Val := .list [.str k!"color", o.R.canon, o.G.canon, o.B.canon, o.A.canon]

structure ColorRGBA.WF (o : ColorRGBA) : Prop where
  R : NumOk o.R
  G : NumOk o.G
  B : NumOk o.B
  A : NumOk o.A
  precision : o.precision = none

def Stroke.toVal (o : Stroke) : Val :=
  .list ([.str k!"stroke", .list [.str k!"width", o.width.canon]] ++
    (optL o.type fun t => [.list [.str k!"type", t.canon]]) ++ optL o.color fun c => [c.toVal])

structure Stroke.WF [TextRule] (o : Stroke) : Prop where
  width : NumOk o.width
  type : ∀ t, o.type = some t → TokOk t
  color : ∀ c, o.color = some c → c.WF

def Font.toVal (o : Font) : Val :=
  .list ([.str k!"font"] ++ (optL o.face fun f => [.list [.str k!"face", f.canon]]) ++
    [.list [.str k!"size", o.height.canon, o.width.canon]] ++
    (optL o.color fun c => [c.toVal]) ++
    (optL o.thickness fun t => [.list [.str k!"thickness", t.canon]]) ++
    ifL o.bold [.str k!"bold"] ++ ifL o.italic [.str k!"italic"] ++
    optL o.lineSpacing fun t => [.list [.str k!"line_spacing", t.canon]])

structure Font.WF [TextRule] (o : Font) : Prop where
  face : ∀ f, o.face = some f → TextOk f
  height : NumOk o.height
  width : NumOk o.width
  thickness : ∀ t, o.thickness = some t → NumOk t
  lineSpacing : ∀ t, o.lineSpacing = some t → NumOk t
  color : ∀ c, o.color = some c → c.WF

def Justify.toVal (o : Justify) : Val :=
  .list ([.str k!"justify"] ++ (optL o.horizontally fun v => [v.canon]) ++ (optL o.vertically fun v => [v.canon]) ++
    ifL o.mirror [.str k!"mirror"])

structure Justify.WF (o : Justify) : Prop where
  horizontally : ∀ v, o.horizontally = some v → v = .str k!"left" ∨ v = .str k!"right" ∨ v = .str k!"center"
  vertically : ∀ v, o.vertically = some v → v = .str k!"top" ∨ v = .str k!"bottom"

def Effects.toVal (o : Effects) : Val :=
  .list ([.str k!"effects", o.font.toVal] ++ ifL (!o.justify.isEmpty) [o.justify.toVal] ++
    (optL o.href fun v => [.list [.str k!"href", v.canon]]) ++ ifL o.hide [.str k!"hide"])

structure Effects.WF [TextRule] (o : Effects) : Prop where
  font : o.font.WF
  justify : o.justify.WF
  href : ∀ v, o.href = some v → TextOk v

def Net.toVal (o : Net) : Val := .list [.str k!"net", o.number.canon, o.name.canon]

structure Net.WF [TextRule] (o : Net) : Prop where
  number : NumOk o.number
  name : TextOk o.name

def Group.toVal (o : Group) : Val :=
  .list ([.str k!"group", o.name.canon] ++ ifL o.locked [.str k!"locked"] ++
    [.list [.str k!"id", o.id.canon], .list (.str k!"members" :: o.members.map Val.canon)])

/-- A group may be called anything but `locked` (see `Group.step`). -/
structure Group.WF [TextRule] (o : Group) : Prop where
  name : TextOk o.name
  name_ne : o.name ≠ .str k!"locked"
  id : TokOk o.id
  members : ∀ m ∈ o.members, LineOk m

def PageSettings.toVal (o : PageSettings) : Val :=
  .list ([.str k!"paper", o.paperSize.canon] ++ (optL o.width fun v => [v.canon]) ++ (optL o.height fun v => [v.canon]) ++
    ifL o.portrait [.str k!"portrait"])

/-- Width and height belong to the user-defined size and to no other; no page size may be called `portrait`. -/
structure PageSettings.WF [TextRule] (o : PageSettings) : Prop where
  paperSize : TextOk o.paperSize
  paperSize_ne : o.paperSize ≠ .str k!"portrait"
  user : o.paperSize = .str k!"User" → (∃ w, o.width = some w ∧ NumOk w) ∧ ∃ h, o.height = some h ∧ NumOk h
  other : o.paperSize ≠ .str k!"User" → o.width = none ∧ o.height = none

def TitleBlock.toVal (o : TitleBlock) : Val :=
  .list ([.str k!"title_block"] ++ (optL o.title fun v => [.list [.str k!"title", v.canon]]) ++
    (optL o.date fun v => [.list [.str k!"date", v.canon]]) ++
    (optL o.revision fun v => [.list [.str k!"rev", v.canon]]) ++
    (optL o.company fun v => [.list [.str k!"company", v.canon]]) ++
    o.comments.map fun c => .list [.str k!"comment", c.1.canon, c.2.canon])

structure TitleBlock.WF [TextRule] (o : TitleBlock) : Prop where
  title : ∀ v, o.title = some v → TextOk v
  date : ∀ v, o.date = some v → TextOk v
  revision : ∀ v, o.revision = some v → TextOk v
  company : ∀ v, o.company = some v → TextOk v
  numbers : ∀ c ∈ o.comments, NumOk c.1
  comments : ∀ c ∈ o.comments, TextOk c.2
  /-- it is a dict: no two keys are equal -/
  distinct : o.comments.Pairwise fun a b => a.1.keyEq b.1 = false

def Property.toVal (o : Property) : Val :=
  .list ([.str k!"property", o.key.canon, o.value.canon] ++ (optL o.id fun v => [.list [.str k!"id", v.canon]]) ++
    [o.position.toVal k!"at"] ++ ifL o.showName [.list [.str k!"show_name"]] ++ optL o.effects fun e => [e.toVal])

structure Property.WF [TextRule] (o : Property) : Prop where
  key : TextOk o.key
  value : TextOk o.value
  id : ∀ v, o.id = some v → NumOk v
  position : o.position.WF
  effects : ∀ e, o.effects = some e → e.WF

def RenderCachePolygon.toVal (o : RenderCachePolygon) : Val :=
  .list [.str k!"polygon", .list (.str k!"pts" :: o.pts.map (Position.toValXY k!"xy"))]

structure RenderCachePolygon.WF (o : RenderCachePolygon) : Prop where
  pts : ∀ p ∈ o.pts, p.WFXY

def RenderCache.toVal (o : RenderCache) : Val :=
  .list ([.str k!"render_cache", o.text.canon, o.id.canon] ++ o.polygons.map RenderCachePolygon.toVal)

/-- The id must be a string (the reader takes the number at the end of the line for a string), the text not empty. -/
structure RenderCache.WF [TextRule] (o : RenderCache) : Prop where
  text : TextOk o.text
  text_ne : o.text ≠ .str []
  id : LineOk o.id
  polygons : ∀ p ∈ o.polygons, p.WF

def Fill.toVal (o : Fill) : Val :=
  .list ([.str k!"fill", .list [.str k!"type", o.type.canon]] ++ optL o.color fun c => [c.toVal])

structure Fill.WF [TextRule] (o : Fill) : Prop where
  type : TokOk o.type
  color : ∀ c, o.color = some c → c.WF

def Image.toVal (o : Image) : Val :=
  .list ([.str k!"image", o.position.toValXY k!"at"] ++ (optL o.layer fun v => [.list [.str k!"layer", v.canon]]) ++
    (optL o.scale fun v => [.list [.str k!"scale", v.canon]]) ++ (optL o.uuid fun v => [.list [.str k!"uuid", v.canon]]) ++
    [.list (.str k!"data" :: o.data.map Val.canon)])

structure Image.WF [TextRule] (o : Image) : Prop where
  position : o.position.WFXY
  scale : ∀ v, o.scale = some v → NumOk v
  data : ∀ d ∈ o.data, LineOk d
  uuid : ∀ v, o.uuid = some v → TokOk v
  layer : ∀ v, o.layer = some v → TextOk v

end Kiutils
