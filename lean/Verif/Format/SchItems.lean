import Verif.Model.SchItems
import Verif.Format.Common
/-!
# Items of schematics: values and well-formedness
-/
namespace Kiutils

/-- The value of the colour of a junction, if it is a colour. -/
def JunctionColor.toVal : JunctionColor → Val
  | .rgba c => c.toVal
  | .raw v => v

/-- `Junction.color` must be a colour: anything else cannot be written. -/
def JunctionColor.WF : JunctionColor → Prop
  | .rgba c => c.WF
  | .raw _ => False

/-- What is left of a junction after reading it back: the diameter is lost (see `Junction.step`). -/
def Junction.asRead (o : Junction) : Junction := { o with diameter := .int 0 }

def Junction.toVal (o : Junction) : Val :=
  .list ([.str k!"junction", o.position.toValXY k!"at", .list [.str k!"diameter", o.diameter.canon], o.color.toVal] ++
    (optL o.uuid fun v => [.list [.str k!"uuid", v.canon]]))

structure Junction.WF [TextRule] (o : Junction) : Prop where
  position : o.position.WFXY
  diameter : NumOk o.diameter
  color : o.color.WF
  uuid : ∀ v, o.uuid = some v → TokOk v

def NoConnect.toVal (o : NoConnect) : Val :=
  .list ([.str k!"no_connect", o.position.toValXY k!"at"] ++ (optL o.uuid fun v => [.list [.str k!"uuid", v.canon]]))

structure NoConnect.WF [TextRule] (o : NoConnect) : Prop where
  position : o.position.WFXY
  uuid : ∀ v, o.uuid = some v → TokOk v

def BusEntry.toVal (o : BusEntry) : Val :=
  .list ([.str k!"bus_entry", o.position.toValXY k!"at", o.size.toValXY k!"size", o.stroke.toVal] ++
    (optL o.uuid fun v => [.list [.str k!"uuid", v.canon]]))

structure BusEntry.WF [TextRule] (o : BusEntry) : Prop where
  position : o.position.WFXY
  size : o.size.WFXY
  stroke : o.stroke.WF
  uuid : ∀ v, o.uuid = some v → TokOk v

def BusAlias.toVal (o : BusAlias) : Val :=
  .list [.str k!"bus_alias", o.name.canon, .list (.str k!"members" :: o.members.map Val.canon)]

structure BusAlias.WF [TextRule] (o : BusAlias) : Prop where
  name : TextOk o.name
  members : ∀ v ∈ o.members, TextOk v

def Connection.toVal (o : Connection) : Val :=
  .list ([o.type.canon, .list (.str k!"pts" :: o.points.map (Position.toValXY k!"xy")), o.stroke.toVal] ++
    (optL o.uuid fun v => [.list [.str k!"uuid", v.canon]]))

structure Connection.WF [TextRule] (o : Connection) : Prop where
  type : o.type = .str k!"wire" ∨ o.type = .str k!"bus"
  points : ∀ v ∈ o.points, v.WFXY
  stroke : o.stroke.WF
  uuid : ∀ v, o.uuid = some v → TokOk v

def PolyLine.toVal (o : PolyLine) : Val :=
  .list ([.str k!"polyline", .list (.str k!"pts" :: o.points.map (Position.toValXY k!"xy")), o.stroke.toVal] ++
    (optL o.uuid fun v => [.list [.str k!"uuid", v.canon]]))

structure PolyLine.WF [TextRule] (o : PolyLine) : Prop where
  points : ∀ v ∈ o.points, v.WFXY
  stroke : o.stroke.WF
  uuid : ∀ v, o.uuid = some v → TokOk v

def Text.toVal (o : Text) : Val :=
  .list ([.str k!"text", o.text.canon, o.position.toVal k!"at", o.effects.toVal] ++
    (optL o.uuid fun v => [.list [.str k!"uuid", v.canon]]))

structure Text.WF [TextRule] (o : Text) : Prop where
  text : TextOk o.text
  position : o.position.WF
  effects : o.effects.WF
  uuid : ∀ v, o.uuid = some v → TokOk v

def TextBox.toVal (o : TextBox) : Val :=
  .list ([.str k!"text_box", o.text.canon, o.position.toVal k!"at", o.size.toValXY k!"size", o.stroke.toVal, o.fill.toVal, o.effects.toVal] ++
    (optL o.uuid fun v => [.list [.str k!"uuid", v.canon]]))

structure TextBox.WF [TextRule] (o : TextBox) : Prop where
  text : TextOk o.text
  position : o.position.WF
  size : o.size.WFXY
  stroke : o.stroke.WF
  fill : o.fill.WF
  effects : o.effects.WF
  uuid : ∀ v, o.uuid = some v → TokOk v

def LocalLabel.toVal (o : LocalLabel) : Val :=
  .list ([.str k!"label", o.text.canon, o.position.toVal k!"at"] ++
    ifL o.fieldsAutoplaced [.list [.str k!"fields_autoplaced"]] ++ [o.effects.toVal] ++
    (optL o.uuid fun v => [.list [.str k!"uuid", v.canon]]))

structure LocalLabel.WF [TextRule] (o : LocalLabel) : Prop where
  text : TextOk o.text
  position : o.position.WF
  effects : o.effects.WF
  uuid : ∀ v, o.uuid = some v → TokOk v

def GlobalLabel.toVal (o : GlobalLabel) : Val :=
  .list ([.str k!"global_label", o.text.canon, .list [.str k!"shape", o.shape.canon], o.position.toVal k!"at"] ++
    ifL o.fieldsAutoplaced [.list [.str k!"fields_autoplaced"]] ++ [o.effects.toVal] ++
    (optL o.uuid fun v => [.list [.str k!"uuid", v.canon]]) ++ o.properties.map Property.toVal)

structure GlobalLabel.WF [TextRule] (o : GlobalLabel) : Prop where
  text : TextOk o.text
  shape : TokOk o.shape
  position : o.position.WF
  effects : o.effects.WF
  uuid : ∀ v, o.uuid = some v → TokOk v
  properties : ∀ v ∈ o.properties, v.WF

def HierarchicalLabel.toVal (o : HierarchicalLabel) : Val :=
  .list ([.str k!"hierarchical_label", o.text.canon, .list [.str k!"shape", o.shape.canon], o.position.toVal k!"at"] ++
    ifL o.fieldsAutoplaced [.list [.str k!"fields_autoplaced"]] ++ [o.effects.toVal] ++
    (optL o.uuid fun v => [.list [.str k!"uuid", v.canon]]))

structure HierarchicalLabel.WF [TextRule] (o : HierarchicalLabel) : Prop where
  text : TextOk o.text
  shape : TokOk o.shape
  position : o.position.WF
  effects : o.effects.WF
  uuid : ∀ v, o.uuid = some v → TokOk v

def SymbolProjectPath.toVal (o : SymbolProjectPath) : Val :=
  .list ([.str k!"path", o.sheetInstancePath.canon, .list [.str k!"reference", o.reference.canon], .list [.str k!"unit", o.unit.canon]])

structure SymbolProjectPath.WF [TextRule] (o : SymbolProjectPath) : Prop where
  sheetInstancePath : TextOk o.sheetInstancePath
  reference : TextOk o.reference
  unit : NumOk o.unit

def SymbolProjectInstance.toVal (o : SymbolProjectInstance) : Val :=
  .list ([.str k!"project", o.name.canon] ++ o.paths.map SymbolProjectPath.toVal)

structure SymbolProjectInstance.WF [TextRule] (o : SymbolProjectInstance) : Prop where
  name : TextOk o.name
  paths : ∀ v ∈ o.paths, v.WF

/-- The two parts of the library identifier of a schematic symbol that survive being written as one string: a nickname without a
colon (but possibly one at its start) and an entry name, or an entry name without a colon (but possibly one at its start or at its
end). -/
inductive SchIdOk [TextRule] : Option Val → Option Val → Prop
  | nick (n e : Str) : n ≠ [] → ':' ∉ n.drop 1 → '\n' ∉ n → e ≠ [] → '\n' ∉ e → TextRule.named n e →
      SchIdOk (some (.str n)) (some (.str e))
  | plain (e : Str) : ':' ∉ (e.drop 1).dropLast → TextRule.text e → SchIdOk none (some (.str e))

def SchematicSymbol.toVal (o : SchematicSymbol) : Val :=
  .list ([.str k!"symbol"] ++ (optL o.libName fun v => [.list [.str k!"lib_name", v.canon]]) ++
    [.list [.str k!"lib_id", .str o.libId], o.position.toVal k!"at"] ++
    (optL o.mirror fun v => [.list [.str k!"mirror", v.canon]]) ++
    (optL o.unit fun v => [.list [.str k!"unit", v.canon]]) ++
    [.list [.str k!"in_bom", .str (yesNo o.inBom)], .list [.str k!"on_board", .str (yesNo o.onBoard)]] ++
    (optL o.dnp fun b => [.list [.str k!"dnp", .str (yesNo b)]]) ++
    ifL o.fieldsAutoplaced [.list [.str k!"fields_autoplaced"]] ++
    (optL o.uuid fun u => ifL u.truthy [.list [.str k!"uuid", u.canon]]) ++ o.properties.map Property.toVal ++
    (o.pins.map fun p => .list [.str k!"pin", p.1.canon, .list [.str k!"uuid", p.2.canon]]) ++
    ifL (!o.instances.isEmpty) [.list (.str k!"instances" :: o.instances.map SymbolProjectInstance.toVal)])

structure SchematicSymbol.WF [TextRule] (o : SchematicSymbol) : Prop where
  libName : ∀ v, o.libName = some v → TextOk v
  id : SchIdOk o.libraryNickname o.entryName
  position : o.position.WF
  mirror : ∀ v, o.mirror = some v → TokOk v
  unit : ∀ v, o.unit = some v → NumOk v
  /-- a missing identifier is read back as the empty string -/
  uuid : ∃ u, o.uuid = some u ∧ (u = .str [] ∨ TokOk u)
  properties : ∀ v ∈ o.properties, v.WF
  pinNumbers : ∀ p ∈ o.pins, TextOk p.1
  pinIds : ∀ p ∈ o.pins, TokOk p.2
  /-- it is a dict: no two keys are equal -/
  distinct : o.pins.Pairwise fun a b => a.1.keyEq b.1 = false
  instances : ∀ v ∈ o.instances, v.WF

def HierarchicalPin.toVal (o : HierarchicalPin) : Val :=
  .list ([.str k!"pin", o.name.canon, o.connectionType.canon, o.position.toVal k!"at", o.effects.toVal] ++
    (optL o.uuid fun v => [.list [.str k!"uuid", v.canon]]))

structure HierarchicalPin.WF [TextRule] (o : HierarchicalPin) : Prop where
  name : TextOk o.name
  connectionType : TokOk o.connectionType
  position : o.position.WF
  effects : o.effects.WF
  uuid : ∀ v, o.uuid = some v → TokOk v

def HierarchicalSheetProjectPath.toVal (o : HierarchicalSheetProjectPath) : Val :=
  .list ([.str k!"path", o.sheetInstancePath.canon, .list [.str k!"page", o.page.canon]])

structure HierarchicalSheetProjectPath.WF [TextRule] (o : HierarchicalSheetProjectPath) : Prop where
  sheetInstancePath : TextOk o.sheetInstancePath
  page : TextOk o.page

def HierarchicalSheetProjectInstance.toVal (o : HierarchicalSheetProjectInstance) : Val :=
  .list ([.str k!"project", o.name.canon] ++ o.paths.map HierarchicalSheetProjectPath.toVal)

structure HierarchicalSheetProjectInstance.WF [TextRule] (o : HierarchicalSheetProjectInstance) : Prop where
  name : TextOk o.name
  paths : ∀ v ∈ o.paths, v.WF

/-- Printing the number with `p` decimals loses nothing. -/
def FixOk (p : Nat) (v : Val) : Prop := ∃ n : NumLit, n.Wf ∧ n.src = fmtFixedVal p v ∧ n.val = v.canon

/-- A colour whose alpha value is either printed in full, or printed with `precision` decimals without loss. -/
structure ColorRGBA.WFPrec (o : ColorRGBA) : Prop where
  R : NumOk o.R
  G : NumOk o.G
  B : NumOk o.B
  A : o.precision = none ∧ NumOk o.A ∨ ∃ p, o.precision = some p ∧ FixOk p o.A

/-- The precision of the fill colour is not stored in the file, `HierarchicalSheet.from_sexpr` sets it to 4. -/
def HierarchicalSheet.asRead (o : HierarchicalSheet) : HierarchicalSheet := { o with fill := { o.fill with precision := some 4 } }

def HierarchicalSheet.toVal (o : HierarchicalSheet) : Val :=
  .list ([.str k!"sheet", o.position.toValXY k!"at", .list [.str k!"size", o.width.canon, o.height.canon]] ++
    ifL o.fieldsAutoplaced [.list [.str k!"fields_autoplaced"]] ++
    [o.stroke.toVal, .list [.str k!"fill", o.fill.toVal]] ++
    (optL o.uuid fun v => [.list [.str k!"uuid", v.canon]]) ++ [o.sheetName.toVal, o.fileName.toVal] ++
    o.properties.map Property.toVal ++ o.pins.map HierarchicalPin.toVal ++
    ifL (!o.instances.isEmpty) [.list (.str k!"instances" :: o.instances.map HierarchicalSheetProjectInstance.toVal)])

structure HierarchicalSheet.WF [TextRule] (o : HierarchicalSheet) : Prop where
  position : o.position.WFXY
  width : NumOk o.width
  height : NumOk o.height
  stroke : o.stroke.WF
  fill : o.fill.WFPrec
  uuid : ∀ v, o.uuid = some v → TokOk v
  sheetName : o.sheetName.WF
  sheetName_key : o.sheetName.key = .str k!"Sheet name" ∨ o.sheetName.key = .str k!"Sheetname"
  fileName : o.fileName.WF
  fileName_key : o.fileName.key = .str k!"Sheet file" ∨ o.fileName.key = .str k!"Sheetfile"
  properties : ∀ v ∈ o.properties, v.WF
  /-- the keys of the two special properties -/
  properties_key : ∀ v ∈ o.properties, v.key ≠ .str k!"Sheet name" ∧ v.key ≠ .str k!"Sheetname" ∧ v.key ≠ .str k!"Sheet file" ∧
    v.key ≠ .str k!"Sheetfile"
  pins : ∀ v ∈ o.pins, v.WF
  instances : ∀ v ∈ o.instances, v.WF

def HierarchicalSheetInstance.toVal (o : HierarchicalSheetInstance) : Val :=
  .list ([.str k!"path", o.instancePath.canon, .list [.str k!"page", o.page.canon]])

structure HierarchicalSheetInstance.WF [TextRule] (o : HierarchicalSheetInstance) : Prop where
  instancePath : TextOk o.instancePath
  page : TextOk o.page

def SymbolInstance.toVal (o : SymbolInstance) : Val :=
  .list ([.str k!"path", o.path.canon, .list [.str k!"reference", o.reference.canon], .list [.str k!"unit", o.unit.canon], .list [.str k!"value", o.value.canon], .list [.str k!"footprint", o.footprint.canon]])

structure SymbolInstance.WF [TextRule] (o : SymbolInstance) : Prop where
  path : TextOk o.path
  reference : TextOk o.reference
  unit : NumOk o.unit
  value : TextOk o.value
  footprint : TextOk o.footprint

def Rectangle.toVal (o : Rectangle) : Val :=
  .list ([.str k!"rectangle", o.start.toValXY k!"start", o.end.toValXY k!"end", o.stroke.toVal, o.fill.toVal] ++
    (optL o.uuid fun v => [.list [.str k!"uuid", v.canon]]))

structure Rectangle.WF [TextRule] (o : Rectangle) : Prop where
  start : o.start.WFXY
  «end» : o.end.WFXY
  stroke : o.stroke.WF
  fill : o.fill.WF
  uuid : ∀ v, o.uuid = some v → TokOk v

def Arc.toVal (o : Arc) : Val :=
  .list ([.str k!"arc", o.start.toValXY k!"start", o.mid.toValXY k!"mid", o.end.toValXY k!"end", o.stroke.toVal, o.fill.toVal] ++
    (optL o.uuid fun v => [.list [.str k!"uuid", v.canon]]))

structure Arc.WF [TextRule] (o : Arc) : Prop where
  start : o.start.WFXY
  mid : o.mid.WFXY
  «end» : o.end.WFXY
  stroke : o.stroke.WF
  fill : o.fill.WF
  uuid : ∀ v, o.uuid = some v → TokOk v

def Circle.toVal (o : Circle) : Val :=
  .list ([.str k!"circle", o.center.toValXY k!"center", .list [.str k!"radius", o.radius.canon], o.stroke.toVal, o.fill.toVal] ++
    (optL o.uuid fun v => [.list [.str k!"uuid", v.canon]]))

structure Circle.WF [TextRule] (o : Circle) : Prop where
  center : o.center.WFXY
  radius : NumOk o.radius
  stroke : o.stroke.WF
  fill : o.fill.WF
  uuid : ∀ v, o.uuid = some v → TokOk v

def NetclassFlag.toVal (o : NetclassFlag) : Val :=
  .list ([.str k!"netclass_flag", o.text.canon, .list [.str k!"length", o.length.canon], .list [.str k!"shape", o.shape.canon],
    o.position.toVal k!"at"] ++ ifL o.fieldsAutoplaced [.list [.str k!"fields_autoplaced"]] ++ (optL o.effects fun e => [e.toVal]) ++
    (optL o.uuid fun v => [.list [.str k!"uuid", v.canon]]) ++ o.properties.map Property.toVal)

/-- The text effects must have been set: the default cannot be written. -/
structure NetclassFlag.WF [TextRule] (o : NetclassFlag) : Prop where
  text : TextOk o.text
  length : NumOk o.length
  shape : TokOk o.shape
  position : o.position.WF
  effects : ∃ e, o.effects = some e ∧ e.WF
  uuid : ∀ v, o.uuid = some v → TokOk v
  properties : ∀ v ∈ o.properties, v.WF

end Kiutils
