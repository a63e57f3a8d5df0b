import Verif.Model.Common
import Verif.Model.SyItems
import Verif.Model.LibId
import Verif.Model.Symbol
/-!
# `src/kiutils/items/schitems.py`
-/
namespace Kiutils

/-- The attribute `Junction.color` (schitems.py 40): a colour, or whatever line 71 stores there. -/
inductive JunctionColor where
  | rgba (c : ColorRGBA)
  | raw (v : Val)

instance : Canon JunctionColor := ⟨fun
  | .rgba c => .rgba (canon c)
  | .raw v => .raw (canon v)⟩

/-- `self.color.to_sexpr()` (schitems.py 88): numbers and strings have no such method. -/
def JunctionColor.toSexpr : JunctionColor → PyM Str
  | .rgba c => .ok c.toSexpr
  | .raw _ => .error .attributeError

/-- schitems.py 26–45 -/
structure Junction where
  position : Position := {}
  diameter : Val := .int 0
  color : JunctionColor := .rgba {}
  uuid : Option Val := none
derive_canon Junction

/-- Loop body, schitems.py 69–72. Line 71 stores the diameter in `color`. -/
def Junction.step (o : Junction) (item : Val) : PyM Junction := do
  let k ← item.idx 0
  if k.is k!"at" then return { o with position := ← Position.fromSexpr item }
  else if k.is k!"color" then return { o with color := .rgba (← ColorRGBA.fromSexpr item) }
  else if k.is k!"diameter" then return { o with color := .raw (← item.idx 1) }
  else if k.is k!"uuid" then return { o with uuid := some (← item.idx 1) }
  else return o

/-- schitems.py 47–73 -/
def Junction.fromSexpr (exp : Val) : PyM Junction := do
  forM Junction.step {} (← checkHead k!"junction" exp)

/-- schitems.py 75–89 -/
def Junction.toSexpr (o : Junction) (indent : Nat := 2) (newline : Bool := true) : PyM Str := do
  let uuid := optS o.uuid fun u => py!"\n{indents indent}  (uuid {u.pyStr})\n"
  let color ← o.color.toSexpr
  return py!"{indents indent}(junction (at {o.position.X.pyStr} {o.position.Y.pyStr}) (diameter {o.diameter.pyStr}) {color}{uuid}{indents indent}){endl newline}"

/-- schitems.py 92–103 -/
structure NoConnect where
  position : Position := {}
  uuid : Option Val := none
derive_canon NoConnect

/-- Loop body, schitems.py 127–128 -/
def NoConnect.step (o : NoConnect) (item : Val) : PyM NoConnect := do
  let k ← item.idx 0
  if k.is k!"at" then return { o with position := ← Position.fromSexpr item }
  else if k.is k!"uuid" then return { o with uuid := some (← item.idx 1) }
  else return o

/-- schitems.py 105–129 -/
def NoConnect.fromSexpr (exp : Val) : PyM NoConnect := do
  forM NoConnect.step {} (← checkHead k!"no_connect" exp)

/-- schitems.py 131–145 -/
def NoConnect.toSexpr (o : NoConnect) (indent : Nat := 2) (newline : Bool := true) : Str :=
  let uuid := optS o.uuid fun u => py!" (uuid {u.pyStr})"
  py!"{indents indent}(no_connect (at {o.position.X.pyStr} {o.position.Y.pyStr}){uuid}){endl newline}"

/-- schitems.py 148–166 -/
structure BusEntry where
  position : Position := {}
  uuid : Option Val := none
  size : Position := {}
  stroke : Stroke := {}
derive_canon BusEntry

/-- Loop body, schitems.py 190–193 -/
def BusEntry.step (o : BusEntry) (item : Val) : PyM BusEntry := do
  let k ← item.idx 0
  if k.is k!"at" then return { o with position := ← Position.fromSexpr item }
  else if k.is k!"stroke" then return { o with stroke := ← Stroke.fromSexpr item }
  else if k.is k!"size" then return { o with size := ← Position.fromSexpr item }
  else if k.is k!"uuid" then return { o with uuid := some (← item.idx 1) }
  else return o

/-- schitems.py 168–194 -/
def BusEntry.fromSexpr (exp : Val) : PyM BusEntry := do
  forM BusEntry.step {} (← checkHead k!"bus_entry" exp)

/-- schitems.py 196–214 -/
def BusEntry.toSexpr (o : BusEntry) (indent : Nat := 2) (newline : Bool := true) : Str :=
  py!"{indents indent}(bus_entry (at {o.position.X.pyStr} {o.position.Y.pyStr}) (size {o.size.X.pyStr} {o.size.Y.pyStr})\n" ++
  o.stroke.toSexpr (indent + 2) ++ (optS o.uuid fun u => py!"{indents indent}  (uuid {u.pyStr})\n") ++
  py!"{indents indent}){endl newline}"

/-- schitems.py 217–229 -/
structure BusAlias where
  name : Val := st k!""
  members : List Val := []
derive_canon BusAlias

/-- schitems.py 231–262. `exp[2][0]` on an empty list raises `IndexError`. -/
def BusAlias.fromSexpr (exp : Val) : PyM BusAlias := do
  let l ← checkHead k!"bus_alias" exp
  match l with
  | [_, name, .list (k :: ms)] => if k.is k!"members" then return { name := name, members := ms } else .error .exception
  | [_, _, .list []] => .error .indexError
  | _ => .error .exception

/-- `" ".join(members)` of the quoted members, schitems.py 277–278 -/
def joinQuoted : List Val → Str
  | [] => []
  | [v] => py!"\"{dq v}\""
  | v :: r => py!"\"{dq v}\" {joinQuoted r}"

/-- schitems.py 264–279 -/
def BusAlias.toSexpr (o : BusAlias) (indent : Nat := 2) (newline : Bool := true) : Str :=
  py!"{indents indent}(bus_alias \"{dq o.name}\" (members {joinQuoted o.members})){endl newline}"

/-- schitems.py 282–300 -/
structure Connection where
  type : Val := st k!"wire"
  points : List Position := []
  stroke : Stroke := {}
  uuid : Option Val := none
derive_canon Connection

/-- Loop body, schitems.py 325–329 -/
def Connection.step (o : Connection) (item : Val) : PyM Connection := do
  let k ← item.idx 0
  if k.is k!"pts" then return { o with points := o.points ++ (← mapM' Position.fromSexpr (← item.slice 1)) }
  else if k.is k!"stroke" then return { o with stroke := ← Stroke.fromSexpr item }
  else if k.is k!"uuid" then return { o with uuid := some (← item.idx 1) }
  else return o

/-- schitems.py 302–330 -/
def Connection.fromSexpr (exp : Val) : PyM Connection :=
  match exp with
  | .list (h :: r) =>
    if h.is k!"wire" || h.is k!"bus" then forM Connection.step { type := h } (h :: r) else .error .exception
  | .list [] => .error .indexError
  | _ => .error .exception

/-- schitems.py 332–354 -/
def Connection.toSexpr (o : Connection) (indent : Nat := 2) (newline : Bool := true) : Str :=
  let points := forS o.points fun p => py!" (xy {p.X.pyStr} {p.Y.pyStr})"
  py!"{indents indent}({o.type.pyStr} (pts{points})\n" ++ o.stroke.toSexpr (indent + 2) ++
  (optS o.uuid fun u => py!"{indents indent}  (uuid {u.pyStr})\n") ++
  py!"{indents indent}){endl newline}"

/-- schitems.py 357–372 -/
structure PolyLine where
  points : List Position := []
  stroke : Stroke := {}
  uuid : Option Val := none
derive_canon PolyLine

/-- Loop body, schitems.py 396–400 -/
def PolyLine.step (o : PolyLine) (item : Val) : PyM PolyLine := do
  let k ← item.idx 0
  if k.is k!"pts" then return { o with points := o.points ++ (← mapM' Position.fromSexpr (← item.slice 1)) }
  else if k.is k!"stroke" then return { o with stroke := ← Stroke.fromSexpr item }
  else if k.is k!"uuid" then return { o with uuid := some (← item.idx 1) }
  else return o

/-- schitems.py 374–401 -/
def PolyLine.fromSexpr (exp : Val) : PyM PolyLine := do
  forM PolyLine.step {} (← checkHead k!"polyline" exp)

/-- schitems.py 403–425 -/
def PolyLine.toSexpr (o : PolyLine) (indent : Nat := 2) (newline : Bool := true) : Str :=
  let points := forS o.points fun p => py!" (xy {p.X.pyStr} {p.Y.pyStr})"
  py!"{indents indent}(polyline (pts{points})\n" ++ o.stroke.toSexpr (indent + 2) ++
  (optS o.uuid fun u => py!"{indents indent}  (uuid {u.pyStr})\n") ++
  py!"{indents indent}){endl newline}"

/-- schitems.py 428–445 -/
structure Text where
  text : Val := st k!""
  position : Position := {}
  effects : Effects := {}
  uuid : Option Val := none
derive_canon Text

/-- Loop body, schitems.py 470–472 -/
def Text.step (o : Text) (item : Val) : PyM Text := do
  let k ← item.idx 0
  if k.is k!"at" then return { o with position := ← Position.fromSexpr item }
  else if k.is k!"effects" then return { o with effects := ← Effects.fromSexpr item }
  else if k.is k!"uuid" then return { o with uuid := some (← item.idx 1) }
  else return o

/-- schitems.py 447–473 -/
def Text.fromSexpr (exp : Val) : PyM Text := do
  let l ← checkHead k!"text" exp
  let a1 ← getI l 1
  forM Text.step { text := a1 } (l.drop 2)

/-- schitems.py 475–502. `len(self.text)` raises if the text is a number. -/
def Text.toSexpr (o : Text) (indent : Nat := 2) (newline : Bool := true) : PyM Str := do
  let n ← o.text.len
  return py!"{indents indent}(text \"{dq o.text}\"" ++
    (if n ≥ 50 then py!"\n{indents indent}  " else py!" ") ++
    py!"(at {o.position.X.pyStr} {o.position.Y.pyStr}{o.position.ang})\n" ++ o.effects.toSexpr (indent + 2) ++
    (optS o.uuid fun u => py!"{indents indent}  (uuid {u.pyStr})\n") ++
    py!"{indents indent}){endl newline}"

/-- schitems.py 505–532 -/
structure TextBox where
  text : Val := st k!""
  position : Position := {}
  size : Position := {}
  stroke : Stroke := {}
  fill : Fill := {}
  effects : Effects := {}
  uuid : Option Val := none
derive_canon TextBox

/-- Loop body, schitems.py 557–562 -/
def TextBox.step (o : TextBox) (item : Val) : PyM TextBox := do
  let k ← item.idx 0
  if k.is k!"at" then return { o with position := ← Position.fromSexpr item }
  else if k.is k!"size" then return { o with size := ← Position.fromSexpr item }
  else if k.is k!"effects" then return { o with effects := ← Effects.fromSexpr item }
  else if k.is k!"stroke" then return { o with stroke := ← Stroke.fromSexpr item }
  else if k.is k!"fill" then return { o with fill := ← Fill.fromSexpr item }
  else if k.is k!"uuid" then return { o with uuid := some (← item.idx 1) }
  else return o

/-- schitems.py 534–563 -/
def TextBox.fromSexpr (exp : Val) : PyM TextBox := do
  let l ← checkHead k!"text_box" exp
  let a1 ← getI l 1
  forM TextBox.step { text := a1 } (l.drop 2)

/-- schitems.py 565–588 -/
def TextBox.toSexpr (o : TextBox) (indent : Nat := 2) (newline : Bool := true) : Str :=
  py!"{indents indent}(text_box \"{dq o.text}\"\n" ++
  py!"{indents indent}  (at {o.position.X.pyStr} {o.position.Y.pyStr}{o.position.ang}) (size {o.size.X.pyStr} {o.size.Y.pyStr})\n" ++
  o.stroke.toSexpr (indent + 2) ++ o.fill.toSexpr (indent + 2) ++ o.effects.toSexpr (indent + 2) ++
  (optS o.uuid fun u => py!"{indents indent}  (uuid {u.pyStr})\n") ++
  py!"{indents indent}){endl newline}"

/-- schitems.py 591–612 -/
structure LocalLabel where
  text : Val := st k!""
  position : Position := {}
  effects : Effects := {}
  uuid : Option Val := none
  fieldsAutoplaced : Bool := false
derive_canon LocalLabel

/-- Loop body, schitems.py 637–640 -/
def LocalLabel.step (o : LocalLabel) (item : Val) : PyM LocalLabel := do
  let k ← item.idx 0
  if k.is k!"at" then return { o with position := ← Position.fromSexpr item }
  else if k.is k!"effects" then return { o with effects := ← Effects.fromSexpr item }
  else if k.is k!"uuid" then return { o with uuid := some (← item.idx 1) }
  else if k.is k!"fields_autoplaced" then return { o with fieldsAutoplaced := true }
  else return o

/-- schitems.py 614–641 -/
def LocalLabel.fromSexpr (exp : Val) : PyM LocalLabel := do
  let l ← checkHead k!"label" exp
  let a1 ← getI l 1
  forM LocalLabel.step { text := a1 } (l.drop 2)

/-- schitems.py 643–664 -/
def LocalLabel.toSexpr (o : LocalLabel) (indent : Nat := 2) (newline : Bool := true) : Str :=
  let fa := ifS o.fieldsAutoplaced py!" (fields_autoplaced)"
  py!"{indents indent}(label \"{dq o.text}\" (at {o.position.X.pyStr} {o.position.Y.pyStr}{o.position.ang}){fa}\n" ++
  o.effects.toSexpr (indent + 2) ++
  (optS o.uuid fun u => py!"{indents indent}  (uuid {u.pyStr})\n") ++
  py!"{indents indent}){endl newline}"

/-- schitems.py 667–696 -/
structure GlobalLabel where
  text : Val := st k!""
  shape : Val := st k!"input"
  fieldsAutoplaced : Bool := false
  position : Position := {}
  effects : Effects := {}
  uuid : Option Val := none
  properties : List Property := []
derive_canon GlobalLabel

/-- Loop body, schitems.py 721–726 -/
def GlobalLabel.step (o : GlobalLabel) (item : Val) : PyM GlobalLabel := do
  let k ← item.idx 0
  if k.is k!"fields_autoplaced" then return { o with fieldsAutoplaced := true }
  else if k.is k!"at" then return { o with position := ← Position.fromSexpr item }
  else if k.is k!"effects" then return { o with effects := ← Effects.fromSexpr item }
  else if k.is k!"property" then return { o with properties := o.properties ++ [← Property.fromSexpr item] }
  else if k.is k!"shape" then return { o with shape := ← item.idx 1 }
  else if k.is k!"uuid" then return { o with uuid := some (← item.idx 1) }
  else return o

/-- schitems.py 698–727 -/
def GlobalLabel.fromSexpr (exp : Val) : PyM GlobalLabel := do
  let l ← checkHead k!"global_label" exp
  let a1 ← getI l 1
  forM GlobalLabel.step { text := a1 } (l.drop 2)

/-- schitems.py 729–752 -/
def GlobalLabel.toSexpr (o : GlobalLabel) (indent : Nat := 2) (newline : Bool := true) : Str :=
  let fa := ifS o.fieldsAutoplaced py!" (fields_autoplaced)"
  py!"{indents indent}(global_label \"{dq o.text}\" (shape {o.shape.pyStr}) (at {o.position.X.pyStr} {o.position.Y.pyStr}{o.position.ang}){fa}\n" ++
  o.effects.toSexpr (indent + 2) ++
  (optS o.uuid fun u => py!"{indents indent}  (uuid {u.pyStr})\n") ++
  (forS o.properties fun p => p.toSexpr (indent + 2)) ++
  py!"{indents indent}){endl newline}"

/-- schitems.py 755–781 -/
structure HierarchicalLabel where
  text : Val := st k!""
  shape : Val := st k!"input"
  position : Position := {}
  effects : Effects := {}
  uuid : Option Val := none
  fieldsAutoplaced : Bool := false
derive_canon HierarchicalLabel

/-- Loop body, schitems.py 806–810 -/
def HierarchicalLabel.step (o : HierarchicalLabel) (item : Val) : PyM HierarchicalLabel := do
  let k ← item.idx 0
  if k.is k!"at" then return { o with position := ← Position.fromSexpr item }
  else if k.is k!"effects" then return { o with effects := ← Effects.fromSexpr item }
  else if k.is k!"shape" then return { o with shape := ← item.idx 1 }
  else if k.is k!"uuid" then return { o with uuid := some (← item.idx 1) }
  else if k.is k!"fields_autoplaced" then return { o with fieldsAutoplaced := true }
  else return o

/-- schitems.py 783–811 -/
def HierarchicalLabel.fromSexpr (exp : Val) : PyM HierarchicalLabel := do
  let l ← checkHead k!"hierarchical_label" exp
  let a1 ← getI l 1
  forM HierarchicalLabel.step { text := a1 } (l.drop 2)

/-- schitems.py 813–834 -/
def HierarchicalLabel.toSexpr (o : HierarchicalLabel) (indent : Nat := 2) (newline : Bool := true) : Str :=
  let fa := ifS o.fieldsAutoplaced py!" (fields_autoplaced)"
  py!"{indents indent}(hierarchical_label \"{dq o.text}\" (shape {o.shape.pyStr}) (at {o.position.X.pyStr} {o.position.Y.pyStr}{o.position.ang}){fa}\n" ++
  o.effects.toSexpr (indent + 2) ++
  (optS o.uuid fun u => py!"{indents indent}  (uuid {u.pyStr})\n") ++
  py!"{indents indent}){endl newline}"

/-- schitems.py 837–856 -/
structure SymbolProjectPath where
  sheetInstancePath : Val := st k!""
  reference : Val := st k!""
  unit : Val := .int 1
derive_canon SymbolProjectPath

/-- Loop body, schitems.py 881–882 -/
def SymbolProjectPath.step (o : SymbolProjectPath) (item : Val) : PyM SymbolProjectPath := do
  let k ← item.idx 0
  if k.is k!"reference" then return { o with reference := ← item.idx 1 }
  else if k.is k!"unit" then return { o with unit := ← item.idx 1 }
  else return o

/-- schitems.py 858–883 (`len(exp) < 2` is rejected before the head is looked at) -/
def SymbolProjectPath.fromSexpr (exp : Val) : PyM SymbolProjectPath :=
  match exp with
  | .list (h :: a :: r) => if h.is k!"path" then forM SymbolProjectPath.step { sheetInstancePath := a } r else .error .exception
  | _ => .error .exception

/-- schitems.py 885–900 -/
def SymbolProjectPath.toSexpr (o : SymbolProjectPath) (indent : Nat := 4) (newline : Bool := true) : Str :=
  py!"{indents indent}(path \"{dq o.sheetInstancePath}\"\n" ++
  py!"{indents indent}  (reference \"{dq o.reference}\") (unit {o.unit.pyStr})\n" ++
  py!"{indents indent}){endl newline}"

/-- schitems.py 903–916 and common.py 1164–1170 -/
structure SymbolProjectInstance where
  name : Val := st k!""
  paths : List SymbolProjectPath := []
derive_canon SymbolProjectInstance

/-- Loop body, schitems.py 941 -/
def SymbolProjectInstance.step (o : SymbolProjectInstance) (item : Val) : PyM SymbolProjectInstance := do
  let k ← item.idx 0
  if k.is k!"path" then return { o with paths := o.paths ++ [← SymbolProjectPath.fromSexpr item] }
  else return o

/-- schitems.py 918–942 (`len(exp) < 2` is rejected before the head is looked at) -/
def SymbolProjectInstance.fromSexpr (exp : Val) : PyM SymbolProjectInstance :=
  match exp with
  | .list (h :: a :: r) => if h.is k!"project" then forM SymbolProjectInstance.step { name := a } r else .error .exception
  | _ => .error .exception

/-- schitems.py 944–960 -/
def SymbolProjectInstance.toSexpr (o : SymbolProjectInstance) (indent : Nat := 2) (newline : Bool := true) : Str :=
  py!"{indents indent}(project \"{dq o.name}\"\n" ++
  (forS o.paths fun p => p.toSexpr (indent + 2)) ++
  py!"{indents indent}){endl newline}"

/-- schitems.py 963–1060 -/
structure SchematicSymbol where
  libraryNickname : Option Val := none
  entryName : Option Val := none
  libName : Option Val := none
  position : Position := {}
  unit : Option Val := none
  inBom : Bool := false
  onBoard : Bool := false
  dnp : Option Bool := none
  fieldsAutoplaced : Bool := false
  uuid : Option Val := some (st k!"")
  properties : List Property := []
  pins : Dict Val := []
  mirror : Option Val := none
  instances : List SymbolProjectInstance := []
derive_canon SchematicSymbol

/-- Getter of `libId`, schitems.py 971–985 -/
def SchematicSymbol.libId (o : SchematicSymbol) : Str :=
  match o.libraryNickname with
  | some n => if n.truthy then py!"{n.pyStr}:{optPyStr o.entryName}" else optPyStr o.entryName
  | none => optPyStr o.entryName

/-- Setter of `libId`, schitems.py 987–1002. `re.match` needs a string. -/
def SchematicSymbol.setLibId (o : SchematicSymbol) (id : Val) : PyM SchematicSymbol :=
  match id with
  | .str s => match matchNick s with
    | some (n, e) => .ok { o with libraryNickname := some (.str n), entryName := some (.str e) }
    | none => .ok { o with libraryNickname := none, entryName := some id }
  | _ => .error .typeError

/-- Loop body, schitems.py 1084–1098 -/
def SchematicSymbol.step (o : SchematicSymbol) (item : Val) : PyM SchematicSymbol := do
  let k ← item.idx 0
  if k.is k!"fields_autoplaced" then return { o with fieldsAutoplaced := true }
  else if k.is k!"lib_id" then o.setLibId (← item.idx 1)
  else if k.is k!"lib_name" then return { o with libName := some (← item.idx 1) }
  else if k.is k!"uuid" then return { o with uuid := some (← item.idx 1) }
  else if k.is k!"unit" then return { o with unit := some (← item.idx 1) }
  else if k.is k!"in_bom" then return { o with inBom := (← item.idx 1).is k!"yes" }
  else if k.is k!"on_board" then return { o with onBoard := (← item.idx 1).is k!"yes" }
  else if k.is k!"dnp" then return { o with dnp := some ((← item.idx 1).is k!"yes") }
  else if k.is k!"at" then return { o with position := ← Position.fromSexpr item }
  else if k.is k!"property" then return { o with properties := o.properties ++ [← Property.fromSexpr item] }
  else if k.is k!"pin" then
    let n ← item.idx 1
    let u ← (← item.idx 2).idx 1
    return { o with pins := ← o.pins.update n u }
  else if k.is k!"mirror" then return { o with mirror := some (← item.idx 1) }
  else if k.is k!"instances" then return { o with instances := o.instances ++ (← mapM' SymbolProjectInstance.fromSexpr (← item.slice 1)) }
  else return o

/-- schitems.py 1062–1100 -/
def SchematicSymbol.fromSexpr (exp : Val) : PyM SchematicSymbol := do
  let l ← checkHead k!"symbol" exp
  forM SchematicSymbol.step {} (l.drop 1)

/-- schitems.py 1102–1141 -/
def SchematicSymbol.toSexpr (o : SchematicSymbol) (indent : Nat := 2) (newline : Bool := true) : Str :=
  let fa := ifS o.fieldsAutoplaced py!" (fields_autoplaced)"
  let mirror := optS o.mirror fun v => py!" (mirror {v.pyStr})"
  let unit := optS o.unit fun v => py!" (unit {v.pyStr})"
  let lib_name := optS o.libName fun v => py!" (lib_name \"{dq v}\")"
  let dnp := optS o.dnp fun b => py!" (dnp {yesNo b})"
  py!"{indents indent}(symbol{lib_name} (lib_id \"{dequote o.libId}\") (at {o.position.X.pyStr} {o.position.Y.pyStr}{o.position.ang}){mirror}{unit}\n" ++
  py!"{indents indent}  (in_bom {yesNo o.inBom}) (on_board {yesNo o.onBoard}){dnp}{fa}\n" ++
  (optS o.uuid fun u => ifS u.truthy py!"{indents indent}  (uuid {u.pyStr})\n") ++
  (forS o.properties fun p => p.toSexpr (indent + 2)) ++
  (forS o.pins fun p => py!"{indents indent}  (pin \"{dq p.1}\" (uuid {p.2.pyStr}))\n") ++
  ifS (!o.instances.isEmpty) (py!"{indents indent}  (instances\n" ++ (forS o.instances fun i => i.toSexpr (indent + 4)) ++
    py!"{indents indent}  )\n") ++
  py!"{indents indent}){endl newline}"

/-- schitems.py 1144–1167 -/
structure HierarchicalPin where
  name : Val := st k!""
  connectionType : Val := st k!"input"
  position : Position := {}
  effects : Effects := {}
  uuid : Option Val := none
derive_canon HierarchicalPin

/-- Loop body, schitems.py 1193–1195 -/
def HierarchicalPin.step (o : HierarchicalPin) (item : Val) : PyM HierarchicalPin := do
  let k ← item.idx 0
  if k.is k!"at" then return { o with position := ← Position.fromSexpr item }
  else if k.is k!"effects" then return { o with effects := ← Effects.fromSexpr item }
  else if k.is k!"uuid" then return { o with uuid := some (← item.idx 1) }
  else return o

/-- schitems.py 1169–1196 -/
def HierarchicalPin.fromSexpr (exp : Val) : PyM HierarchicalPin := do
  let l ← checkHead k!"pin" exp
  let a1 ← getI l 1
  let a2 ← getI l 2
  forM HierarchicalPin.step { name := a1, connectionType := a2 } (l.drop 3)

/-- schitems.py 1198–1218 -/
def HierarchicalPin.toSexpr (o : HierarchicalPin) (indent : Nat := 4) (newline : Bool := true) : Str :=
  py!"{indents indent}(pin \"{dq o.name}\" {o.connectionType.pyStr} (at {o.position.X.pyStr} {o.position.Y.pyStr}{o.position.ang})\n" ++
  o.effects.toSexpr (indent + 2) ++
  (optS o.uuid fun u => py!"{indents indent}  (uuid {u.pyStr})\n") ++
  py!"{indents indent}){endl newline}"

/-- schitems.py 1222–1236 -/
structure HierarchicalSheetProjectPath where
  sheetInstancePath : Val := st k!""
  page : Val := st k!""
derive_canon HierarchicalSheetProjectPath

/-- Loop body, schitems.py 1261 -/
def HierarchicalSheetProjectPath.step (o : HierarchicalSheetProjectPath) (item : Val) : PyM HierarchicalSheetProjectPath := do
  let k ← item.idx 0
  if k.is k!"page" then return { o with page := ← item.idx 1 }
  else return o

/-- schitems.py 1238–1262 (`len(exp) < 2` is rejected before the head is looked at) -/
def HierarchicalSheetProjectPath.fromSexpr (exp : Val) : PyM HierarchicalSheetProjectPath :=
  match exp with
  | .list (h :: a :: r) => if h.is k!"path" then forM HierarchicalSheetProjectPath.step { sheetInstancePath := a } r else .error .exception
  | _ => .error .exception

/-- schitems.py 1264–1276 -/
def HierarchicalSheetProjectPath.toSexpr (o : HierarchicalSheetProjectPath) (indent : Nat := 4) (newline : Bool := true) : Str :=
  py!"{indents indent}(path \"{dq o.sheetInstancePath}\" (page \"{dq o.page}\")){endl newline}"

/-- schitems.py 1279–1292 and common.py 1164–1170 -/
structure HierarchicalSheetProjectInstance where
  name : Val := st k!""
  paths : List HierarchicalSheetProjectPath := []
derive_canon HierarchicalSheetProjectInstance

/-- Loop body, schitems.py 1317 -/
def HierarchicalSheetProjectInstance.step (o : HierarchicalSheetProjectInstance) (item : Val) : PyM HierarchicalSheetProjectInstance := do
  let k ← item.idx 0
  if k.is k!"path" then return { o with paths := o.paths ++ [← HierarchicalSheetProjectPath.fromSexpr item] }
  else return o

/-- schitems.py 1294–1318 (`len(exp) < 2` is rejected before the head is looked at) -/
def HierarchicalSheetProjectInstance.fromSexpr (exp : Val) : PyM HierarchicalSheetProjectInstance :=
  match exp with
  | .list (h :: a :: r) => if h.is k!"project" then forM HierarchicalSheetProjectInstance.step { name := a } r else .error .exception
  | _ => .error .exception

/-- schitems.py 1320–1336 -/
def HierarchicalSheetProjectInstance.toSexpr (o : HierarchicalSheetProjectInstance) (indent : Nat := 2) (newline : Bool := true) : Str :=
  py!"{indents indent}(project \"{dq o.name}\"\n" ++
  (forS o.paths fun p => p.toSexpr (indent + 2)) ++
  py!"{indents indent}){endl newline}"

/-- schitems.py 1339–1388 -/
structure HierarchicalSheet where
  position : Position := {}
  width : Val := .int 0
  height : Val := .int 0
  fieldsAutoplaced : Bool := false
  stroke : Stroke := {}
  fill : ColorRGBA := {}
  uuid : Option Val := none
  sheetName : Property := { key := st k!"Sheet name" }
  fileName : Property := { key := st k!"Sheet file" }
  properties : List Property := []
  pins : List HierarchicalPin := []
  instances : List HierarchicalSheetProjectInstance := []
derive_canon HierarchicalSheet

/-- Loop body, schitems.py 1412–1430 -/
def HierarchicalSheet.step (o : HierarchicalSheet) (item : Val) : PyM HierarchicalSheet := do
  let k ← item.idx 0
  if k.is k!"fields_autoplaced" then return { o with fieldsAutoplaced := true }
  else if k.is k!"at" then return { o with position := ← Position.fromSexpr item }
  else if k.is k!"stroke" then return { o with stroke := ← Stroke.fromSexpr item }
  else if k.is k!"size" then return { o with width := ← item.idx 1, height := ← item.idx 2 }
  else if k.is k!"fill" then
    let c ← ColorRGBA.fromSexpr (← item.idx 1)
    return { o with fill := { c with precision := some 4 } }
  else if k.is k!"uuid" then return { o with uuid := some (← item.idx 1) }
  else if k.is k!"property" then
    let p ← Property.fromSexpr item
    let n ← item.idx 1
    if n.is k!"Sheet name" || n.is k!"Sheetname" then return { o with sheetName := p }
    else if n.is k!"Sheet file" || n.is k!"Sheetfile" then return { o with fileName := p }
    else return { o with properties := o.properties ++ [p] }
  else if k.is k!"pin" then return { o with pins := o.pins ++ [← HierarchicalPin.fromSexpr item] }
  else if k.is k!"instances" then return { o with instances := o.instances ++ (← mapM' HierarchicalSheetProjectInstance.fromSexpr (← item.slice 1)) }
  else return o

/-- schitems.py 1390–1431 -/
def HierarchicalSheet.fromSexpr (exp : Val) : PyM HierarchicalSheet := do
  let l ← checkHead k!"sheet" exp
  forM HierarchicalSheet.step {} (l.drop 1)

/-- schitems.py 1433–1465 -/
def HierarchicalSheet.toSexpr (o : HierarchicalSheet) (indent : Nat := 2) (newline : Bool := true) : PyM Str := do
  let fa := ifS o.fieldsAutoplaced py!" (fields_autoplaced)"
  let fill ← o.fill.toSexprM
  return py!"{indents indent}(sheet (at {o.position.X.pyStr} {o.position.Y.pyStr}) (size {o.width.pyStr} {o.height.pyStr}){fa}\n" ++
  o.stroke.toSexpr (indent + 2) ++
  py!"{indents indent}  (fill {fill})\n" ++
  (optS o.uuid fun u => py!"{indents indent}  (uuid {u.pyStr})\n") ++
  o.sheetName.toSexpr (indent + 2) ++ o.fileName.toSexpr (indent + 2) ++
  (forS o.properties fun p => p.toSexpr (indent + 2)) ++
  (forS o.pins fun p => p.toSexpr (indent + 2)) ++
  ifS (!o.instances.isEmpty) (py!"{indents indent}  (instances\n" ++ (forS o.instances fun i => i.toSexpr (indent + 4)) ++
    py!"{indents indent}  )\n") ++
  py!"{indents indent}){endl newline}"

/-- schitems.py 1468–1481 -/
structure HierarchicalSheetInstance where
  instancePath : Val := st k!"/"
  page : Val := st k!"1"
derive_canon HierarchicalSheetInstance

/-- Loop body, schitems.py 1506 -/
def HierarchicalSheetInstance.step (o : HierarchicalSheetInstance) (item : Val) : PyM HierarchicalSheetInstance := do
  let k ← item.idx 0
  if k.is k!"page" then return { o with page := ← item.idx 1 }
  else return o

/-- schitems.py 1483–1507 -/
def HierarchicalSheetInstance.fromSexpr (exp : Val) : PyM HierarchicalSheetInstance := do
  let l ← checkHead k!"path" exp
  let a1 ← getI l 1
  forM HierarchicalSheetInstance.step { instancePath := a1 } (l.drop 2)

/-- schitems.py 1509–1522 -/
def HierarchicalSheetInstance.toSexpr (o : HierarchicalSheetInstance) (indent : Nat := 4) (newline : Bool := true) : Str :=
  py!"{indents indent}(path \"{dq o.instancePath}\" (page \"{dq o.page}\")){endl newline}"

/-- schitems.py 1525–1547 -/
structure SymbolInstance where
  path : Val := st k!"/"
  reference : Val := st k!""
  unit : Val := .int 0
  value : Val := st k!""
  footprint : Val := st k!""
derive_canon SymbolInstance

/-- Loop body, schitems.py 1572–1575 -/
def SymbolInstance.step (o : SymbolInstance) (item : Val) : PyM SymbolInstance := do
  let k ← item.idx 0
  if k.is k!"reference" then return { o with reference := ← item.idx 1 }
  else if k.is k!"unit" then return { o with unit := ← item.idx 1 }
  else if k.is k!"value" then return { o with value := ← item.idx 1 }
  else if k.is k!"footprint" then return { o with footprint := ← item.idx 1 }
  else return o

/-- schitems.py 1549–1576 -/
def SymbolInstance.fromSexpr (exp : Val) : PyM SymbolInstance := do
  let l ← checkHead k!"path" exp
  let a1 ← getI l 1
  forM SymbolInstance.step { path := a1 } (l.drop 2)

/-- schitems.py 1578–1594 -/
def SymbolInstance.toSexpr (o : SymbolInstance) (indent : Nat := 4) (newline : Bool := true) : Str :=
  py!"{indents indent}(path \"{dq o.path}\"\n" ++
  py!"{indents indent}  (reference \"{dq o.reference}\") (unit {o.unit.pyStr}) (value \"{dq o.value}\") (footprint \"{dq o.footprint}\")\n" ++
  py!"{indents indent}){endl newline}"

/-- schitems.py 1597–1619 -/
structure Rectangle where
  start : Position := {}
  «end» : Position := {}
  stroke : Stroke := {}
  fill : Fill := {}
  uuid : Option Val := none
derive_canon Rectangle

/-- Loop body, schitems.py 1644–1648 -/
def Rectangle.step (o : Rectangle) (item : Val) : PyM Rectangle := do
  let k ← item.idx 0
  if k.is k!"start" then return { o with start := ← Position.fromSexpr item }
  else if k.is k!"end" then return { o with «end» := ← Position.fromSexpr item }
  else if k.is k!"stroke" then return { o with stroke := ← Stroke.fromSexpr item }
  else if k.is k!"fill" then return { o with fill := ← Fill.fromSexpr item }
  else if k.is k!"uuid" then return { o with uuid := some (← item.idx 1) }
  else return o

/-- schitems.py 1621–1649 -/
def Rectangle.fromSexpr (exp : Val) : PyM Rectangle := do
  forM Rectangle.step {} (← checkHead k!"rectangle" exp)

/-- schitems.py 1651–1670 -/
def Rectangle.toSexpr (o : Rectangle) (indent : Nat := 2) (newline : Bool := true) : Str :=
  py!"{indents indent}(rectangle (start {o.start.X.pyStr} {o.start.Y.pyStr}) (end {o.end.X.pyStr} {o.end.Y.pyStr})\n" ++
  o.stroke.toSexpr (indent + 2) ++ o.fill.toSexpr (indent + 2) ++
  (optS o.uuid fun u => py!"{indents indent}  (uuid {u.pyStr})\n") ++
  py!"{indents indent}){endl newline}"

/-- schitems.py 1673–1698 -/
structure Arc where
  start : Position := {}
  mid : Position := {}
  «end» : Position := {}
  stroke : Stroke := {}
  fill : Fill := {}
  uuid : Option Val := none
derive_canon Arc

/-- Loop body, schitems.py 1723–1728 -/
def Arc.step (o : Arc) (item : Val) : PyM Arc := do
  let k ← item.idx 0
  if k.is k!"start" then return { o with start := ← Position.fromSexpr item }
  else if k.is k!"mid" then return { o with mid := ← Position.fromSexpr item }
  else if k.is k!"end" then return { o with «end» := ← Position.fromSexpr item }
  else if k.is k!"stroke" then return { o with stroke := ← Stroke.fromSexpr item }
  else if k.is k!"fill" then return { o with fill := ← Fill.fromSexpr item }
  else if k.is k!"uuid" then return { o with uuid := some (← item.idx 1) }
  else return o

/-- schitems.py 1700–1729 -/
def Arc.fromSexpr (exp : Val) : PyM Arc := do
  forM Arc.step {} (← checkHead k!"arc" exp)

/-- schitems.py 1731–1750 -/
def Arc.toSexpr (o : Arc) (indent : Nat := 2) (newline : Bool := true) : Str :=
  py!"{indents indent}(arc (start {o.start.X.pyStr} {o.start.Y.pyStr}) (mid {o.mid.X.pyStr} {o.mid.Y.pyStr}) (end {o.end.X.pyStr} {o.end.Y.pyStr})\n" ++
  o.stroke.toSexpr (indent + 2) ++ o.fill.toSexpr (indent + 2) ++
  (optS o.uuid fun u => py!"{indents indent}  (uuid {u.pyStr})\n") ++
  py!"{indents indent}){endl newline}"

/-- schitems.py 1753–1775 -/
structure Circle where
  center : Position := {}
  radius : Val := fl k!"0" k!"0"
  stroke : Stroke := {}
  fill : Fill := {}
  uuid : Option Val := none
derive_canon Circle

/-- Loop body, schitems.py 1800–1804 -/
def Circle.step (o : Circle) (item : Val) : PyM Circle := do
  let k ← item.idx 0
  if k.is k!"center" then return { o with center := ← Position.fromSexpr item }
  else if k.is k!"radius" then return { o with radius := ← item.idx 1 }
  else if k.is k!"stroke" then return { o with stroke := ← Stroke.fromSexpr item }
  else if k.is k!"fill" then return { o with fill := ← Fill.fromSexpr item }
  else if k.is k!"uuid" then return { o with uuid := some (← item.idx 1) }
  else return o

/-- schitems.py 1777–1805 -/
def Circle.fromSexpr (exp : Val) : PyM Circle := do
  forM Circle.step {} (← checkHead k!"circle" exp)

/-- schitems.py 1807–1826 -/
def Circle.toSexpr (o : Circle) (indent : Nat := 2) (newline : Bool := true) : Str :=
  py!"{indents indent}(circle (center {o.center.X.pyStr} {o.center.Y.pyStr}) (radius {o.radius.pyStr})\n" ++
  o.stroke.toSexpr (indent + 2) ++ o.fill.toSexpr (indent + 2) ++
  (optS o.uuid fun u => py!"{indents indent}  (uuid {u.pyStr})\n") ++
  py!"{indents indent}){endl newline}"

/-- schitems.py 1829–1862. The default of `position` is the class `Position` itself, whose class attributes are the default values; the model uses
a default position. The default of `effects` is the class `Effects` itself: `none`. -/
structure NetclassFlag where
  text : Val := st k!""
  length : Val := fl k!"2" k!"54"
  shape : Val := st k!"round"
  position : Position := {}
  effects : Option Effects := none
  properties : List Property := []
  uuid : Option Val := none
  fieldsAutoplaced : Bool := false
derive_canon NetclassFlag

/-- Loop body, schitems.py 1887–1893 -/
def NetclassFlag.step (o : NetclassFlag) (item : Val) : PyM NetclassFlag := do
  let k ← item.idx 0
  if k.is k!"length" then return { o with length := ← item.idx 1 }
  else if k.is k!"shape" then return { o with shape := ← item.idx 1 }
  else if k.is k!"at" then return { o with position := ← Position.fromSexpr item }
  else if k.is k!"fields_autoplaced" then return { o with fieldsAutoplaced := true }
  else if k.is k!"effects" then return { o with effects := some (← Effects.fromSexpr item) }
  else if k.is k!"uuid" then return { o with uuid := some (← item.idx 1) }
  else if k.is k!"property" then return { o with properties := o.properties ++ [← Property.fromSexpr item] }
  else return o

/-- schitems.py 1864–1894 -/
def NetclassFlag.fromSexpr (exp : Val) : PyM NetclassFlag := do
  let l ← checkHead k!"netclass_flag" exp
  let a1 ← getI l 1
  forM NetclassFlag.step { text := a1 } (l.drop 2)

/-- `self.effects.to_sexpr(indent+2)` (schitems.py 1913). On the class `Effects` this calls the method with the number as `self`,
which has no attribute `justify`. -/
def NetclassFlag.effectsText (e : Option Effects) (indent : Nat) : PyM Str :=
  match e with
  | some e => .ok (e.toSexpr indent)
  | none => .error .attributeError

/-- schitems.py 1896–1919 -/
def NetclassFlag.toSexpr (o : NetclassFlag) (indent : Nat := 2) (newline : Bool := true) : PyM Str := do
  let fa := ifS o.fieldsAutoplaced py!" (fields_autoplaced)"
  let effects ← NetclassFlag.effectsText o.effects (indent + 2)
  return py!"{indents indent}(netclass_flag \"{dq o.text}\" (length {o.length.pyStr}) (shape {o.shape.pyStr}) (at {o.position.X.pyStr} {o.position.Y.pyStr}{o.position.ang}){fa}\n" ++
    effects ++
    (optS o.uuid fun u => py!"{indents indent}  (uuid {u.pyStr})\n") ++
    (forS o.properties fun p => p.toSexpr (indent + 2)) ++
    py!"{indents indent}){endl newline}"

end Kiutils
