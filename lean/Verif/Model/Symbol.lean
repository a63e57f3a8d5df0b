import Verif.Model.SyItems
import Verif.Model.LibId
/-!
# `src/kiutils/symbol.py`
-/
namespace Kiutils

/-- symbol.py 29–39 -/
structure SymbolAlternativePin where
  pinName : Val := st k!""
  electricalType : Val := st k!"input"
  graphicalStyle : Val := st k!"line"
derive_canon SymbolAlternativePin

/-- symbol.py 41–65 -/
def SymbolAlternativePin.fromSexpr (exp : Val) : PyM SymbolAlternativePin := do
  let l ← checkHead k!"alternate" exp
  let a ← getI l 1
  let b ← getI l 2
  let c ← getI l 3
  return { pinName := a, electricalType := b, graphicalStyle := c }

/-- symbol.py 67–80 -/
def SymbolAlternativePin.toSexpr (o : SymbolAlternativePin) (indent : Nat := 8) (newline : Bool := true) : Str :=
  py!"{indents indent}(alternate \"{dq o.pinName}\" {o.electricalType.pyStr} {o.graphicalStyle.pyStr}){endl newline}"

/-- symbol.py 83–123 -/
structure SymbolPin where
  electricalType : Val := st k!"input"
  graphicalStyle : Val := st k!"line"
  position : Position := {}
  length : Val := fl k!"0" k!"254"
  name : Val := st k!""
  nameEffects : Option Effects := none
  number : Val := st k!"0"
  numberEffects : Option Effects := none
  hide : Bool := false
  alternatePins : List SymbolAlternativePin := []
derive_canon SymbolPin

/-- Loop body, symbol.py 149–162. After `'hide'` the code goes on to compare `item[0] == 'h'`, which has no effect. -/
def SymbolPin.step (o : SymbolPin) (item : Val) : PyM SymbolPin :=
  match item with
  | .list l => do
    let k ← item.idx 0
    if k.is k!"at" then return { o with position := ← Position.fromSexpr item }
    else if k.is k!"length" then return { o with length := ← item.idx 1 }
    else if k.is k!"name" then
      let n ← item.idx 1
      if l.length > 2 then return { o with name := n, nameEffects := some (← Effects.fromSexpr (← item.idx 2)) }
      else return { o with name := n }
    else if k.is k!"number" then
      let n ← item.idx 1
      if l.length > 2 then return { o with number := n, numberEffects := some (← Effects.fromSexpr (← item.idx 2)) }
      else return { o with number := n }
    else if k.is k!"alternate" then return { o with alternatePins := o.alternatePins ++ [← SymbolAlternativePin.fromSexpr item] }
    else return o
  | _ => if item.is k!"hide" then return { o with hide := true } else return o

/-- symbol.py 125–163 -/
def SymbolPin.fromSexpr (exp : Val) : PyM SymbolPin := do
  let l ← checkHead k!"pin" exp
  let a ← getI l 1
  let b ← getI l 2
  forM SymbolPin.step { electricalType := a, graphicalStyle := b } (l.drop 3)

/-- symbol.py 165–208; `multi` is `newLineAdded` after line 194. -/
def SymbolPin.toSexpr (o : SymbolPin) (indent : Nat := 4) (newline : Bool := true) : Str :=
  let hide := ifS o.hide py!" hide"
  let nameEffects := optS o.nameEffects fun e => py!" {e.toSexpr 0 false}"
  let numberEffects := optS o.numberEffects fun e => py!" {e.toSexpr 0 false}"
  let multi := o.nameEffects.isSome || o.numberEffects.isSome
  py!"{indents indent}(pin {o.electricalType.pyStr} {o.graphicalStyle.pyStr} (at {o.position.X.pyStr} {o.position.Y.pyStr}{o.position.ang}) (length {o.length.pyStr}){hide}" ++
  (if multi then
     py!"\n{indents indent}  (name \"{dq o.name}\"{nameEffects})\n{indents indent}  (number \"{dq o.number}\"{numberEffects})\n"
   else py!" (name \"{dq o.name}\") (number \"{dq o.number}\")") ++
  ifS (!multi && !o.alternatePins.isEmpty) ['\n'] ++
  (forS o.alternatePins fun a => a.toSexpr (indent + 2)) ++
  ifS (multi || !o.alternatePins.isEmpty) (indents indent) ++
  py!"){endl newline}"

/-- symbol.py 211–356. A symbol contains symbols (its units). -/
structure Symbol where
  libraryNickname : Option Val := none
  entryName : Option Val := none
  unitId : Option Val := none
  styleId : Option Val := none
  extends_ : Option Val := none
  hidePinNumbers : Bool := false
  pinNames : Bool := false
  pinNamesHide : Bool := false
  pinNamesOffset : Option Val := none
  inBom : Option Bool := none
  onBoard : Option Bool := none
  isPower : Bool := false
  properties : List Property := []
  graphicItems : List SyItem := []
  pins : List SymbolPin := []
  units : List Symbol := []

mutual
/-- `canon` for symbols, which contain symbols -/
def Symbol.canonS : Symbol → Symbol
  | ⟨a, b, c, d, e, f, g, h, i, j, k, l, m, n, p, us⟩ =>
    ⟨canon a, canon b, canon c, canon d, canon e, f, g, h, canon i, canon j, canon k, l, canon m, canon n, canon p, Symbol.canonL us⟩
/-- `canon` for a list of symbols -/
def Symbol.canonL : List Symbol → List Symbol
  | [] => []
  | s :: r => s.canonS :: Symbol.canonL r
end

instance : Canon Symbol := ⟨Symbol.canonS⟩

/-- `bool(v)` for the nickname: a string is true if it is not empty, a number if it is not zero. -/
def Val.truthy : Val → Bool
  | .int n => n != 0
  | .flt (.fin _ m _) => m != 0
  | .flt (.inf _) => true
  | .str s => !s.isEmpty
  | .list l => !l.isEmpty

/-- Getter of `libId`, symbol.py 220–249 -/
def Symbol.libId (o : Symbol) : Str :=
  let ids := match o.unitId, o.styleId with
    | some u, some s => py!"_{u.pyStr}_{s.pyStr}"
    | _, _ => []
  match o.libraryNickname with
  | some n => if n.truthy then py!"{n.pyStr}:{optPyStr o.entryName}" else py!"{optPyStr o.entryName}{ids}"
  | none => py!"{optPyStr o.entryName}{ids}"

/-- Setter of `libId`, symbol.py 251–291. `re.match` needs a string. `int(…)` of the digits matched by `\d+?`;
simplification: CPython refuses to convert more than 4300 digits, the model converts any number. -/
def Symbol.setLibId (o : Symbol) (id : Val) : PyM Symbol :=
  match id with
  | .str s =>
    let o := match matchNick s with
      | some (n, e) => { o with libraryNickname := some (.str n), entryName := some (.str e), unitId := none, styleId := none }
      | none => match matchUnit s with
        | some (e, u, v) => { o with libraryNickname := none, entryName := some (.str e), unitId := some (.int (digitsVal u)),
                                     styleId := some (.int (digitsVal v)) }
        | none => { o with libraryNickname := none, entryName := some (.str s), unitId := none, styleId := none }
    .ok { o with units := o.units.map fun u => { u with entryName := o.entryName } }
  | _ => .error .typeError

/-- Inner loop body, symbol.py 388–391 -/
def Symbol.pinNamesStep (o : Symbol) (p : Val) : PyM Symbol :=
  match p with
  | .list _ => do
    let k ← p.idx 0
    if k.is k!"offset" then return { o with pinNamesOffset := some (← p.idx 1) } else return o
  | _ => if p.is k!"hide" then return { o with pinNamesHide := true } else return o

/-- Loop body, symbol.py 381–406, without the units (line 396) -/
def Symbol.stepFlat (o : Symbol) (item : Val) : PyM Symbol := do
  let k ← item.idx 0
  if k.is k!"extends" then return { o with extends_ := some (← item.idx 1) }
  else if k.is k!"pin_numbers" then
    if (← item.idx 1).is k!"hide" then return { o with hidePinNumbers := true } else return o
  else if k.is k!"pin_names" then forM Symbol.pinNamesStep { o with pinNames := true } (← item.slice 1)
  else if k.is k!"in_bom" then return { o with inBom := some ((← item.idx 1).is k!"yes") }
  else if k.is k!"on_board" then return { o with onBoard := some ((← item.idx 1).is k!"yes") }
  else if k.is k!"power" then return { o with isPower := true }
  else if k.is k!"property" then return { o with properties := o.properties ++ [← Property.fromSexpr item] }
  else if k.is k!"pin" then return { o with pins := o.pins ++ [← SymbolPin.fromSexpr item] }
  else if k.is k!"arc" then return { o with graphicItems := o.graphicItems ++ [.arc (← SyArc.fromSexpr item)] }
  else if k.is k!"circle" then return { o with graphicItems := o.graphicItems ++ [.circle (← SyCircle.fromSexpr item)] }
  else if k.is k!"curve" then return { o with graphicItems := o.graphicItems ++ [.curve (← SyCurve.fromSexpr item)] }
  else if k.is k!"polyline" then return { o with graphicItems := o.graphicItems ++ [.polyline (← SyPolyLine.fromSexpr item)] }
  else if k.is k!"rectangle" then return { o with graphicItems := o.graphicItems ++ [.rect (← SyRect.fromSexpr item)] }
  else if k.is k!"text" then return { o with graphicItems := o.graphicItems ++ [.text (← SyText.fromSexpr item)] }
  else if k.is k!"text_box" then return { o with graphicItems := o.graphicItems ++ [.textBox (← SyTextBox.fromSexpr item)] }
  else return o

mutual
/-- symbol.py 358–408 -/
def Symbol.fromSexpr : Val → PyM Symbol
  | .list [] => .error .indexError
  | .list (h :: r) =>
    if h.is k!"symbol" then
      match r with
      | [] => .error .indexError
      | id :: items => Symbol.setLibId {} id >>= fun o => Symbol.loop items o
    else .error .exception
  | _ => .error .exception
/-- The loop, symbol.py 380–406 -/
def Symbol.loop : List Val → Symbol → PyM Symbol
  | [], o => .ok o
  | item :: r, o =>
    (item.idx 0 >>= fun k =>
      if k.is k!"symbol" then Symbol.fromSexpr item >>= fun u => .ok { o with units := o.units ++ [u] }
      else Symbol.stepFlat o item) >>= fun o' => Symbol.loop r o'
end

/-- symbol.py 410–441 -/
def Symbol.createNew (id reference value : Val) (footprint : Val := st k!"") (datasheet : Val := st k!"") : PyM Symbol := do
  let font : Font := { width := fl k!"1" k!"27", height := fl k!"1" k!"27" }
  let o ← Symbol.setLibId { inBom := some true, onBoard := some true } id
  return { o with properties := o.properties ++
    [{ key := st k!"Reference", value := reference, id := some (.int 0), effects := some { font := font } },
     { key := st k!"Value", value := value, id := some (.int 1), effects := some { font := font } },
     { key := st k!"Footprint", value := footprint, id := some (.int 2), effects := some { font := font, hide := true } },
     { key := st k!"Datasheet", value := datasheet, id := some (.int 3), effects := some { font := font, hide := true } }] }

/-- The header line and the flat lists, symbol.py 455–476 -/
def Symbol.textFlat (o : Symbol) (indent : Nat) : Str :=
  let inbom := optS o.inBom fun b => py!" (in_bom {yesNo b})"
  let onboard := optS o.onBoard fun b => py!" (on_board {yesNo b})"
  let power := ifS o.isPower py!" (power)"
  let pnhide := ifS o.pinNamesHide py!" hide"
  let pnoffset := optS o.pinNamesOffset fun v => py!" (offset {v.pyStr})"
  let pinnames := ifS o.pinNames py!" (pin_names{pnoffset}{pnhide})"
  let pinnumbers := ifS o.hidePinNumbers py!" (pin_numbers hide)"
  let ext := optS o.extends_ fun e => py!" (extends \"{dq e}\")"
  py!"{indents indent}(symbol \"{dequote o.libId}\"{ext}{power}{pinnumbers}{pinnames}{inbom}{onboard}\n" ++
  (forS o.properties fun p => p.toSexpr (indent + 2)) ++
  (forS o.graphicItems fun p => p.toSexpr (indent + 2)) ++
  (forS o.pins fun p => p.toSexpr (indent + 2))

mutual
/-- symbol.py 443–480 -/
def Symbol.toSexpr : Symbol → (indent : Nat := 2) → (newline : Bool := true) → Str
  | ⟨a, b, c, d, e, f, g, h, i, j, k, l, m, n, p, us⟩, indent, newline =>
    Symbol.textFlat ⟨a, b, c, d, e, f, g, h, i, j, k, l, m, n, p, us⟩ indent ++
    Symbol.textUnits us (indent + 2) ++
    py!"{indents indent}){endl newline}"
/-- The loop over the units, symbol.py 477–478 -/
def Symbol.textUnits : List Symbol → Nat → Str
  | [], _ => []
  | u :: r, indent => u.toSexpr indent ++ Symbol.textUnits r indent
end

/-- symbol.py 483–501; `KIUTILS_CREATE_NEW_VERSION_STR` is misc/config.py 13. -/
structure SymbolLib where
  version : Val := st k!"20211014"
  generator : Option Val := none
  symbols : List Symbol := []
  filePath : Option Str := none
derive_canon SymbolLib

/-- Loop body, symbol.py 550–552 -/
def SymbolLib.step (o : SymbolLib) (item : Val) : PyM SymbolLib := do
  let k ← item.idx 0
  if k.is k!"version" then return { o with version := ← item.idx 1 }
  else if k.is k!"generator" then return { o with generator := some (← item.idx 1) }
  else if k.is k!"symbol" then return { o with symbols := o.symbols ++ [← Symbol.fromSexpr item] }
  else return o

/-- symbol.py 527–553 -/
def SymbolLib.fromSexpr (exp : Val) : PyM SymbolLib := do
  let l ← checkHead k!"kicad_symbol_lib" exp
  forM SymbolLib.step {} (l.drop 1)

/-- symbol.py 575–592 -/
def SymbolLib.toSexpr (o : SymbolLib) (indent : Nat := 0) (newline : Bool := true) : Str :=
  py!"{indents indent}(kicad_symbol_lib (version {o.version.pyStr}) (generator {optPyStr o.generator})\n" ++
  (forS o.symbols fun s => indents indent ++ s.toSexpr (indent + 2)) ++
  py!"{indents indent}){endl newline}"

end Kiutils
