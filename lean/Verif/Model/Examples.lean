import Verif.Model.Files
/-!
# The example programs of the documentation

`docs/usage/examples.rst` and `docs/usage/getting-started.rst`, statement by statement. The paths are parameters; the programs are not
told an encoding. Objects are values here: none of the programs changes an object after it was put into another one (C54 says that
separately loaded objects share nothing).
-/
namespace Kiutils

/-- A call of `to_file` in a program. -/
def saving (attempt : FS → Attempt) : FileM Unit := fun fs => ((attempt fs).outcome, (attempt fs).final fs)

/-- examples.rst 13–17, getting-started.rst 57–59 -/
def openAndSave (env : Env) (tedit : Val) (p : Path) : FileM Unit := do
  let board ← Board.fromFile env tedit p none
  saving (board.toFile env none none)

/-- getting-started.rst 47–49 -/
def createAndSave (env : Env) (p : Path) : FileM Unit :=
  saving (Board.createNew.toFile env (some p) none)

/-- `schematic.titleBlock.title = "This is schematic xyz"`, `schematic.titleBlock.revision = "B"` (examples.rst 28–29);
`None` has no attribute `title` that could be set -/
def setTitle (o : Schematic) : PyM Schematic :=
  match o.titleBlock with
  | none => .error .attributeError
  | some t => .ok { o with titleBlock := some { t with title := some (.str k!"This is schematic xyz"), revision := some (.str k!"B") } }

/-- examples.rst 27–30 -/
def changeTitle (env : Env) (p : Path) : FileM Unit := do
  let schematic ← Schematic.fromFile env p none
  let schematic ← FileM.lift (setTitle schematic)
  saving (schematic.toFile env none none)

/-- The body of the loop, examples.rst 58–60 -/
def setReference (item : FpItem) : FpItem :=
  match item with
  | .text x => if x.type.is k!"reference" then .text { x with text := .str k!"C105" } else item
  | _ => item

/-- examples.rst 50–64; `q` is the path of the footprint -/
def addFootprint (env : Env) (tedit : Val) (p q : Path) : FileM Unit := do
  let board ← Board.fromFile env tedit p none
  let footprint ← Footprint.fromFile env tedit q none
  let footprint := { footprint with position := some { X := fl k!"127" k!"0", Y := fl k!"85" k!"0" } }
  let footprint := { footprint with graphicItems := footprint.graphicItems.map setReference }
  let board := { board with footprints := board.footprints ++ [footprint] }
  saving (board.toFile env none none)

/-- `Via(position=Position(x, y), layers=["F.Cu", "B.Cu"], size=1.0, drill=0.6)`, examples.rst 95–100 -/
def newVia (a : Val × Val) : TraceItem :=
  .via { position := { X := a.1, Y := a.2 }, layers := [.str k!"F.Cu", .str k!"B.Cu"], size := fl k!"1" k!"0", drill := fl k!"0" k!"6" }

/-- `for item in board.traceItems: …`, examples.rst 87–100, from the index `i` on. The loop goes by index and looks at the length of
the list each time, so it also comes to the items that its body appends. `points` is the calculation of the coordinates of the two positions (lines 90–96),
which is not modelled: it is any function that may raise (as `1/0.0` does). A relation, because it is not clear beforehand that the loop
ends: `Loop points items i r` says that it ends with `r`. -/
inductive Loop (points : Segment → PyM ((Val × Val) × (Val × Val))) : List TraceItem → Nat → PyM (List TraceItem) → Prop
  | done {items : List TraceItem} {i : Nat} : items.length ≤ i → Loop points items i (.ok items)
  | other {items : List TraceItem} {i : Nat} {x : TraceItem} {r : PyM (List TraceItem)} :
    items[i]? = some x → (∀ s, x ≠ .segment s) → Loop points items (i + 1) r → Loop points items i r
  | segment {items : List TraceItem} {i : Nat} {s : Segment} {a b : Val × Val} {r : PyM (List TraceItem)} :
    items[i]? = some (.segment s) → points s = .ok (a, b) → Loop points (items ++ [newVia a] ++ [newVia b]) (i + 1) r → Loop points items i r
  | raises {items : List TraceItem} {i : Nat} {s : Segment} {e : PyErr} :
    items[i]? = some (.segment s) → points s = .error e → Loop points items i (.error e)

/-- examples.rst 84–103: the program started in `fs` can end with the outcome and the file system given. -/
inductive AddVias (env : Env) (tedit : Val) (points : Segment → PyM ((Val × Val) × (Val × Val))) (p : Path) (fs : FS) : PyM Unit → FS → Prop
  | notLoaded {e : PyErr} {fs' : FS} : Board.fromFile env tedit p none fs = (.error e, fs') → AddVias env tedit points p fs (.error e) fs'
  | raises {board : Board} {e : PyErr} {fs' : FS} : Board.fromFile env tedit p none fs = (.ok board, fs') →
    Loop points board.traceItems 0 (.error e) → AddVias env tedit points p fs (.error e) fs'
  | saves {board : Board} {items : List TraceItem} {fs' : FS} : Board.fromFile env tedit p none fs = (.ok board, fs') →
    Loop points board.traceItems 0 (.ok items) →
    AddVias env tedit points p fs (Board.toFile env { board with traceItems := items } none none fs').outcome
      ((Board.toFile env { board with traceItems := items } none none fs').final fs')

/-- `s.entryName == 'R_Small_US'`, examples.rst 122 -/
def isResistor (s : Symbol) : Bool :=
  match s.entryName with
  | some v => v.is k!"R_Small_US"
  | none => false

/-- examples.rst 136–142 -/
def resistorSymbol : PyM SchematicSymbol := do
  let o : SchematicSymbol := {}
  let o := { o with libName := some (.str k!"R_Small_US") }
  let o ← o.setLibId (.str k!"Device:R_Small_US")
  let o := { o with position := { X := .int 0, Y := .int 0, angle := some (.int 0) } }
  let o := { o with properties := o.properties ++ [({ key := .str k!"Reference", value := .str k!"R?", id := some (.int 0) } : Property)] }
  return { o with properties := o.properties ++ [({ key := .str k!"Value", value := .str k!"R_Small_US", id := some (.int 1) } : Property)] }

/-- examples.rst 117–147; `q` is the path of the library, `p` that of the new schematic -/
def addSymbol (env : Env) (q p : Path) : FileM Unit := do
  let lib ← SymbolLib.fromFile env q none
  match lib.symbols.find? isResistor with
  | none => FileM.lift (.error .valueError)
  | some symbol =>
    let schematic := Schematic.createNew
    let schematic := { schematic with libSymbols := schematic.libSymbols ++ [symbol] }
    let schematic_symbol ← FileM.lift resistorSymbol
    let schematic := { schematic with schematicSymbols := schematic.schematicSymbols ++ [schematic_symbol] }
    saving (schematic.toFile env (some p) none)

end Kiutils
