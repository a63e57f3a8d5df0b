import Verif
open Kiutils
def T := "/repo/tests/testdata/"
def rd (p : String) : IO Str := return ((((← IO.FS.readFile (T ++ p)).replace "\r\n" "\n").replace "\r" "\n").toList)
def check (p : String) (m : PyM Str) : IO Unit := do
  let e ← IO.FS.readFile (T ++ p)
  match m with
  | .ok s =>
    if s == e.toList then IO.println s!"OK {p}"
    else
      IO.println s!"DIFF {p}"
      IO.FS.writeFile ("/tmp/val/out_" ++ (p.replace "/" "_")) (String.ofList s)
  | .error _ => IO.println s!"ERROR {p}"
def S (s : String) : Val := .str s.toList
def modAt {α} (l : List α) (i : Nat) (f : α → PyM α) : PyM (List α) := (l.zipIdx).mapM fun (a, j) => if i == j then f a else pure a
def main : IO Unit := do
  check "board/test_createEmptyBoard" Board.createNew.toSexpr
  check "schematic/test_createEmptySchematic.expected" Schematic.createNew.toSexpr
  check "worksheets/test_createNewWorksheet" WorkSheet.createNew.toSexpr
  check "libtable/test_createNewLibTable" (.ok LibTable.createNew.toSexpr)
  check "designrules/test_createNewDesignRules" DesignRules.createNew.toSexpr
  for (k, t, d) in [("SMD", "smd", "6328915F"), ("THT", "through_hole", "63289145"), ("Other", "other", "6328916A")] do
    check s!"footprint/test_createNewFootprintType{k}" do
      let f ← Footprint.createNew (S "0") ("empty-footprint-" ++ t).toList ("empty-footprint-" ++ t).toList t.toList
      ({ f with tedit := S d } : Footprint).toSexpr
  check "symbol/test_createNewSymbolInEmptyLibrary" do
    let s ← Symbol.createNew (S "testsymbol") (S "U") (S "testvalue")
    return ({ version := createNewVersion, generator := some (S "kiutils"), symbols := [s] } : SymbolLib).toSexpr
  check "libtable/test_addLibraryObjectToLibTable.expected" <| .ok ({ type := S "fp_lib_table", libs := [{ name := S "object1", type := S "KiCad", uri := S "${KIPRJMOD}/my/library.pretty", options := S "Some options with \"quoted strings\"", description := S "Some description with \"quoted strings\"", active := false }] } : LibTable).toSexpr
  check "libtable/test_addEmptyLibraryObjectToLibTable.expected" <| .ok ({ type := S "fp_lib_table", libs := [{}] } : LibTable).toSexpr
  for f in ["Fp", "Sym"] do
    let t ← rd s!"libtable/test_parse{f}LibTable.expected"
    check s!"libtable/test_parse{f}LibTable.expected" do return (← LibTable.fromSexpr (← parseSexp t)).toSexpr
  let t ← rd "schematic/test_addPropertyToSchematicSymbol"
  check "schematic/test_addPropertyToSchematicSymbol.expected" do
    let s ← Schematic.fromSexpr (← parseSexp t)
    let l ← modAt s.schematicSymbols 0 fun o => .ok { o with properties := o.properties ++ [{ key := S "Property3", value := S "I was added from \"outside\" of KiCad", id := some (.int 6) }] }
    ({ s with schematicSymbols := l } : Schematic).toSexpr
  let t ← rd "schematic/test_renameSymbolIdTokenInSchematic"
  check "schematic/test_renameSymbolIdTokenInSchematic.expected" do
    let s ← Schematic.fromSexpr (← parseSexp t)
    let a ← modAt (← modAt s.libSymbols 0 (·.setLibId (S "RenamedSwitch:SW_Coded_New"))) 1 (·.setLibId (S "Unset_Lib_Id"))
    let b ← modAt (← modAt s.schematicSymbols 0 (·.setLibId (S "SwitchRenamed:SW_Coded_2"))) 1 (·.setLibId (S "Unset_Lib_Id"))
    ({ s with libSymbols := a, schematicSymbols := b } : Schematic).toSexpr
  let t ← rd "schematic/test_setSymbolLibNameToken"
  check "schematic/test_setSymbolLibNameToken.expected" do
    let s ← Schematic.fromSexpr (← parseSexp t)
    let b ← modAt (← modAt s.schematicSymbols 0 fun o => .ok { o with libName := some (.str (optPyStr o.entryName ++ "_1".toList)) }) 1 fun o => .ok { o with libName := none }
    ({ s with schematicSymbols := b } : Schematic).toSexpr
  let t ← rd "symbol/test_renameParentIdUsingIdToken"
  check "symbol/test_renameParentIdUsingIdToken.expected" do
    let s ← SymbolLib.fromSexpr (← parseSexp t)
    let a ← modAt (← modAt s.symbols 0 (·.setLibId (S "ExampleLibrary:AD2023"))) 1 (·.setLibId (S "AD2023"))
    return ({ s with symbols := a } : SymbolLib).toSexpr
  let t ← rd "symbol/test_createNewTopLevelSymbolFromChild"
  check "symbol/test_createNewTopLevelSymbolFromChild.expected" do
    let s ← SymbolLib.fromSexpr (← parseSexp t)
    let c ← match s.symbols with
      | s :: _ => match s.units with
        | c :: _ => pure c
        | [] => .error .indexError
      | [] => .error .indexError
    let c ← Symbol.fromSexpr (← parseSexp c.toSexpr)
    let c ← c.setLibId (S "SomeNewName:AD2023")
    return ({ s with symbols := s.symbols ++ [c] } : SymbolLib).toSexpr
  let t ← rd "symbol/test_mergeLibraries"
  let t2 ← rd "symbol/test_symbolDemorganSyItems"
  check "symbol/test_mergeLibraries.expected" do
    let s ← SymbolLib.fromSexpr (← parseSexp t)
    let s2 ← SymbolLib.fromSexpr (← parseSexp t2)
    return ({ s with symbols := s2.symbols.reverse ++ s.symbols } : SymbolLib).toSexpr
  let t ← rd "board/test_renameFootprintIdToken"
  check "board/test_renameFootprintIdToken.expected" do
    let s ← Board.fromSexpr (S "0") (← parseSexp t)
    let a ← modAt (← modAt s.footprints 0 fun f => .ok (f.setLibId (S "I_was_renamed:BUS_PCIexpress_x1"))) 1 fun f => .ok (f.setLibId (S "I_was_added:BUS_PCIexpress_x1"))
    ({ s with footprints := a } : Board).toSexpr
