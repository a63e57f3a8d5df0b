import Verif.Model.SchItems
/-!
# `src/kiutils/schematic.py`
-/
namespace Kiutils

/-- An element of `Schematic.graphicalItems` (schematic.py 69) -/
inductive SchGraphic where
  | connection (o : Connection)
  | polyline (o : PolyLine)

instance : Canon SchGraphic := ⟨fun
  | .connection o => .connection (canon o)
  | .polyline o => .polyline (canon o)⟩

/-- `item.to_sexpr(indent)` -/
def SchGraphic.toSexpr (o : SchGraphic) (indent : Nat) : Str :=
  match o with
  | .connection o => o.toSexpr indent
  | .polyline o => o.toSexpr indent

/-- An element of `Schematic.shapes` (schematic.py 73) -/
inductive SchShape where
  | arc (o : Arc)
  | circle (o : Circle)
  | rectangle (o : Rectangle)

instance : Canon SchShape := ⟨fun
  | .arc o => .arc (canon o)
  | .circle o => .circle (canon o)
  | .rectangle o => .rectangle (canon o)⟩

/-- `item.to_sexpr(indent)` -/
def SchShape.toSexpr (o : SchShape) (indent : Nat) : Str :=
  match o with
  | .arc o => o.toSexpr indent
  | .circle o => o.toSexpr indent
  | .rectangle o => o.toSexpr indent

/-- schematic.py 29–115; the two constants are misc/config.py 13 and 16 -/
structure Schematic where
  version : Val := st k!"20211014"
  generator : Val := st k!"kiutils"
  uuid : Option Val := none
  paper : PageSettings := {}
  titleBlock : Option TitleBlock := none
  libSymbols : List Symbol := []
  schematicSymbols : List SchematicSymbol := []
  junctions : List Junction := []
  noConnects : List NoConnect := []
  busEntries : List BusEntry := []
  busAliases : List BusAlias := []
  graphicalItems : List SchGraphic := []
  shapes : List SchShape := []
  images : List Image := []
  texts : List Text := []
  textBoxes : List TextBox := []
  labels : List LocalLabel := []
  globalLabels : List GlobalLabel := []
  hierarchicalLabels : List HierarchicalLabel := []
  netclassFlags : List NetclassFlag := []
  sheets : List HierarchicalSheet := []
  sheetInstances : List HierarchicalSheetInstance := []
  symbolInstances : List SymbolInstance := []
  filePath : Option Str := none
derive_canon Schematic

/-- Loop body, schematic.py 139–171 -/
def Schematic.step (o : Schematic) (item : Val) : PyM Schematic := do
  let k ← item.idx 0
  if k.is k!"version" then return { o with version := ← item.idx 1 }
  else if k.is k!"generator" then return { o with generator := ← item.idx 1 }
  else if k.is k!"uuid" then return { o with uuid := some (← item.idx 1) }
  else if k.is k!"paper" then return { o with paper := ← PageSettings.fromSexpr item }
  else if k.is k!"title_block" then return { o with titleBlock := some (← TitleBlock.fromSexpr item) }
  else if k.is k!"lib_symbols" then return { o with libSymbols := o.libSymbols ++ (← mapM' Symbol.fromSexpr (← item.slice 1)) }
  else if k.is k!"junction" then return { o with junctions := o.junctions ++ [← Junction.fromSexpr item] }
  else if k.is k!"no_connect" then return { o with noConnects := o.noConnects ++ [← NoConnect.fromSexpr item] }
  else if k.is k!"bus_entry" then return { o with busEntries := o.busEntries ++ [← BusEntry.fromSexpr item] }
  else if k.is k!"bus_alias" then return { o with busAliases := o.busAliases ++ [← BusAlias.fromSexpr item] }
  else if k.is k!"wire" || k.is k!"bus" then return { o with graphicalItems := o.graphicalItems ++ [.connection (← Connection.fromSexpr item)] }
  else if k.is k!"polyline" then return { o with graphicalItems := o.graphicalItems ++ [.polyline (← PolyLine.fromSexpr item)] }
  else if k.is k!"arc" then return { o with shapes := o.shapes ++ [.arc (← Arc.fromSexpr item)] }
  else if k.is k!"circle" then return { o with shapes := o.shapes ++ [.circle (← Circle.fromSexpr item)] }
  else if k.is k!"rectangle" then return { o with shapes := o.shapes ++ [.rectangle (← Rectangle.fromSexpr item)] }
  else if k.is k!"image" then return { o with images := o.images ++ [← Image.fromSexpr item] }
  else if k.is k!"text" then return { o with texts := o.texts ++ [← Text.fromSexpr item] }
  else if k.is k!"text_box" then return { o with textBoxes := o.textBoxes ++ [← TextBox.fromSexpr item] }
  else if k.is k!"label" then return { o with labels := o.labels ++ [← LocalLabel.fromSexpr item] }
  else if k.is k!"global_label" then return { o with globalLabels := o.globalLabels ++ [← GlobalLabel.fromSexpr item] }
  else if k.is k!"hierarchical_label" then return { o with hierarchicalLabels := o.hierarchicalLabels ++ [← HierarchicalLabel.fromSexpr item] }
  else if k.is k!"netclass_flag" then return { o with netclassFlags := o.netclassFlags ++ [← NetclassFlag.fromSexpr item] }
  else if k.is k!"symbol" then return { o with schematicSymbols := o.schematicSymbols ++ [← SchematicSymbol.fromSexpr item] }
  else if k.is k!"sheet" then return { o with sheets := o.sheets ++ [← HierarchicalSheet.fromSexpr item] }
  else if k.is k!"sheet_instances" then return { o with sheetInstances := o.sheetInstances ++ (← mapM' HierarchicalSheetInstance.fromSexpr (← item.slice 1)) }
  else if k.is k!"symbol_instances" then return { o with symbolInstances := o.symbolInstances ++ (← mapM' SymbolInstance.fromSexpr (← item.slice 1)) }
  else return o

/-- schematic.py 117–172 -/
def Schematic.fromSexpr (exp : Val) : PyM Schematic := do
  forM Schematic.step {} (← checkHead k!"kicad_sch" exp)

/-- schematic.py 198–210 -/
def Schematic.createNew : Schematic :=
  { version := st k!"20211014", generator := st k!"kiutils",
    sheetInstances := [{ instancePath := st k!"/", page := st k!"1" }] }

/-- schematic.py 232–351. The parts that can raise are evaluated first, in the order of the code. -/
def Schematic.toSexpr (o : Schematic) (indent : Nat := 0) (newline : Bool := true) : PyM Str := do
  let paper ← o.paper.toSexpr (indent + 2)
  let junctions ← forSM o.junctions fun x => x.toSexpr (indent + 2)
  let texts ← forSM o.texts fun x => x.toSexpr (indent + 2)
  let netclassFlags ← forSM o.netclassFlags fun x => x.toSexpr (indent + 2)
  let sheets ← forSM o.sheets fun x => do return py!"\n{← x.toSexpr (indent + 2)}"
  return py!"{indents indent}(kicad_sch (version {o.version.pyStr}) (generator {o.generator.pyStr})\n" ++
  (optS o.uuid fun u => py!"\n{indents indent}  (uuid {u.pyStr})\n\n") ++
  paper ++
  (optS o.titleBlock fun t => py!"\n{t.toSexpr (indent + 2)}") ++
  (if o.libSymbols.isEmpty then py!"{indents indent}  (lib_symbols)\n"
   else py!"\n{indents indent}  (lib_symbols" ++ (forS o.libSymbols fun s => py!"\n{s.toSexpr (indent + 4)}") ++
     py!"{indents indent}  )\n") ++
  ifS (!o.junctions.isEmpty) py!"\n" ++ junctions ++
  ifS (!o.noConnects.isEmpty) py!"\n" ++ (forS o.noConnects fun x => x.toSexpr (indent + 2)) ++
  ifS (!o.busEntries.isEmpty) py!"\n" ++ (forS o.busEntries fun x => x.toSexpr (indent + 2)) ++
  ifS (!o.busAliases.isEmpty) py!"\n" ++ (forS o.busAliases fun x => x.toSexpr (indent + 2)) ++
  ifS (!o.graphicalItems.isEmpty) py!"\n" ++ (forS o.graphicalItems fun x => x.toSexpr (indent + 2)) ++
  ifS (!o.shapes.isEmpty) py!"\n" ++ (forS o.shapes fun x => x.toSexpr (indent + 2)) ++
  ifS (!o.images.isEmpty) py!"\n" ++ (forS o.images fun x => x.toSexpr (indent + 2)) ++
  ifS (!o.textBoxes.isEmpty) py!"\n" ++ (forS o.textBoxes fun x => x.toSexpr (indent + 2)) ++
  ifS (!o.texts.isEmpty) py!"\n" ++ texts ++
  ifS (!o.labels.isEmpty) py!"\n" ++ (forS o.labels fun x => x.toSexpr (indent + 2)) ++
  ifS (!o.globalLabels.isEmpty) py!"\n" ++ (forS o.globalLabels fun x => x.toSexpr (indent + 2)) ++
  ifS (!o.hierarchicalLabels.isEmpty) py!"\n" ++ (forS o.hierarchicalLabels fun x => x.toSexpr (indent + 2)) ++
  ifS (!o.netclassFlags.isEmpty) py!"\n" ++ netclassFlags ++
  (forS o.schematicSymbols fun x => py!"\n{x.toSexpr (indent + 2)}") ++
  sheets ++
  ifS (!o.sheetInstances.isEmpty) (py!"\n  (sheet_instances\n" ++ (forS o.sheetInstances fun x => x.toSexpr (indent + 4)) ++
    py!"  )\n") ++
  ifS (!o.symbolInstances.isEmpty) (py!"\n  (symbol_instances\n" ++ (forS o.symbolInstances fun x => x.toSexpr (indent + 4)) ++
    py!"  )\n") ++
  py!"{indents indent}){endl newline}"

end Kiutils
