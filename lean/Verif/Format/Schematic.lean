import Verif.Model.Schematic
import Verif.Format.SchItems
import Verif.Format.Symbol
/-!
# Schematics: values and well-formedness
-/
namespace Kiutils

def SchGraphic.toVal : SchGraphic → Val
  | .connection o => o.toVal
  | .polyline o => o.toVal

def SchGraphic.WF [TextRule] : SchGraphic → Prop
  | .connection o => o.WF
  | .polyline o => o.WF

def SchShape.toVal : SchShape → Val
  | .arc o => o.toVal
  | .circle o => o.toVal
  | .rectangle o => o.toVal

def SchShape.WF [TextRule] : SchShape → Prop
  | .arc o => o.WF
  | .circle o => o.WF
  | .rectangle o => o.WF

/-- What is left of a schematic after reading it back: the junctions have no diameter, the fill colours of the sheets have the
precision that `HierarchicalSheet.from_sexpr` sets, and the path of the file is not part of the text. -/
def Schematic.asRead (o : Schematic) : Schematic :=
  { o with junctions := o.junctions.map Junction.asRead, sheets := o.sheets.map HierarchicalSheet.asRead, filePath := none }

def Schematic.toVal (o : Schematic) : Val :=
  .list ([.str k!"kicad_sch", .list [.str k!"version", o.version.canon], .list [.str k!"generator", o.generator.canon]] ++
    (optL o.uuid fun v => [.list [.str k!"uuid", v.canon]]) ++ [o.paper.toVal] ++
    (optL o.titleBlock fun v => [v.toVal]) ++ [.list (.str k!"lib_symbols" :: o.libSymbols.map Symbol.toVal)] ++
    o.junctions.map Junction.toVal ++ o.noConnects.map NoConnect.toVal ++ o.busEntries.map BusEntry.toVal ++
    o.busAliases.map BusAlias.toVal ++ o.graphicalItems.map SchGraphic.toVal ++ o.shapes.map SchShape.toVal ++
    o.images.map Image.toVal ++ o.textBoxes.map TextBox.toVal ++ o.texts.map Text.toVal ++
    o.labels.map LocalLabel.toVal ++ o.globalLabels.map GlobalLabel.toVal ++
    o.hierarchicalLabels.map HierarchicalLabel.toVal ++ o.netclassFlags.map NetclassFlag.toVal ++
    o.schematicSymbols.map SchematicSymbol.toVal ++ o.sheets.map HierarchicalSheet.toVal ++
    ifL (!o.sheetInstances.isEmpty) [.list (.str k!"sheet_instances" :: o.sheetInstances.map HierarchicalSheetInstance.toVal)] ++
    ifL (!o.symbolInstances.isEmpty) [.list (.str k!"symbol_instances" :: o.symbolInstances.map SymbolInstance.toVal)])

structure Schematic.WF [TextRule] (o : Schematic) : Prop where
  version : AtomOk o.version
  generator : AtomOk o.generator
  uuid : ∀ v, o.uuid = some v → TokOk v
  paper : o.paper.WF
  titleBlock : ∀ v, o.titleBlock = some v → v.WF
  libSymbols : ∀ v ∈ o.libSymbols, v.WF
  junctions : ∀ v ∈ o.junctions, v.WF
  noConnects : ∀ v ∈ o.noConnects, v.WF
  busEntries : ∀ v ∈ o.busEntries, v.WF
  busAliases : ∀ v ∈ o.busAliases, v.WF
  graphicalItems : ∀ v ∈ o.graphicalItems, v.WF
  shapes : ∀ v ∈ o.shapes, v.WF
  images : ∀ v ∈ o.images, v.WF
  textBoxes : ∀ v ∈ o.textBoxes, v.WF
  texts : ∀ v ∈ o.texts, v.WF
  labels : ∀ v ∈ o.labels, v.WF
  globalLabels : ∀ v ∈ o.globalLabels, v.WF
  hierarchicalLabels : ∀ v ∈ o.hierarchicalLabels, v.WF
  netclassFlags : ∀ v ∈ o.netclassFlags, v.WF
  schematicSymbols : ∀ v ∈ o.schematicSymbols, v.WF
  sheets : ∀ v ∈ o.sheets, v.WF
  sheetInstances : ∀ v ∈ o.sheetInstances, v.WF
  symbolInstances : ∀ v ∈ o.symbolInstances, v.WF

end Kiutils
