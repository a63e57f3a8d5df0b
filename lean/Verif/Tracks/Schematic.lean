import Verif.Tokens
import Verif.Model.Schematic
/-!
# Loop bodies of `from_sexpr` item by item: Schematic
-/
namespace Kiutils

set_option maxHeartbeats 1000000 in
theorem Schematic.trackAll (o : Schematic) (x : Val) : Post (Schematic.step o x) fun o' =>
    Track (tok k!"version") (fun _ => (·.idx 1)) x o.version o'.version ∧
    Track (tok k!"generator") (fun _ => (·.idx 1)) x o.generator o'.generator ∧
    Track (tok k!"uuid") (fun _ => fun i => do return some (← i.idx 1)) x o.uuid o'.uuid ∧
    Track (tok k!"paper") (fun _ => PageSettings.fromSexpr) x o.paper o'.paper ∧
    Track (tok k!"title_block") (fun _ => fun i => do return some (← TitleBlock.fromSexpr i)) x o.titleBlock o'.titleBlock ∧
    Track (tok k!"lib_symbols") (fun l i => do return l ++ (← (fun i => do mapM' Symbol.fromSexpr (← i.slice 1)) i)) x o.libSymbols o'.libSymbols ∧
    Track (tok k!"symbol") (fun l i => do return l ++ [← SchematicSymbol.fromSexpr i]) x o.schematicSymbols o'.schematicSymbols ∧
    Track (tok k!"junction") (fun l i => do return l ++ [← Junction.fromSexpr i]) x o.junctions o'.junctions ∧
    Track (tok k!"no_connect") (fun l i => do return l ++ [← NoConnect.fromSexpr i]) x o.noConnects o'.noConnects ∧
    Track (tok k!"bus_entry") (fun l i => do return l ++ [← BusEntry.fromSexpr i]) x o.busEntries o'.busEntries ∧
    Track (tok k!"bus_alias") (fun l i => do return l ++ [← BusAlias.fromSexpr i]) x o.busAliases o'.busAliases ∧
    Track (tokIn [k!"wire", k!"bus", k!"polyline"]) (fun l i => do return l ++ [← (fun i => if tokIn [k!"wire", k!"bus"] i then do return .connection (← Connection.fromSexpr i) else do return .polyline (← PolyLine.fromSexpr i)) i]) x o.graphicalItems o'.graphicalItems ∧
    Track (tokIn [k!"arc", k!"circle", k!"rectangle"]) (fun l i => do return l ++ [← (fun i => if tok k!"arc" i then do return .arc (← Arc.fromSexpr i) else if tok k!"circle" i then do return .circle (← Circle.fromSexpr i) else do return .rectangle (← Rectangle.fromSexpr i)) i]) x o.shapes o'.shapes ∧
    Track (tok k!"image") (fun l i => do return l ++ [← Image.fromSexpr i]) x o.images o'.images ∧
    Track (tok k!"text") (fun l i => do return l ++ [← Text.fromSexpr i]) x o.texts o'.texts ∧
    Track (tok k!"text_box") (fun l i => do return l ++ [← TextBox.fromSexpr i]) x o.textBoxes o'.textBoxes ∧
    Track (tok k!"label") (fun l i => do return l ++ [← LocalLabel.fromSexpr i]) x o.labels o'.labels ∧
    Track (tok k!"global_label") (fun l i => do return l ++ [← GlobalLabel.fromSexpr i]) x o.globalLabels o'.globalLabels ∧
    Track (tok k!"hierarchical_label") (fun l i => do return l ++ [← HierarchicalLabel.fromSexpr i]) x o.hierarchicalLabels o'.hierarchicalLabels ∧
    Track (tok k!"netclass_flag") (fun l i => do return l ++ [← NetclassFlag.fromSexpr i]) x o.netclassFlags o'.netclassFlags ∧
    Track (tok k!"sheet") (fun l i => do return l ++ [← HierarchicalSheet.fromSexpr i]) x o.sheets o'.sheets ∧
    Track (tok k!"sheet_instances") (fun l i => do return l ++ (← (fun i => do mapM' HierarchicalSheetInstance.fromSexpr (← i.slice 1)) i)) x o.sheetInstances o'.sheetInstances ∧
    Track (tok k!"symbol_instances") (fun l i => do return l ++ (← (fun i => do mapM' SymbolInstance.fromSexpr (← i.slice 1)) i)) x o.symbolInstances o'.symbolInstances ∧
    Track (fun _ => false) (fun v _ => .ok v) x o.filePath o'.filePath := by
  unfold Schematic.step
  trackItems

theorem Schematic.indep (o o' : Schematic) (x : Val) : Same (Schematic.step o x) (Schematic.step o' x) := by
  unfold Schematic.step
  same

theorem Schematic.unknown {h : Val} {r : List Val} (hu : ∀ k ∈ [k!"version", k!"generator", k!"uuid", k!"paper", k!"title_block", k!"lib_symbols", k!"junction", k!"no_connect", k!"bus_entry", k!"bus_alias", k!"wire", k!"bus", k!"polyline", k!"arc", k!"circle", k!"rectangle", k!"image", k!"text", k!"text_box", k!"label", k!"global_label", k!"hierarchical_label", k!"netclass_flag", k!"symbol", k!"sheet", k!"sheet_instances", k!"symbol_instances"], h ≠ .str k) (o : Schematic) :
    Schematic.step o (.list (h :: r)) = .ok o := by
  unfold Schematic.step
  unknownHead hu

theorem Schematic.reordered {o a b : Schematic} {xs ys : List Val} (hr : Reordered [[k!"wire", k!"bus", k!"polyline"], [k!"arc", k!"circle", k!"rectangle"]] xs ys) (ha : forM Schematic.step o xs = .ok a)
    (hb : forM Schematic.step o ys = .ok b) : a = b := by
  have f0 : a.version = b.version := (Track.folds (get := (·.version)) (fun o x o' hs => (Schematic.trackAll o x o' hs).1) ha).unique
    (Track.folds (get := (·.version)) (fun o x o' hs => (Schematic.trackAll o x o' hs).1) hb) (hr.tokens _)
  have f1 : a.generator = b.generator := (Track.folds (get := (·.generator)) (fun o x o' hs => (Schematic.trackAll o x o' hs).2.1) ha).unique
    (Track.folds (get := (·.generator)) (fun o x o' hs => (Schematic.trackAll o x o' hs).2.1) hb) (hr.tokens _)
  have f2 : a.uuid = b.uuid := (Track.folds (get := (·.uuid)) (fun o x o' hs => (Schematic.trackAll o x o' hs).2.2.1) ha).unique
    (Track.folds (get := (·.uuid)) (fun o x o' hs => (Schematic.trackAll o x o' hs).2.2.1) hb) (hr.tokens _)
  have f3 : a.paper = b.paper := (Track.folds (get := (·.paper)) (fun o x o' hs => (Schematic.trackAll o x o' hs).2.2.2.1) ha).unique
    (Track.folds (get := (·.paper)) (fun o x o' hs => (Schematic.trackAll o x o' hs).2.2.2.1) hb) (hr.tokens _)
  have f4 : a.titleBlock = b.titleBlock := (Track.folds (get := (·.titleBlock)) (fun o x o' hs => (Schematic.trackAll o x o' hs).2.2.2.2.1) ha).unique
    (Track.folds (get := (·.titleBlock)) (fun o x o' hs => (Schematic.trackAll o x o' hs).2.2.2.2.1) hb) (hr.tokens _)
  have f5 : a.libSymbols = b.libSymbols := (Track.folds (get := (·.libSymbols)) (fun o x o' hs => (Schematic.trackAll o x o' hs).2.2.2.2.2.1) ha).unique
    (Track.folds (get := (·.libSymbols)) (fun o x o' hs => (Schematic.trackAll o x o' hs).2.2.2.2.2.1) hb) (hr.tokens _)
  have f6 : a.schematicSymbols = b.schematicSymbols := (Track.folds (get := (·.schematicSymbols)) (fun o x o' hs => (Schematic.trackAll o x o' hs).2.2.2.2.2.2.1) ha).unique
    (Track.folds (get := (·.schematicSymbols)) (fun o x o' hs => (Schematic.trackAll o x o' hs).2.2.2.2.2.2.1) hb) (hr.tokens _)
  have f7 : a.junctions = b.junctions := (Track.folds (get := (·.junctions)) (fun o x o' hs => (Schematic.trackAll o x o' hs).2.2.2.2.2.2.2.1) ha).unique
    (Track.folds (get := (·.junctions)) (fun o x o' hs => (Schematic.trackAll o x o' hs).2.2.2.2.2.2.2.1) hb) (hr.tokens _)
  have f8 : a.noConnects = b.noConnects := (Track.folds (get := (·.noConnects)) (fun o x o' hs => (Schematic.trackAll o x o' hs).2.2.2.2.2.2.2.2.1) ha).unique
    (Track.folds (get := (·.noConnects)) (fun o x o' hs => (Schematic.trackAll o x o' hs).2.2.2.2.2.2.2.2.1) hb) (hr.tokens _)
  have f9 : a.busEntries = b.busEntries := (Track.folds (get := (·.busEntries)) (fun o x o' hs => (Schematic.trackAll o x o' hs).2.2.2.2.2.2.2.2.2.1) ha).unique
    (Track.folds (get := (·.busEntries)) (fun o x o' hs => (Schematic.trackAll o x o' hs).2.2.2.2.2.2.2.2.2.1) hb) (hr.tokens _)
  have f10 : a.busAliases = b.busAliases := (Track.folds (get := (·.busAliases)) (fun o x o' hs => (Schematic.trackAll o x o' hs).2.2.2.2.2.2.2.2.2.2.1) ha).unique
    (Track.folds (get := (·.busAliases)) (fun o x o' hs => (Schematic.trackAll o x o' hs).2.2.2.2.2.2.2.2.2.2.1) hb) (hr.tokens _)
  have f11 : a.graphicalItems = b.graphicalItems := (Track.folds (get := (·.graphicalItems)) (fun o x o' hs => (Schematic.trackAll o x o' hs).2.2.2.2.2.2.2.2.2.2.2.1) ha).unique
    (Track.folds (get := (·.graphicalItems)) (fun o x o' hs => (Schematic.trackAll o x o' hs).2.2.2.2.2.2.2.2.2.2.2.1) hb) (hr.groups _ (by simp))
  have f12 : a.shapes = b.shapes := (Track.folds (get := (·.shapes)) (fun o x o' hs => (Schematic.trackAll o x o' hs).2.2.2.2.2.2.2.2.2.2.2.2.1) ha).unique
    (Track.folds (get := (·.shapes)) (fun o x o' hs => (Schematic.trackAll o x o' hs).2.2.2.2.2.2.2.2.2.2.2.2.1) hb) (hr.groups _ (by simp))
  have f13 : a.images = b.images := (Track.folds (get := (·.images)) (fun o x o' hs => (Schematic.trackAll o x o' hs).2.2.2.2.2.2.2.2.2.2.2.2.2.1) ha).unique
    (Track.folds (get := (·.images)) (fun o x o' hs => (Schematic.trackAll o x o' hs).2.2.2.2.2.2.2.2.2.2.2.2.2.1) hb) (hr.tokens _)
  have f14 : a.texts = b.texts := (Track.folds (get := (·.texts)) (fun o x o' hs => (Schematic.trackAll o x o' hs).2.2.2.2.2.2.2.2.2.2.2.2.2.2.1) ha).unique
    (Track.folds (get := (·.texts)) (fun o x o' hs => (Schematic.trackAll o x o' hs).2.2.2.2.2.2.2.2.2.2.2.2.2.2.1) hb) (hr.tokens _)
  have f15 : a.textBoxes = b.textBoxes := (Track.folds (get := (·.textBoxes)) (fun o x o' hs => (Schematic.trackAll o x o' hs).2.2.2.2.2.2.2.2.2.2.2.2.2.2.2.1) ha).unique
    (Track.folds (get := (·.textBoxes)) (fun o x o' hs => (Schematic.trackAll o x o' hs).2.2.2.2.2.2.2.2.2.2.2.2.2.2.2.1) hb) (hr.tokens _)
  have f16 : a.labels = b.labels := (Track.folds (get := (·.labels)) (fun o x o' hs => (Schematic.trackAll o x o' hs).2.2.2.2.2.2.2.2.2.2.2.2.2.2.2.2.1) ha).unique
    (Track.folds (get := (·.labels)) (fun o x o' hs => (Schematic.trackAll o x o' hs).2.2.2.2.2.2.2.2.2.2.2.2.2.2.2.2.1) hb) (hr.tokens _)
  have f17 : a.globalLabels = b.globalLabels := (Track.folds (get := (·.globalLabels)) (fun o x o' hs => (Schematic.trackAll o x o' hs).2.2.2.2.2.2.2.2.2.2.2.2.2.2.2.2.2.1) ha).unique
    (Track.folds (get := (·.globalLabels)) (fun o x o' hs => (Schematic.trackAll o x o' hs).2.2.2.2.2.2.2.2.2.2.2.2.2.2.2.2.2.1) hb) (hr.tokens _)
  have f18 : a.hierarchicalLabels = b.hierarchicalLabels := (Track.folds (get := (·.hierarchicalLabels)) (fun o x o' hs => (Schematic.trackAll o x o' hs).2.2.2.2.2.2.2.2.2.2.2.2.2.2.2.2.2.2.1) ha).unique
    (Track.folds (get := (·.hierarchicalLabels)) (fun o x o' hs => (Schematic.trackAll o x o' hs).2.2.2.2.2.2.2.2.2.2.2.2.2.2.2.2.2.2.1) hb) (hr.tokens _)
  have f19 : a.netclassFlags = b.netclassFlags := (Track.folds (get := (·.netclassFlags)) (fun o x o' hs => (Schematic.trackAll o x o' hs).2.2.2.2.2.2.2.2.2.2.2.2.2.2.2.2.2.2.2.1) ha).unique
    (Track.folds (get := (·.netclassFlags)) (fun o x o' hs => (Schematic.trackAll o x o' hs).2.2.2.2.2.2.2.2.2.2.2.2.2.2.2.2.2.2.2.1) hb) (hr.tokens _)
  have f20 : a.sheets = b.sheets := (Track.folds (get := (·.sheets)) (fun o x o' hs => (Schematic.trackAll o x o' hs).2.2.2.2.2.2.2.2.2.2.2.2.2.2.2.2.2.2.2.2.1) ha).unique
    (Track.folds (get := (·.sheets)) (fun o x o' hs => (Schematic.trackAll o x o' hs).2.2.2.2.2.2.2.2.2.2.2.2.2.2.2.2.2.2.2.2.1) hb) (hr.tokens _)
  have f21 : a.sheetInstances = b.sheetInstances := (Track.folds (get := (·.sheetInstances)) (fun o x o' hs => (Schematic.trackAll o x o' hs).2.2.2.2.2.2.2.2.2.2.2.2.2.2.2.2.2.2.2.2.2.1) ha).unique
    (Track.folds (get := (·.sheetInstances)) (fun o x o' hs => (Schematic.trackAll o x o' hs).2.2.2.2.2.2.2.2.2.2.2.2.2.2.2.2.2.2.2.2.2.1) hb) (hr.tokens _)
  have f22 : a.symbolInstances = b.symbolInstances := (Track.folds (get := (·.symbolInstances)) (fun o x o' hs => (Schematic.trackAll o x o' hs).2.2.2.2.2.2.2.2.2.2.2.2.2.2.2.2.2.2.2.2.2.2.1) ha).unique
    (Track.folds (get := (·.symbolInstances)) (fun o x o' hs => (Schematic.trackAll o x o' hs).2.2.2.2.2.2.2.2.2.2.2.2.2.2.2.2.2.2.2.2.2.2.1) hb) (hr.tokens _)
  have f23 : a.filePath = b.filePath := (Track.folds (get := (·.filePath)) (fun o x o' hs => (Schematic.trackAll o x o' hs).2.2.2.2.2.2.2.2.2.2.2.2.2.2.2.2.2.2.2.2.2.2.2) ha).unique
    (Track.folds (get := (·.filePath)) (fun o x o' hs => (Schematic.trackAll o x o' hs).2.2.2.2.2.2.2.2.2.2.2.2.2.2.2.2.2.2.2.2.2.2.2) hb) filter_never
  show Schematic.mk a.version a.generator a.uuid a.paper a.titleBlock a.libSymbols a.schematicSymbols a.junctions a.noConnects a.busEntries a.busAliases a.graphicalItems a.shapes a.images a.texts a.textBoxes a.labels a.globalLabels a.hierarchicalLabels a.netclassFlags a.sheets a.sheetInstances a.symbolInstances a.filePath =
    Schematic.mk b.version b.generator b.uuid b.paper b.titleBlock b.libSymbols b.schematicSymbols b.junctions b.noConnects b.busEntries b.busAliases b.graphicalItems b.shapes b.images b.texts b.textBoxes b.labels b.globalLabels b.hierarchicalLabels b.netclassFlags b.sheets b.sheetInstances b.symbolInstances b.filePath
  rw [f0, f1, f2, f3, f4, f5, f6, f7, f8, f9, f10, f11, f12, f13, f14, f15, f16, f17, f18, f19, f20, f21, f22, f23]

theorem Schematic.loopEq (xs : List Val) :
    Schematic.fromSexpr (.list (.str k!"kicad_sch" :: xs)) = forM Schematic.step {} (.str k!"kicad_sch" :: xs) :=
  rfl

end Kiutils
