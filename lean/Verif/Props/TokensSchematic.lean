import Verif.Swap
import Verif.Tracks.Schematic
/-!
# What `from_sexpr` makes of the items of a list: Schematic

For each class: `C37` (every field is read from the last item with its token; flags are set when their word or token occurs),
`C11` (lists contain all items with their tokens, once each, in order), `C36` (unrelated items may change places), `C10` (items
with unknown tokens are ignored). The vocabulary is defined in `Verif/Tokens.lean`.
-/
namespace Kiutils

theorem C37_Schematic (xs : List Val) (o : Schematic) (h : Schematic.fromSexpr (.list (.str k!"kicad_sch" :: xs)) = .ok o) :
    LastWins (tok k!"version") (·.idx 1) xs (st k!"20211014" : Val) o.version ∧
    LastWins (tok k!"generator") (·.idx 1) xs (st k!"kiutils" : Val) o.generator ∧
    LastWins (tok k!"uuid") (fun i => do return some (← i.idx 1)) xs (none : Option Val) o.uuid ∧
    LastWins (tok k!"paper") PageSettings.fromSexpr xs ({} : PageSettings) o.paper ∧
    LastWins (tok k!"title_block") (fun i => do return some (← TitleBlock.fromSexpr i)) xs (none : Option TitleBlock) o.titleBlock ∧
    o.filePath = (none : Option Str) := by
  rw [Schematic.loopEq ] at h
  exact ⟨((Track.folds (get := (·.version)) (fun o x o' hs => (Schematic.trackAll o x o' hs).1) h).drop rfl).last,
    ((Track.folds (get := (·.generator)) (fun o x o' hs => (Schematic.trackAll o x o' hs).2.1) h).drop rfl).last,
    ((Track.folds (get := (·.uuid)) (fun o x o' hs => (Schematic.trackAll o x o' hs).2.2.1) h).drop rfl).last,
    ((Track.folds (get := (·.paper)) (fun o x o' hs => (Schematic.trackAll o x o' hs).2.2.2.1) h).drop rfl).last,
    ((Track.folds (get := (·.titleBlock)) (fun o x o' hs => (Schematic.trackAll o x o' hs).2.2.2.2.1) h).drop rfl).last,
    ((Track.folds (get := (·.filePath)) (fun o x o' hs => (Schematic.trackAll o x o' hs).2.2.2.2.2.2.2.2.2.2.2.2.2.2.2.2.2.2.2.2.2.2.2) h)).const⟩
example := C37_Schematic [.list [.str k!"version", .str k!"a"]] _ rfl

theorem C11_Schematic (xs : List Val) (o : Schematic) (h : Schematic.fromSexpr (.list (.str k!"kicad_sch" :: xs)) = .ok o) :
    CollectedAll (tok k!"lib_symbols") (fun i => do mapM' Symbol.fromSexpr (← i.slice 1)) xs o.libSymbols ∧
    Collected (tok k!"symbol") SchematicSymbol.fromSexpr xs o.schematicSymbols ∧
    Collected (tok k!"junction") Junction.fromSexpr xs o.junctions ∧
    Collected (tok k!"no_connect") NoConnect.fromSexpr xs o.noConnects ∧
    Collected (tok k!"bus_entry") BusEntry.fromSexpr xs o.busEntries ∧
    Collected (tok k!"bus_alias") BusAlias.fromSexpr xs o.busAliases ∧
    Collected (tokIn [k!"wire", k!"bus", k!"polyline"]) (fun i => if tokIn [k!"wire", k!"bus"] i then do return .connection (← Connection.fromSexpr i) else do return .polyline (← PolyLine.fromSexpr i)) xs o.graphicalItems ∧
    Collected (tokIn [k!"arc", k!"circle", k!"rectangle"]) (fun i => if tok k!"arc" i then do return .arc (← Arc.fromSexpr i) else if tok k!"circle" i then do return .circle (← Circle.fromSexpr i) else do return .rectangle (← Rectangle.fromSexpr i)) xs o.shapes ∧
    Collected (tok k!"image") Image.fromSexpr xs o.images ∧
    Collected (tok k!"text") Text.fromSexpr xs o.texts ∧
    Collected (tok k!"text_box") TextBox.fromSexpr xs o.textBoxes ∧
    Collected (tok k!"label") LocalLabel.fromSexpr xs o.labels ∧
    Collected (tok k!"global_label") GlobalLabel.fromSexpr xs o.globalLabels ∧
    Collected (tok k!"hierarchical_label") HierarchicalLabel.fromSexpr xs o.hierarchicalLabels ∧
    Collected (tok k!"netclass_flag") NetclassFlag.fromSexpr xs o.netclassFlags ∧
    Collected (tok k!"sheet") HierarchicalSheet.fromSexpr xs o.sheets ∧
    CollectedAll (tok k!"sheet_instances") (fun i => do mapM' HierarchicalSheetInstance.fromSexpr (← i.slice 1)) xs o.sheetInstances ∧
    CollectedAll (tok k!"symbol_instances") (fun i => do mapM' SymbolInstance.fromSexpr (← i.slice 1)) xs o.symbolInstances := by
  rw [Schematic.loopEq ] at h
  exact ⟨((Track.folds (get := (·.libSymbols)) (fun o x o' hs => (Schematic.trackAll o x o' hs).2.2.2.2.2.1) h).drop rfl).collectedAll,
    ((Track.folds (get := (·.schematicSymbols)) (fun o x o' hs => (Schematic.trackAll o x o' hs).2.2.2.2.2.2.1) h).drop rfl).collected,
    ((Track.folds (get := (·.junctions)) (fun o x o' hs => (Schematic.trackAll o x o' hs).2.2.2.2.2.2.2.1) h).drop rfl).collected,
    ((Track.folds (get := (·.noConnects)) (fun o x o' hs => (Schematic.trackAll o x o' hs).2.2.2.2.2.2.2.2.1) h).drop rfl).collected,
    ((Track.folds (get := (·.busEntries)) (fun o x o' hs => (Schematic.trackAll o x o' hs).2.2.2.2.2.2.2.2.2.1) h).drop rfl).collected,
    ((Track.folds (get := (·.busAliases)) (fun o x o' hs => (Schematic.trackAll o x o' hs).2.2.2.2.2.2.2.2.2.2.1) h).drop rfl).collected,
    ((Track.folds (get := (·.graphicalItems)) (fun o x o' hs => (Schematic.trackAll o x o' hs).2.2.2.2.2.2.2.2.2.2.2.1) h).drop rfl).collected,
    ((Track.folds (get := (·.shapes)) (fun o x o' hs => (Schematic.trackAll o x o' hs).2.2.2.2.2.2.2.2.2.2.2.2.1) h).drop rfl).collected,
    ((Track.folds (get := (·.images)) (fun o x o' hs => (Schematic.trackAll o x o' hs).2.2.2.2.2.2.2.2.2.2.2.2.2.1) h).drop rfl).collected,
    ((Track.folds (get := (·.texts)) (fun o x o' hs => (Schematic.trackAll o x o' hs).2.2.2.2.2.2.2.2.2.2.2.2.2.2.1) h).drop rfl).collected,
    ((Track.folds (get := (·.textBoxes)) (fun o x o' hs => (Schematic.trackAll o x o' hs).2.2.2.2.2.2.2.2.2.2.2.2.2.2.2.1) h).drop rfl).collected,
    ((Track.folds (get := (·.labels)) (fun o x o' hs => (Schematic.trackAll o x o' hs).2.2.2.2.2.2.2.2.2.2.2.2.2.2.2.2.1) h).drop rfl).collected,
    ((Track.folds (get := (·.globalLabels)) (fun o x o' hs => (Schematic.trackAll o x o' hs).2.2.2.2.2.2.2.2.2.2.2.2.2.2.2.2.2.1) h).drop rfl).collected,
    ((Track.folds (get := (·.hierarchicalLabels)) (fun o x o' hs => (Schematic.trackAll o x o' hs).2.2.2.2.2.2.2.2.2.2.2.2.2.2.2.2.2.2.1) h).drop rfl).collected,
    ((Track.folds (get := (·.netclassFlags)) (fun o x o' hs => (Schematic.trackAll o x o' hs).2.2.2.2.2.2.2.2.2.2.2.2.2.2.2.2.2.2.2.1) h).drop rfl).collected,
    ((Track.folds (get := (·.sheets)) (fun o x o' hs => (Schematic.trackAll o x o' hs).2.2.2.2.2.2.2.2.2.2.2.2.2.2.2.2.2.2.2.2.1) h).drop rfl).collected,
    ((Track.folds (get := (·.sheetInstances)) (fun o x o' hs => (Schematic.trackAll o x o' hs).2.2.2.2.2.2.2.2.2.2.2.2.2.2.2.2.2.2.2.2.2.1) h).drop rfl).collectedAll,
    ((Track.folds (get := (·.symbolInstances)) (fun o x o' hs => (Schematic.trackAll o x o' hs).2.2.2.2.2.2.2.2.2.2.2.2.2.2.2.2.2.2.2.2.2.2.1) h).drop rfl).collectedAll⟩

/-- A repeated token with an unknown one in between. -/
example : (Schematic.fromSexpr (.list [.str k!"kicad_sch", .list [.str k!"version", .str k!"a"], .list [.str k!"zzz", .int 1], .list [.str k!"version", .str k!"b"]])).map (·.version) = .ok (.str k!"b") := rfl

theorem C36_Schematic {xs ys : List Val} (hr : Reordered [[k!"wire", k!"bus", k!"polyline"], [k!"arc", k!"circle", k!"rectangle"]] xs ys) (o : Schematic) :
    Schematic.fromSexpr (.list (.str k!"kicad_sch" :: xs)) = .ok o ↔ Schematic.fromSexpr (.list (.str k!"kicad_sch" :: ys)) = .ok o := by
  rw [Schematic.loopEq , Schematic.loopEq ]
  exact reordered_iff Schematic.indep Schematic.reordered (hr.cons _) o
example := C36_Schematic (.swap [] [] [.int 1] [.int 2] k!"version" k!"generator" (by decide) (by decide))

theorem C10_Schematic (xs ys : List Val) {u : Val} {r : List Val}
    (hu : ∀ k ∈ [k!"version", k!"generator", k!"uuid", k!"paper", k!"title_block", k!"lib_symbols", k!"junction", k!"no_connect", k!"bus_entry", k!"bus_alias", k!"wire", k!"bus", k!"polyline", k!"arc", k!"circle", k!"rectangle", k!"image", k!"text", k!"text_box", k!"label", k!"global_label", k!"hierarchical_label", k!"netclass_flag", k!"symbol", k!"sheet", k!"sheet_instances", k!"symbol_instances"], u ≠ .str k) :
    Schematic.fromSexpr (.list (.str k!"kicad_sch" :: (xs ++ .list (u :: r) :: ys))) =
    Schematic.fromSexpr (.list (.str k!"kicad_sch" :: (xs ++ ys))) := by
  rw [Schematic.loopEq , Schematic.loopEq ]
  exact forM_insert (Schematic.unknown hu) _ (.str k!"kicad_sch" :: xs) ys
example := C10_Schematic [.list [.str k!"version", .int 1]] [] (u := .str k!"zzz") (r := [.int 1]) (by simp)

end Kiutils
