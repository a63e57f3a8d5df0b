import Verif.Swap
import Verif.Tracks.BrdItems
/-!
# What `from_sexpr` makes of the items of a list: BrdItems

For each class: `C37` (every field is read from the last item with its token; flags are set when their word or token occurs),
`C11` (lists contain all items with their tokens, once each, in order), `C36` (unrelated items may change places), `C10` (items
with unknown tokens are ignored). The vocabulary is defined in `Verif/Tokens.lean`.
-/
namespace Kiutils

theorem C37_GeneralSettings (xs : List Val) (o : GeneralSettings) (h : GeneralSettings.fromSexpr (.list (.str k!"general" :: xs)) = .ok o) :
    LastWins (tok k!"thickness") (·.idx 1) xs (fl k!"1" k!"6" : Val) o.thickness := by
  rw [GeneralSettings.loopEq ] at h
  exact ((Track.folds (get := (·.thickness)) (fun o x o' hs => (GeneralSettings.trackAll o x o' hs)) h).drop rfl).last

/-- A repeated token with an unknown one in between. -/
example : (GeneralSettings.fromSexpr (.list [.str k!"general", .list [.str k!"thickness", .str k!"a"], .list [.str k!"zzz", .int 1], .list [.str k!"thickness", .str k!"b"]])).map (·.thickness) = .ok (.str k!"b") := rfl

theorem C36_GeneralSettings {xs ys : List Val} (hr : Reordered [] xs ys) (o : GeneralSettings) :
    GeneralSettings.fromSexpr (.list (.str k!"general" :: xs)) = .ok o ↔ GeneralSettings.fromSexpr (.list (.str k!"general" :: ys)) = .ok o := by
  rw [GeneralSettings.loopEq , GeneralSettings.loopEq ]
  exact reordered_iff GeneralSettings.indep GeneralSettings.reordered (hr.cons _) o
example := C36_GeneralSettings (.swap [] [] [.int 1] [.int 2] k!"thickness" k!"zzz" (by decide) (by decide))

theorem C10_GeneralSettings (xs ys : List Val) {u : Val} {r : List Val}
    (hu : ∀ k ∈ [k!"thickness"], u ≠ .str k) :
    GeneralSettings.fromSexpr (.list (.str k!"general" :: (xs ++ .list (u :: r) :: ys))) =
    GeneralSettings.fromSexpr (.list (.str k!"general" :: (xs ++ ys))) := by
  rw [GeneralSettings.loopEq , GeneralSettings.loopEq ]
  exact forM_insert (GeneralSettings.unknown hu) _ (.str k!"general" :: xs) ys
example := C10_GeneralSettings [.list [.str k!"thickness", .int 1]] [] (u := .str k!"zzz") (r := [.int 1]) (by simp)

theorem C37_Stackup (xs : List Val) (o : Stackup) (h : Stackup.fromSexpr (.list (.str k!"stackup" :: xs)) = .ok o) :
    LastWins (tok k!"copper_finish") (fun i => do return some (← i.idx 1)) xs (none : Option Val) o.copperFinish ∧
    LastWins (tok k!"dielectric_constraints") (fun i => do return some (← i.idx 1)) xs (none : Option Val) o.dielectricContraints ∧
    LastWins (tok k!"edge_connector") (fun i => do return some (← i.idx 1)) xs (none : Option Val) o.edgeConnector ∧
    o.castellatedPads = xs.any (tok k!"castellated_pads") ∧
    o.edgePlating = xs.any (tok k!"edge_plating") := by
  rw [Stackup.loopEq ] at h
  exact ⟨((Track.folds (get := (·.copperFinish)) (fun o x o' hs => (Stackup.trackAll o x o' hs).2.1) h).drop rfl).last,
    ((Track.folds (get := (·.dielectricContraints)) (fun o x o' hs => (Stackup.trackAll o x o' hs).2.2.1) h).drop rfl).last,
    ((Track.folds (get := (·.edgeConnector)) (fun o x o' hs => (Stackup.trackAll o x o' hs).2.2.2.1) h).drop rfl).last,
    ((Track.folds (get := (·.castellatedPads)) (fun o x o' hs => (Stackup.trackAll o x o' hs).2.2.2.2.1) h).drop rfl).flag,
    ((Track.folds (get := (·.edgePlating)) (fun o x o' hs => (Stackup.trackAll o x o' hs).2.2.2.2.2) h).drop rfl).flag⟩
example := C37_Stackup [.list [.str k!"copper_finish", .str k!"a"]] _ rfl

theorem C11_Stackup (xs : List Val) (o : Stackup) (h : Stackup.fromSexpr (.list (.str k!"stackup" :: xs)) = .ok o) :
    Collected (tok k!"layer") StackupLayer.fromSexpr xs o.layers := by
  rw [Stackup.loopEq ] at h
  exact ((Track.folds (get := (·.layers)) (fun o x o' hs => (Stackup.trackAll o x o' hs).1) h).drop rfl).collected

/-- A repeated token with an unknown one in between. -/
example : (Stackup.fromSexpr (.list [.str k!"stackup", .list [.str k!"copper_finish", .str k!"a"], .list [.str k!"zzz", .int 1], .list [.str k!"copper_finish", .str k!"b"]])).map (·.copperFinish) = .ok (some (.str k!"b")) := rfl

theorem C36_Stackup {xs ys : List Val} (hr : Reordered [] xs ys) (o : Stackup) :
    Stackup.fromSexpr (.list (.str k!"stackup" :: xs)) = .ok o ↔ Stackup.fromSexpr (.list (.str k!"stackup" :: ys)) = .ok o := by
  rw [Stackup.loopEq , Stackup.loopEq ]
  exact reordered_iff Stackup.indep Stackup.reordered (hr.cons _) o
example := C36_Stackup (.swap [] [] [.int 1] [.int 2] k!"layer" k!"copper_finish" (by decide) (by decide))

theorem C10_Stackup (xs ys : List Val) {u : Val} {r : List Val}
    (hu : ∀ k ∈ [k!"layer", k!"copper_finish", k!"dielectric_constraints", k!"edge_connector", k!"castellated_pads", k!"edge_plating"], u ≠ .str k) :
    Stackup.fromSexpr (.list (.str k!"stackup" :: (xs ++ .list (u :: r) :: ys))) =
    Stackup.fromSexpr (.list (.str k!"stackup" :: (xs ++ ys))) := by
  rw [Stackup.loopEq , Stackup.loopEq ]
  exact forM_insert (Stackup.unknown hu) _ (.str k!"stackup" :: xs) ys
example := C10_Stackup [.list [.str k!"layer", .int 1]] [] (u := .str k!"zzz") (r := [.int 1]) (by simp)

theorem C37_PlotSettings (xs : List Val) (o : PlotSettings) (h : PlotSettings.fromSexpr (.list (.str k!"pcbplotparams" :: xs)) = .ok o) :
    LastWins (tok k!"layerselection") (·.idx 1) xs (st k!"" : Val) o.layerSelection ∧
    LastWins (tok k!"plot_on_all_layers_selection") (fun i => do return some (← i.idx 1)) xs (none : Option Val) o.plotOnAllLayersSelection ∧
    LastWins (tok k!"disableapertmacros") (fun i => do return (← i.idx 1).is k!"true") xs (false : Bool) o.disableApertMacros ∧
    LastWins (tok k!"usegerberextensions") (fun i => do return (← i.idx 1).is k!"true") xs (false : Bool) o.useGerberExtensions ∧
    LastWins (tok k!"usegerberattributes") (fun i => do return (← i.idx 1).is k!"true") xs (false : Bool) o.useGerberAttributes ∧
    LastWins (tok k!"usegerberadvancedattributes") (fun i => do return (← i.idx 1).is k!"true") xs (false : Bool) o.useGerberAdvancedAttributes ∧
    LastWins (tok k!"creategerberjobfile") (fun i => do return (← i.idx 1).is k!"true") xs (false : Bool) o.createGerberJobFile ∧
    LastWins (tok k!"dashed_line_dash_ratio") (fun i => do return some (← i.idx 1)) xs (none : Option Val) o.dashedLineDashRatio ∧
    LastWins (tok k!"dashed_line_gap_ratio") (fun i => do return some (← i.idx 1)) xs (none : Option Val) o.dashedLineGapRatio ∧
    LastWins (tok k!"svguseinch") (fun i => do return some ((← i.idx 1).is k!"true")) xs (none : Option Bool) o.svgUseInch ∧
    LastWins (tok k!"svgprecision") (·.idx 1) xs (fl k!"0" k!"0" : Val) o.svgPrecision ∧
    LastWins (tok k!"excludeedgelayer") (fun i => do return some ((← i.idx 1).is k!"true")) xs (none : Option Bool) o.excludeEdgeLayer ∧
    LastWins (tok k!"plotframeref") (fun i => do return (← i.idx 1).is k!"true") xs (false : Bool) o.plotFameRef ∧
    LastWins (tok k!"viasonmask") (fun i => do return (← i.idx 1).is k!"true") xs (false : Bool) o.viasOnMask ∧
    LastWins (tok k!"mode") (·.idx 1) xs (.int 1 : Val) o.mode ∧
    LastWins (tok k!"useauxorigin") (fun i => do return (← i.idx 1).is k!"true") xs (false : Bool) o.useAuxOrigin ∧
    LastWins (tok k!"hpglpennumber") (·.idx 1) xs (.int 0 : Val) o.hpglPenNumber ∧
    LastWins (tok k!"hpglpenspeed") (·.idx 1) xs (.int 0 : Val) o.hpglPenSpeed ∧
    LastWins (tok k!"hpglpendiameter") (·.idx 1) xs (fl k!"0" k!"0" : Val) o.hpglPenDiameter ∧
    LastWins (tok k!"dxfpolygonmode") (fun i => do return (← i.idx 1).is k!"true") xs (false : Bool) o.dxfPolygonMode ∧
    LastWins (tok k!"dxfimperialunits") (fun i => do return (← i.idx 1).is k!"true") xs (false : Bool) o.dxfImperialUnits ∧
    LastWins (tok k!"dxfusepcbnewfont") (fun i => do return (← i.idx 1).is k!"true") xs (false : Bool) o.dxfUsePcbnewFont ∧
    LastWins (tok k!"psnegative") (fun i => do return (← i.idx 1).is k!"true") xs (false : Bool) o.psNegative ∧
    LastWins (tok k!"psa4output") (fun i => do return (← i.idx 1).is k!"true") xs (false : Bool) o.psA4Output ∧
    LastWins (tok k!"plotreference") (fun i => do return (← i.idx 1).is k!"true") xs (false : Bool) o.plotReference ∧
    LastWins (tok k!"plotvalue") (fun i => do return (← i.idx 1).is k!"true") xs (false : Bool) o.plotValue ∧
    LastWins (tok k!"plotinvisibletext") (fun i => do return (← i.idx 1).is k!"true") xs (false : Bool) o.plotInvisibleText ∧
    LastWins (tok k!"sketchpadsonfab") (fun i => do return (← i.idx 1).is k!"true") xs (false : Bool) o.sketchPadsOnFab ∧
    LastWins (tok k!"subtractmaskfromsilk") (fun i => do return (← i.idx 1).is k!"true") xs (false : Bool) o.subtractMaskFromSilk ∧
    LastWins (tok k!"outputformat") (·.idx 1) xs (.int 0 : Val) o.outputFormat ∧
    LastWins (tok k!"mirror") (fun i => do return (← i.idx 1).is k!"true") xs (false : Bool) o.mirror ∧
    LastWins (tok k!"drillshape") (·.idx 1) xs (.int 0 : Val) o.drillShape ∧
    LastWins (tok k!"scaleselection") (·.idx 1) xs (.int 1 : Val) o.scaleSelection ∧
    LastWins (tok k!"outputdirectory") (·.idx 1) xs (st k!"" : Val) o.outputDirectory := by
  rw [PlotSettings.loopEq ] at h
  exact ⟨((Track.folds (get := (·.layerSelection)) (fun o x o' hs => (PlotSettings.trackAll o x o' hs).1) h).drop rfl).last,
    ((Track.folds (get := (·.plotOnAllLayersSelection)) (fun o x o' hs => (PlotSettings.trackAll o x o' hs).2.1) h).drop rfl).last,
    ((Track.folds (get := (·.disableApertMacros)) (fun o x o' hs => (PlotSettings.trackAll o x o' hs).2.2.1) h).drop rfl).last,
    ((Track.folds (get := (·.useGerberExtensions)) (fun o x o' hs => (PlotSettings.trackAll o x o' hs).2.2.2.1) h).drop rfl).last,
    ((Track.folds (get := (·.useGerberAttributes)) (fun o x o' hs => (PlotSettings.trackAll o x o' hs).2.2.2.2.1) h).drop rfl).last,
    ((Track.folds (get := (·.useGerberAdvancedAttributes)) (fun o x o' hs => (PlotSettings.trackAll o x o' hs).2.2.2.2.2.1) h).drop rfl).last,
    ((Track.folds (get := (·.createGerberJobFile)) (fun o x o' hs => (PlotSettings.trackAll o x o' hs).2.2.2.2.2.2.1) h).drop rfl).last,
    ((Track.folds (get := (·.dashedLineDashRatio)) (fun o x o' hs => (PlotSettings.trackAll o x o' hs).2.2.2.2.2.2.2.1) h).drop rfl).last,
    ((Track.folds (get := (·.dashedLineGapRatio)) (fun o x o' hs => (PlotSettings.trackAll o x o' hs).2.2.2.2.2.2.2.2.1) h).drop rfl).last,
    ((Track.folds (get := (·.svgUseInch)) (fun o x o' hs => (PlotSettings.trackAll o x o' hs).2.2.2.2.2.2.2.2.2.1) h).drop rfl).last,
    ((Track.folds (get := (·.svgPrecision)) (fun o x o' hs => (PlotSettings.trackAll o x o' hs).2.2.2.2.2.2.2.2.2.2.1) h).drop rfl).last,
    ((Track.folds (get := (·.excludeEdgeLayer)) (fun o x o' hs => (PlotSettings.trackAll o x o' hs).2.2.2.2.2.2.2.2.2.2.2.1) h).drop rfl).last,
    ((Track.folds (get := (·.plotFameRef)) (fun o x o' hs => (PlotSettings.trackAll o x o' hs).2.2.2.2.2.2.2.2.2.2.2.2.1) h).drop rfl).last,
    ((Track.folds (get := (·.viasOnMask)) (fun o x o' hs => (PlotSettings.trackAll o x o' hs).2.2.2.2.2.2.2.2.2.2.2.2.2.1) h).drop rfl).last,
    ((Track.folds (get := (·.mode)) (fun o x o' hs => (PlotSettings.trackAll o x o' hs).2.2.2.2.2.2.2.2.2.2.2.2.2.2.1) h).drop rfl).last,
    ((Track.folds (get := (·.useAuxOrigin)) (fun o x o' hs => (PlotSettings.trackAll o x o' hs).2.2.2.2.2.2.2.2.2.2.2.2.2.2.2.1) h).drop rfl).last,
    ((Track.folds (get := (·.hpglPenNumber)) (fun o x o' hs => (PlotSettings.trackAll o x o' hs).2.2.2.2.2.2.2.2.2.2.2.2.2.2.2.2.1) h).drop rfl).last,
    ((Track.folds (get := (·.hpglPenSpeed)) (fun o x o' hs => (PlotSettings.trackAll o x o' hs).2.2.2.2.2.2.2.2.2.2.2.2.2.2.2.2.2.1) h).drop rfl).last,
    ((Track.folds (get := (·.hpglPenDiameter)) (fun o x o' hs => (PlotSettings.trackAll o x o' hs).2.2.2.2.2.2.2.2.2.2.2.2.2.2.2.2.2.2.1) h).drop rfl).last,
    ((Track.folds (get := (·.dxfPolygonMode)) (fun o x o' hs => (PlotSettings.trackAll o x o' hs).2.2.2.2.2.2.2.2.2.2.2.2.2.2.2.2.2.2.2.1) h).drop rfl).last,
    ((Track.folds (get := (·.dxfImperialUnits)) (fun o x o' hs => (PlotSettings.trackAll o x o' hs).2.2.2.2.2.2.2.2.2.2.2.2.2.2.2.2.2.2.2.2.1) h).drop rfl).last,
    ((Track.folds (get := (·.dxfUsePcbnewFont)) (fun o x o' hs => (PlotSettings.trackAll o x o' hs).2.2.2.2.2.2.2.2.2.2.2.2.2.2.2.2.2.2.2.2.2.1) h).drop rfl).last,
    ((Track.folds (get := (·.psNegative)) (fun o x o' hs => (PlotSettings.trackAll o x o' hs).2.2.2.2.2.2.2.2.2.2.2.2.2.2.2.2.2.2.2.2.2.2.1) h).drop rfl).last,
    ((Track.folds (get := (·.psA4Output)) (fun o x o' hs => (PlotSettings.trackAll o x o' hs).2.2.2.2.2.2.2.2.2.2.2.2.2.2.2.2.2.2.2.2.2.2.2.1) h).drop rfl).last,
    ((Track.folds (get := (·.plotReference)) (fun o x o' hs => (PlotSettings.trackAll o x o' hs).2.2.2.2.2.2.2.2.2.2.2.2.2.2.2.2.2.2.2.2.2.2.2.2.1) h).drop rfl).last,
    ((Track.folds (get := (·.plotValue)) (fun o x o' hs => (PlotSettings.trackAll o x o' hs).2.2.2.2.2.2.2.2.2.2.2.2.2.2.2.2.2.2.2.2.2.2.2.2.2.1) h).drop rfl).last,
    ((Track.folds (get := (·.plotInvisibleText)) (fun o x o' hs => (PlotSettings.trackAll o x o' hs).2.2.2.2.2.2.2.2.2.2.2.2.2.2.2.2.2.2.2.2.2.2.2.2.2.2.1) h).drop rfl).last,
    ((Track.folds (get := (·.sketchPadsOnFab)) (fun o x o' hs => (PlotSettings.trackAll o x o' hs).2.2.2.2.2.2.2.2.2.2.2.2.2.2.2.2.2.2.2.2.2.2.2.2.2.2.2.1) h).drop rfl).last,
    ((Track.folds (get := (·.subtractMaskFromSilk)) (fun o x o' hs => (PlotSettings.trackAll o x o' hs).2.2.2.2.2.2.2.2.2.2.2.2.2.2.2.2.2.2.2.2.2.2.2.2.2.2.2.2.1) h).drop rfl).last,
    ((Track.folds (get := (·.outputFormat)) (fun o x o' hs => (PlotSettings.trackAll o x o' hs).2.2.2.2.2.2.2.2.2.2.2.2.2.2.2.2.2.2.2.2.2.2.2.2.2.2.2.2.2.1) h).drop rfl).last,
    ((Track.folds (get := (·.mirror)) (fun o x o' hs => (PlotSettings.trackAll o x o' hs).2.2.2.2.2.2.2.2.2.2.2.2.2.2.2.2.2.2.2.2.2.2.2.2.2.2.2.2.2.2.1) h).drop rfl).last,
    ((Track.folds (get := (·.drillShape)) (fun o x o' hs => (PlotSettings.trackAll o x o' hs).2.2.2.2.2.2.2.2.2.2.2.2.2.2.2.2.2.2.2.2.2.2.2.2.2.2.2.2.2.2.2.1) h).drop rfl).last,
    ((Track.folds (get := (·.scaleSelection)) (fun o x o' hs => (PlotSettings.trackAll o x o' hs).2.2.2.2.2.2.2.2.2.2.2.2.2.2.2.2.2.2.2.2.2.2.2.2.2.2.2.2.2.2.2.2.1) h).drop rfl).last,
    ((Track.folds (get := (·.outputDirectory)) (fun o x o' hs => (PlotSettings.trackAll o x o' hs).2.2.2.2.2.2.2.2.2.2.2.2.2.2.2.2.2.2.2.2.2.2.2.2.2.2.2.2.2.2.2.2.2) h).drop rfl).last⟩

/-- A repeated token with an unknown one in between. -/
example : (PlotSettings.fromSexpr (.list [.str k!"pcbplotparams", .list [.str k!"layerselection", .str k!"a"], .list [.str k!"zzz", .int 1], .list [.str k!"layerselection", .str k!"b"]])).map (·.layerSelection) = .ok (.str k!"b") := rfl

theorem C36_PlotSettings {xs ys : List Val} (hr : Reordered [] xs ys) (o : PlotSettings) :
    PlotSettings.fromSexpr (.list (.str k!"pcbplotparams" :: xs)) = .ok o ↔ PlotSettings.fromSexpr (.list (.str k!"pcbplotparams" :: ys)) = .ok o := by
  rw [PlotSettings.loopEq , PlotSettings.loopEq ]
  exact reordered_iff PlotSettings.indep PlotSettings.reordered (hr.cons _) o
example := C36_PlotSettings (.swap [] [] [.int 1] [.int 2] k!"layerselection" k!"plot_on_all_layers_selection" (by decide) (by decide))

theorem C10_PlotSettings (xs ys : List Val) {u : Val} {r : List Val}
    (hu : ∀ k ∈ [k!"layerselection", k!"plot_on_all_layers_selection", k!"disableapertmacros", k!"usegerberextensions", k!"usegerberattributes", k!"usegerberadvancedattributes", k!"creategerberjobfile", k!"dashed_line_dash_ratio", k!"dashed_line_gap_ratio", k!"svguseinch", k!"svgprecision", k!"excludeedgelayer", k!"plotframeref", k!"viasonmask", k!"mode", k!"useauxorigin", k!"hpglpennumber", k!"hpglpenspeed", k!"hpglpendiameter", k!"dxfpolygonmode", k!"dxfimperialunits", k!"dxfusepcbnewfont", k!"psnegative", k!"psa4output", k!"plotreference", k!"plotvalue", k!"plotinvisibletext", k!"sketchpadsonfab", k!"subtractmaskfromsilk", k!"outputformat", k!"mirror", k!"drillshape", k!"scaleselection", k!"outputdirectory"], u ≠ .str k) :
    PlotSettings.fromSexpr (.list (.str k!"pcbplotparams" :: (xs ++ .list (u :: r) :: ys))) =
    PlotSettings.fromSexpr (.list (.str k!"pcbplotparams" :: (xs ++ ys))) := by
  rw [PlotSettings.loopEq , PlotSettings.loopEq ]
  exact forM_insert (PlotSettings.unknown hu) _ (.str k!"pcbplotparams" :: xs) ys
example := C10_PlotSettings [.list [.str k!"layerselection", .int 1]] [] (u := .str k!"zzz") (r := [.int 1]) (by simp)

theorem C37_SetupData (xs : List Val) (o : SetupData) (h : SetupData.fromSexpr (.list (.str k!"setup" :: xs)) = .ok o) :
    LastWins (tok k!"stackup") (fun i => do return some (← Stackup.fromSexpr i)) xs (none : Option Stackup) o.stackup ∧
    LastWins (tok k!"pad_to_mask_clearance") (·.idx 1) xs (fl k!"0" k!"0" : Val) o.packToMaskClearance ∧
    LastWins (tok k!"solder_mask_min_width") (fun i => do return some (← i.idx 1)) xs (none : Option Val) o.solderMaskMinWidth ∧
    LastWins (tok k!"pad_to_paste_clearance") (fun i => do return some (← i.idx 1)) xs (none : Option Val) o.padToPasteClearance ∧
    LastWins (tok k!"pad_to_paste_clearance_ratio") (fun i => do return some (← i.idx 1)) xs (none : Option Val) o.padToPasteClearanceRatio ∧
    LastWins (tok k!"aux_axis_origin") (fun i => do return some (← Position.fromSexpr i)) xs (none : Option Position) o.auxAxisOrigin ∧
    LastWins (tok k!"grid_origin") (fun i => do return some (← Position.fromSexpr i)) xs (none : Option Position) o.gridOrigin ∧
    LastWins (tok k!"pcbplotparams") (fun i => do return some (← PlotSettings.fromSexpr i)) xs (none : Option PlotSettings) o.plotSettings := by
  rw [SetupData.loopEq ] at h
  exact ⟨((Track.folds (get := (·.stackup)) (fun o x o' hs => (SetupData.trackAll o x o' hs).1) h).drop rfl).last,
    ((Track.folds (get := (·.packToMaskClearance)) (fun o x o' hs => (SetupData.trackAll o x o' hs).2.1) h).drop rfl).last,
    ((Track.folds (get := (·.solderMaskMinWidth)) (fun o x o' hs => (SetupData.trackAll o x o' hs).2.2.1) h).drop rfl).last,
    ((Track.folds (get := (·.padToPasteClearance)) (fun o x o' hs => (SetupData.trackAll o x o' hs).2.2.2.1) h).drop rfl).last,
    ((Track.folds (get := (·.padToPasteClearanceRatio)) (fun o x o' hs => (SetupData.trackAll o x o' hs).2.2.2.2.1) h).drop rfl).last,
    ((Track.folds (get := (·.auxAxisOrigin)) (fun o x o' hs => (SetupData.trackAll o x o' hs).2.2.2.2.2.1) h).drop rfl).last,
    ((Track.folds (get := (·.gridOrigin)) (fun o x o' hs => (SetupData.trackAll o x o' hs).2.2.2.2.2.2.1) h).drop rfl).last,
    ((Track.folds (get := (·.plotSettings)) (fun o x o' hs => (SetupData.trackAll o x o' hs).2.2.2.2.2.2.2) h).drop rfl).last⟩

/-- A repeated token with an unknown one in between. -/
example : (SetupData.fromSexpr (.list [.str k!"setup", .list [.str k!"pad_to_mask_clearance", .str k!"a"], .list [.str k!"zzz", .int 1], .list [.str k!"pad_to_mask_clearance", .str k!"b"]])).map (·.packToMaskClearance) = .ok (.str k!"b") := rfl

theorem C36_SetupData {xs ys : List Val} (hr : Reordered [] xs ys) (o : SetupData) :
    SetupData.fromSexpr (.list (.str k!"setup" :: xs)) = .ok o ↔ SetupData.fromSexpr (.list (.str k!"setup" :: ys)) = .ok o := by
  rw [SetupData.loopEq , SetupData.loopEq ]
  exact reordered_iff SetupData.indep SetupData.reordered (hr.cons _) o
example := C36_SetupData (.swap [] [] [.int 1] [.int 2] k!"stackup" k!"pcbplotparams" (by decide) (by decide))

theorem C10_SetupData (xs ys : List Val) {u : Val} {r : List Val}
    (hu : ∀ k ∈ [k!"stackup", k!"pcbplotparams", k!"pad_to_mask_clearance", k!"solder_mask_min_width", k!"pad_to_paste_clearance", k!"pad_to_paste_clearance_ratio", k!"aux_axis_origin", k!"grid_origin"], u ≠ .str k) :
    SetupData.fromSexpr (.list (.str k!"setup" :: (xs ++ .list (u :: r) :: ys))) =
    SetupData.fromSexpr (.list (.str k!"setup" :: (xs ++ ys))) := by
  rw [SetupData.loopEq , SetupData.loopEq ]
  exact forM_insert (SetupData.unknown hu) _ (.str k!"setup" :: xs) ys
example := C10_SetupData [.list [.str k!"stackup", .int 1]] [] (u := .str k!"zzz") (r := [.int 1]) (by simp)

theorem C37_Segment (xs : List Val) (o : Segment) (h : Segment.fromSexpr (.list (.str k!"segment" :: xs)) = .ok o) :
    LastWins (tok k!"start") Position.fromSexpr xs ({} : Position) o.start ∧
    LastWins (tok k!"end") Position.fromSexpr xs ({} : Position) o.«end» ∧
    LastWins (tok k!"width") (·.idx 1) xs (fl k!"0" k!"1" : Val) o.width ∧
    LastWins (tok k!"layer") (·.idx 1) xs (st k!"F.Cu" : Val) o.layer ∧
    o.locked = xs.any (wordIn [k!"locked"]) ∧
    LastWins (tok k!"net") (·.idx 1) xs (.int 0 : Val) o.net ∧
    LastWins (tok k!"tstamp") (·.idx 1) xs (st k!"" : Val) o.tstamp := by
  rw [Segment.loopEq ] at h
  exact ⟨((Track.folds (get := (·.start)) (fun o x o' hs => (Segment.trackAll o x o' hs).1) h).drop rfl).last,
    ((Track.folds (get := (·.«end»)) (fun o x o' hs => (Segment.trackAll o x o' hs).2.1) h).drop rfl).last,
    ((Track.folds (get := (·.width)) (fun o x o' hs => (Segment.trackAll o x o' hs).2.2.1) h).drop rfl).last,
    ((Track.folds (get := (·.layer)) (fun o x o' hs => (Segment.trackAll o x o' hs).2.2.2.1) h).drop rfl).last,
    ((Track.folds (get := (·.locked)) (fun o x o' hs => (Segment.trackAll o x o' hs).2.2.2.2.1) h).drop rfl).flag,
    ((Track.folds (get := (·.net)) (fun o x o' hs => (Segment.trackAll o x o' hs).2.2.2.2.2.1) h).drop rfl).last,
    ((Track.folds (get := (·.tstamp)) (fun o x o' hs => (Segment.trackAll o x o' hs).2.2.2.2.2.2) h).drop rfl).last⟩

/-- A repeated token with an unknown one in between. -/
example : (Segment.fromSexpr (.list [.str k!"segment", .list [.str k!"width", .str k!"a"], .list [.str k!"zzz", .int 1], .list [.str k!"width", .str k!"b"]])).map (·.width) = .ok (.str k!"b") := rfl

theorem C36_Segment {xs ys : List Val} (hr : Reordered [] xs ys) (o : Segment) :
    Segment.fromSexpr (.list (.str k!"segment" :: xs)) = .ok o ↔ Segment.fromSexpr (.list (.str k!"segment" :: ys)) = .ok o := by
  rw [Segment.loopEq , Segment.loopEq ]
  exact reordered_iff Segment.indep Segment.reordered (hr.cons _) o
example := C36_Segment (.swap [] [] [.int 1] [.int 2] k!"start" k!"end" (by decide) (by decide))

theorem C10_Segment (xs ys : List Val) {u : Val} {r : List Val}
    (hu : ∀ k ∈ [k!"start", k!"end", k!"width", k!"layer", k!"net", k!"tstamp"], u ≠ .str k) :
    Segment.fromSexpr (.list (.str k!"segment" :: (xs ++ .list (u :: r) :: ys))) =
    Segment.fromSexpr (.list (.str k!"segment" :: (xs ++ ys))) := by
  rw [Segment.loopEq , Segment.loopEq ]
  exact forM_insert (Segment.unknown hu) _ (.str k!"segment" :: xs) ys
example := C10_Segment [.list [.str k!"start", .int 1]] [] (u := .str k!"zzz") (r := [.int 1]) (by simp)

theorem C37_Via (xs : List Val) (o : Via) (h : Via.fromSexpr (.list (.str k!"via" :: xs)) = .ok o) :
    LastWins (wordIn [k!"micro", k!"blind"]) (fun i => do return some i) xs (none : Option Val) o.type ∧
    o.locked = xs.any (wordIn [k!"locked"]) ∧
    LastWins (tok k!"at") Position.fromSexpr xs ({} : Position) o.position ∧
    LastWins (tok k!"size") (·.idx 1) xs (fl k!"0" k!"0" : Val) o.size ∧
    LastWins (tok k!"drill") (·.idx 1) xs (fl k!"0" k!"0" : Val) o.drill ∧
    o.removeUnusedLayers = xs.any (tok k!"remove_unused_layers") ∧
    o.keepEndLayers = xs.any (tok k!"keep_end_layers") ∧
    o.free = xs.any (tok k!"free") ∧
    LastWins (tok k!"net") (·.idx 1) xs (.int 0 : Val) o.net ∧
    LastWins (tok k!"tstamp") (fun i => do return some (← i.idx 1)) xs (none : Option Val) o.tstamp := by
  rw [Via.loopEq ] at h
  exact ⟨((Track.folds (get := (·.type)) (fun o x o' hs => (Via.trackAll o x o' hs).1) h).drop rfl).last,
    ((Track.folds (get := (·.locked)) (fun o x o' hs => (Via.trackAll o x o' hs).2.1) h).drop rfl).flag,
    ((Track.folds (get := (·.position)) (fun o x o' hs => (Via.trackAll o x o' hs).2.2.1) h).drop rfl).last,
    ((Track.folds (get := (·.size)) (fun o x o' hs => (Via.trackAll o x o' hs).2.2.2.1) h).drop rfl).last,
    ((Track.folds (get := (·.drill)) (fun o x o' hs => (Via.trackAll o x o' hs).2.2.2.2.1) h).drop rfl).last,
    ((Track.folds (get := (·.removeUnusedLayers)) (fun o x o' hs => (Via.trackAll o x o' hs).2.2.2.2.2.2.1) h).drop rfl).flag,
    ((Track.folds (get := (·.keepEndLayers)) (fun o x o' hs => (Via.trackAll o x o' hs).2.2.2.2.2.2.2.1) h).drop rfl).flag,
    ((Track.folds (get := (·.free)) (fun o x o' hs => (Via.trackAll o x o' hs).2.2.2.2.2.2.2.2.1) h).drop rfl).flag,
    ((Track.folds (get := (·.net)) (fun o x o' hs => (Via.trackAll o x o' hs).2.2.2.2.2.2.2.2.2.1) h).drop rfl).last,
    ((Track.folds (get := (·.tstamp)) (fun o x o' hs => (Via.trackAll o x o' hs).2.2.2.2.2.2.2.2.2.2) h).drop rfl).last⟩
example := C37_Via [.list [.str k!"size", .str k!"a"], .str k!"locked"] _ rfl

theorem C11_Via (xs : List Val) (o : Via) (h : Via.fromSexpr (.list (.str k!"via" :: xs)) = .ok o) :
    CollectedAll (tok k!"layers") (·.slice 1) xs o.layers := by
  rw [Via.loopEq ] at h
  exact ((Track.folds (get := (·.layers)) (fun o x o' hs => (Via.trackAll o x o' hs).2.2.2.2.2.1) h).drop rfl).collectedAll

/-- A repeated token with an unknown one in between. -/
example : (Via.fromSexpr (.list [.str k!"via", .list [.str k!"size", .str k!"a"], .list [.str k!"zzz", .int 1], .list [.str k!"size", .str k!"b"]])).map (·.size) = .ok (.str k!"b") := rfl

theorem C36_Via {xs ys : List Val} (hr : Reordered [] xs ys) (o : Via) :
    Via.fromSexpr (.list (.str k!"via" :: xs)) = .ok o ↔ Via.fromSexpr (.list (.str k!"via" :: ys)) = .ok o := by
  rw [Via.loopEq , Via.loopEq ]
  exact reordered_iff Via.indep Via.reordered (hr.cons _) o
example := C36_Via (.swap [] [] [.int 1] [.int 2] k!"at" k!"size" (by decide) (by decide))

theorem C10_Via (xs ys : List Val) {u : Val} {r : List Val}
    (hu : ∀ k ∈ [k!"at", k!"size", k!"drill", k!"layers", k!"remove_unused_layers", k!"keep_end_layers", k!"free", k!"net", k!"tstamp"], u ≠ .str k) :
    Via.fromSexpr (.list (.str k!"via" :: (xs ++ .list (u :: r) :: ys))) =
    Via.fromSexpr (.list (.str k!"via" :: (xs ++ ys))) := by
  rw [Via.loopEq , Via.loopEq ]
  exact forM_insert (Via.unknown hu) _ (.str k!"via" :: xs) ys
example := C10_Via [.list [.str k!"at", .int 1]] [] (u := .str k!"zzz") (r := [.int 1]) (by simp)

theorem C37_TraceArc (xs : List Val) (o : TraceArc) (h : TraceArc.fromSexpr (.list (.str k!"arc" :: xs)) = .ok o) :
    LastWins (tok k!"start") Position.fromSexpr xs ({} : Position) o.start ∧
    LastWins (tok k!"mid") Position.fromSexpr xs ({} : Position) o.mid ∧
    LastWins (tok k!"end") Position.fromSexpr xs ({} : Position) o.«end» ∧
    LastWins (tok k!"width") (·.idx 1) xs (fl k!"0" k!"2" : Val) o.width ∧
    LastWins (tok k!"layer") (·.idx 1) xs (st k!"F.Cu" : Val) o.layer ∧
    o.locked = xs.any (wordIn [k!"locked"]) ∧
    LastWins (tok k!"net") (·.idx 1) xs (.int 0 : Val) o.net ∧
    LastWins (tok k!"tstamp") (fun i => do return some (← i.idx 1)) xs (none : Option Val) o.tstamp := by
  rw [TraceArc.loopEq ] at h
  exact ⟨((Track.folds (get := (·.start)) (fun o x o' hs => (TraceArc.trackAll o x o' hs).1) h).drop rfl).last,
    ((Track.folds (get := (·.mid)) (fun o x o' hs => (TraceArc.trackAll o x o' hs).2.1) h).drop rfl).last,
    ((Track.folds (get := (·.«end»)) (fun o x o' hs => (TraceArc.trackAll o x o' hs).2.2.1) h).drop rfl).last,
    ((Track.folds (get := (·.width)) (fun o x o' hs => (TraceArc.trackAll o x o' hs).2.2.2.1) h).drop rfl).last,
    ((Track.folds (get := (·.layer)) (fun o x o' hs => (TraceArc.trackAll o x o' hs).2.2.2.2.1) h).drop rfl).last,
    ((Track.folds (get := (·.locked)) (fun o x o' hs => (TraceArc.trackAll o x o' hs).2.2.2.2.2.1) h).drop rfl).flag,
    ((Track.folds (get := (·.net)) (fun o x o' hs => (TraceArc.trackAll o x o' hs).2.2.2.2.2.2.1) h).drop rfl).last,
    ((Track.folds (get := (·.tstamp)) (fun o x o' hs => (TraceArc.trackAll o x o' hs).2.2.2.2.2.2.2) h).drop rfl).last⟩

/-- A repeated token with an unknown one in between. -/
example : (TraceArc.fromSexpr (.list [.str k!"arc", .list [.str k!"width", .str k!"a"], .list [.str k!"zzz", .int 1], .list [.str k!"width", .str k!"b"]])).map (·.width) = .ok (.str k!"b") := rfl

theorem C36_TraceArc {xs ys : List Val} (hr : Reordered [] xs ys) (o : TraceArc) :
    TraceArc.fromSexpr (.list (.str k!"arc" :: xs)) = .ok o ↔ TraceArc.fromSexpr (.list (.str k!"arc" :: ys)) = .ok o := by
  rw [TraceArc.loopEq , TraceArc.loopEq ]
  exact reordered_iff TraceArc.indep TraceArc.reordered (hr.cons _) o
example := C36_TraceArc (.swap [] [] [.int 1] [.int 2] k!"start" k!"mid" (by decide) (by decide))

theorem C10_TraceArc (xs ys : List Val) {u : Val} {r : List Val}
    (hu : ∀ k ∈ [k!"start", k!"mid", k!"end", k!"width", k!"layer", k!"net", k!"tstamp"], u ≠ .str k) :
    TraceArc.fromSexpr (.list (.str k!"arc" :: (xs ++ .list (u :: r) :: ys))) =
    TraceArc.fromSexpr (.list (.str k!"arc" :: (xs ++ ys))) := by
  rw [TraceArc.loopEq , TraceArc.loopEq ]
  exact forM_insert (TraceArc.unknown hu) _ (.str k!"arc" :: xs) ys
example := C10_TraceArc [.list [.str k!"start", .int 1]] [] (u := .str k!"zzz") (r := [.int 1]) (by simp)

theorem C37_Target (a1 : Val) (xs : List Val) (o : Target) (h : Target.fromSexpr (.list (.str k!"target" :: a1 :: xs)) = .ok o) :
    o.type = a1 ∧
    LastWins (tok k!"at") Position.fromSexpr xs ({} : Position) o.position ∧
    LastWins (tok k!"size") (·.idx 1) xs (.int 0 : Val) o.size ∧
    LastWins (tok k!"width") (·.idx 1) xs (fl k!"0" k!"1" : Val) o.width ∧
    LastWins (tok k!"layer") (·.idx 1) xs (st k!"F.Cu" : Val) o.layer ∧
    LastWins (tok k!"tstamp") (fun i => do return some (← i.idx 1)) xs (none : Option Val) o.tstamp := by
  rw [Target.loopEq a1] at h
  exact ⟨((Track.folds (get := (·.type)) (fun o x o' hs => (Target.trackAll o x o' hs).1) h)).const,
    ((Track.folds (get := (·.position)) (fun o x o' hs => (Target.trackAll o x o' hs).2.1) h)).last,
    ((Track.folds (get := (·.size)) (fun o x o' hs => (Target.trackAll o x o' hs).2.2.1) h)).last,
    ((Track.folds (get := (·.width)) (fun o x o' hs => (Target.trackAll o x o' hs).2.2.2.1) h)).last,
    ((Track.folds (get := (·.layer)) (fun o x o' hs => (Target.trackAll o x o' hs).2.2.2.2.1) h)).last,
    ((Track.folds (get := (·.tstamp)) (fun o x o' hs => (Target.trackAll o x o' hs).2.2.2.2.2) h)).last⟩

/-- A repeated token with an unknown one in between. -/
example : (Target.fromSexpr (.list [.str k!"target", .str k!"x", .list [.str k!"size", .str k!"a"], .list [.str k!"zzz", .int 1], .list [.str k!"size", .str k!"b"]])).map (·.size) = .ok (.str k!"b") := rfl

theorem C36_Target (a1 : Val) {xs ys : List Val} (hr : Reordered [] xs ys) (o : Target) :
    Target.fromSexpr (.list (.str k!"target" :: a1 :: xs)) = .ok o ↔ Target.fromSexpr (.list (.str k!"target" :: a1 :: ys)) = .ok o := by
  rw [Target.loopEq a1, Target.loopEq a1]
  exact reordered_iff Target.indep Target.reordered hr o
example := C36_Target (.str k!"x") (.swap [] [] [.int 1] [.int 2] k!"at" k!"size" (by decide) (by decide))

theorem C10_Target (a1 : Val) (xs ys : List Val) {u : Val} {r : List Val}
    (hu : ∀ k ∈ [k!"at", k!"size", k!"width", k!"layer", k!"tstamp"], u ≠ .str k) :
    Target.fromSexpr (.list (.str k!"target" :: a1 :: (xs ++ .list (u :: r) :: ys))) =
    Target.fromSexpr (.list (.str k!"target" :: a1 :: (xs ++ ys))) := by
  rw [Target.loopEq a1, Target.loopEq a1]
  exact forM_insert (Target.unknown hu) _ xs ys
example := C10_Target (.str k!"x") [.list [.str k!"at", .int 1]] [] (u := .str k!"zzz") (r := [.int 1]) (by simp)

end Kiutils
