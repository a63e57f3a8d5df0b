import Verif.Tokens
import Verif.Model.BrdItems
/-!
# Loop bodies of `from_sexpr` item by item: BrdItems
-/
namespace Kiutils

theorem GeneralSettings.trackAll (o : GeneralSettings) (x : Val) : Post (GeneralSettings.step o x) fun o' =>
    Track (tok k!"thickness") (fun _ => (·.idx 1)) x o.thickness o'.thickness := by
  unfold GeneralSettings.step
  trackItems

theorem GeneralSettings.indep (o o' : GeneralSettings) (x : Val) : Same (GeneralSettings.step o x) (GeneralSettings.step o' x) := by
  unfold GeneralSettings.step
  same

theorem GeneralSettings.unknown {h : Val} {r : List Val} (hu : ∀ k ∈ [k!"thickness"], h ≠ .str k) (o : GeneralSettings) :
    GeneralSettings.step o (.list (h :: r)) = .ok o := by
  unfold GeneralSettings.step
  unknownHead hu

theorem GeneralSettings.reordered {o a b : GeneralSettings} {xs ys : List Val} (hr : Reordered [] xs ys) (ha : forM GeneralSettings.step o xs = .ok a)
    (hb : forM GeneralSettings.step o ys = .ok b) : a = b := by
  have f0 : a.thickness = b.thickness := (Track.folds (get := (·.thickness)) (fun o x o' hs => (GeneralSettings.trackAll o x o' hs)) ha).unique
    (Track.folds (get := (·.thickness)) (fun o x o' hs => (GeneralSettings.trackAll o x o' hs)) hb) (hr.tokens _)
  show GeneralSettings.mk a.thickness =
    GeneralSettings.mk b.thickness
  rw [f0]

theorem GeneralSettings.loopEq (xs : List Val) :
    GeneralSettings.fromSexpr (.list (.str k!"general" :: xs)) = forM GeneralSettings.step {} (.str k!"general" :: xs) :=
  rfl

theorem Stackup.trackAll (o : Stackup) (x : Val) : Post (Stackup.step o x) fun o' =>
    Track (tok k!"layer") (fun l i => do return l ++ [← StackupLayer.fromSexpr i]) x o.layers o'.layers ∧
    Track (tok k!"copper_finish") (fun _ => fun i => do return some (← i.idx 1)) x o.copperFinish o'.copperFinish ∧
    Track (tok k!"dielectric_constraints") (fun _ => fun i => do return some (← i.idx 1)) x o.dielectricContraints o'.dielectricContraints ∧
    Track (tok k!"edge_connector") (fun _ => fun i => do return some (← i.idx 1)) x o.edgeConnector o'.edgeConnector ∧
    Track (tok k!"castellated_pads") (fun _ _ => .ok true) x o.castellatedPads o'.castellatedPads ∧
    Track (tok k!"edge_plating") (fun _ _ => .ok true) x o.edgePlating o'.edgePlating := by
  unfold Stackup.step
  trackItems

theorem Stackup.indep (o o' : Stackup) (x : Val) : Same (Stackup.step o x) (Stackup.step o' x) := by
  unfold Stackup.step
  same

theorem Stackup.unknown {h : Val} {r : List Val} (hu : ∀ k ∈ [k!"layer", k!"copper_finish", k!"dielectric_constraints", k!"edge_connector", k!"castellated_pads", k!"edge_plating"], h ≠ .str k) (o : Stackup) :
    Stackup.step o (.list (h :: r)) = .ok o := by
  unfold Stackup.step
  unknownHead hu

theorem Stackup.reordered {o a b : Stackup} {xs ys : List Val} (hr : Reordered [] xs ys) (ha : forM Stackup.step o xs = .ok a)
    (hb : forM Stackup.step o ys = .ok b) : a = b := by
  have f0 : a.layers = b.layers := (Track.folds (get := (·.layers)) (fun o x o' hs => (Stackup.trackAll o x o' hs).1) ha).unique
    (Track.folds (get := (·.layers)) (fun o x o' hs => (Stackup.trackAll o x o' hs).1) hb) (hr.tokens _)
  have f1 : a.copperFinish = b.copperFinish := (Track.folds (get := (·.copperFinish)) (fun o x o' hs => (Stackup.trackAll o x o' hs).2.1) ha).unique
    (Track.folds (get := (·.copperFinish)) (fun o x o' hs => (Stackup.trackAll o x o' hs).2.1) hb) (hr.tokens _)
  have f2 : a.dielectricContraints = b.dielectricContraints := (Track.folds (get := (·.dielectricContraints)) (fun o x o' hs => (Stackup.trackAll o x o' hs).2.2.1) ha).unique
    (Track.folds (get := (·.dielectricContraints)) (fun o x o' hs => (Stackup.trackAll o x o' hs).2.2.1) hb) (hr.tokens _)
  have f3 : a.edgeConnector = b.edgeConnector := (Track.folds (get := (·.edgeConnector)) (fun o x o' hs => (Stackup.trackAll o x o' hs).2.2.2.1) ha).unique
    (Track.folds (get := (·.edgeConnector)) (fun o x o' hs => (Stackup.trackAll o x o' hs).2.2.2.1) hb) (hr.tokens _)
  have f4 : a.castellatedPads = b.castellatedPads := (Track.folds (get := (·.castellatedPads)) (fun o x o' hs => (Stackup.trackAll o x o' hs).2.2.2.2.1) ha).unique
    (Track.folds (get := (·.castellatedPads)) (fun o x o' hs => (Stackup.trackAll o x o' hs).2.2.2.2.1) hb) (hr.tokens _)
  have f5 : a.edgePlating = b.edgePlating := (Track.folds (get := (·.edgePlating)) (fun o x o' hs => (Stackup.trackAll o x o' hs).2.2.2.2.2) ha).unique
    (Track.folds (get := (·.edgePlating)) (fun o x o' hs => (Stackup.trackAll o x o' hs).2.2.2.2.2) hb) (hr.tokens _)
  show Stackup.mk a.layers a.copperFinish a.dielectricContraints a.edgeConnector a.castellatedPads a.edgePlating =
    Stackup.mk b.layers b.copperFinish b.dielectricContraints b.edgeConnector b.castellatedPads b.edgePlating
  rw [f0, f1, f2, f3, f4, f5]

theorem Stackup.loopEq (xs : List Val) :
    Stackup.fromSexpr (.list (.str k!"stackup" :: xs)) = forM Stackup.step {} (.str k!"stackup" :: xs) :=
  rfl

set_option maxHeartbeats 1000000 in
theorem PlotSettings.trackAll (o : PlotSettings) (x : Val) : Post (PlotSettings.step o x) fun o' =>
    Track (tok k!"layerselection") (fun _ => (·.idx 1)) x o.layerSelection o'.layerSelection ∧
    Track (tok k!"plot_on_all_layers_selection") (fun _ => fun i => do return some (← i.idx 1)) x o.plotOnAllLayersSelection o'.plotOnAllLayersSelection ∧
    Track (tok k!"disableapertmacros") (fun _ => fun i => do return (← i.idx 1).is k!"true") x o.disableApertMacros o'.disableApertMacros ∧
    Track (tok k!"usegerberextensions") (fun _ => fun i => do return (← i.idx 1).is k!"true") x o.useGerberExtensions o'.useGerberExtensions ∧
    Track (tok k!"usegerberattributes") (fun _ => fun i => do return (← i.idx 1).is k!"true") x o.useGerberAttributes o'.useGerberAttributes ∧
    Track (tok k!"usegerberadvancedattributes") (fun _ => fun i => do return (← i.idx 1).is k!"true") x o.useGerberAdvancedAttributes o'.useGerberAdvancedAttributes ∧
    Track (tok k!"creategerberjobfile") (fun _ => fun i => do return (← i.idx 1).is k!"true") x o.createGerberJobFile o'.createGerberJobFile ∧
    Track (tok k!"dashed_line_dash_ratio") (fun _ => fun i => do return some (← i.idx 1)) x o.dashedLineDashRatio o'.dashedLineDashRatio ∧
    Track (tok k!"dashed_line_gap_ratio") (fun _ => fun i => do return some (← i.idx 1)) x o.dashedLineGapRatio o'.dashedLineGapRatio ∧
    Track (tok k!"svguseinch") (fun _ => fun i => do return some ((← i.idx 1).is k!"true")) x o.svgUseInch o'.svgUseInch ∧
    Track (tok k!"svgprecision") (fun _ => (·.idx 1)) x o.svgPrecision o'.svgPrecision ∧
    Track (tok k!"excludeedgelayer") (fun _ => fun i => do return some ((← i.idx 1).is k!"true")) x o.excludeEdgeLayer o'.excludeEdgeLayer ∧
    Track (tok k!"plotframeref") (fun _ => fun i => do return (← i.idx 1).is k!"true") x o.plotFameRef o'.plotFameRef ∧
    Track (tok k!"viasonmask") (fun _ => fun i => do return (← i.idx 1).is k!"true") x o.viasOnMask o'.viasOnMask ∧
    Track (tok k!"mode") (fun _ => (·.idx 1)) x o.mode o'.mode ∧
    Track (tok k!"useauxorigin") (fun _ => fun i => do return (← i.idx 1).is k!"true") x o.useAuxOrigin o'.useAuxOrigin ∧
    Track (tok k!"hpglpennumber") (fun _ => (·.idx 1)) x o.hpglPenNumber o'.hpglPenNumber ∧
    Track (tok k!"hpglpenspeed") (fun _ => (·.idx 1)) x o.hpglPenSpeed o'.hpglPenSpeed ∧
    Track (tok k!"hpglpendiameter") (fun _ => (·.idx 1)) x o.hpglPenDiameter o'.hpglPenDiameter ∧
    Track (tok k!"dxfpolygonmode") (fun _ => fun i => do return (← i.idx 1).is k!"true") x o.dxfPolygonMode o'.dxfPolygonMode ∧
    Track (tok k!"dxfimperialunits") (fun _ => fun i => do return (← i.idx 1).is k!"true") x o.dxfImperialUnits o'.dxfImperialUnits ∧
    Track (tok k!"dxfusepcbnewfont") (fun _ => fun i => do return (← i.idx 1).is k!"true") x o.dxfUsePcbnewFont o'.dxfUsePcbnewFont ∧
    Track (tok k!"psnegative") (fun _ => fun i => do return (← i.idx 1).is k!"true") x o.psNegative o'.psNegative ∧
    Track (tok k!"psa4output") (fun _ => fun i => do return (← i.idx 1).is k!"true") x o.psA4Output o'.psA4Output ∧
    Track (tok k!"plotreference") (fun _ => fun i => do return (← i.idx 1).is k!"true") x o.plotReference o'.plotReference ∧
    Track (tok k!"plotvalue") (fun _ => fun i => do return (← i.idx 1).is k!"true") x o.plotValue o'.plotValue ∧
    Track (tok k!"plotinvisibletext") (fun _ => fun i => do return (← i.idx 1).is k!"true") x o.plotInvisibleText o'.plotInvisibleText ∧
    Track (tok k!"sketchpadsonfab") (fun _ => fun i => do return (← i.idx 1).is k!"true") x o.sketchPadsOnFab o'.sketchPadsOnFab ∧
    Track (tok k!"subtractmaskfromsilk") (fun _ => fun i => do return (← i.idx 1).is k!"true") x o.subtractMaskFromSilk o'.subtractMaskFromSilk ∧
    Track (tok k!"outputformat") (fun _ => (·.idx 1)) x o.outputFormat o'.outputFormat ∧
    Track (tok k!"mirror") (fun _ => fun i => do return (← i.idx 1).is k!"true") x o.mirror o'.mirror ∧
    Track (tok k!"drillshape") (fun _ => (·.idx 1)) x o.drillShape o'.drillShape ∧
    Track (tok k!"scaleselection") (fun _ => (·.idx 1)) x o.scaleSelection o'.scaleSelection ∧
    Track (tok k!"outputdirectory") (fun _ => (·.idx 1)) x o.outputDirectory o'.outputDirectory := by
  unfold PlotSettings.step
  trackItems

theorem PlotSettings.indep (o o' : PlotSettings) (x : Val) : Same (PlotSettings.step o x) (PlotSettings.step o' x) := by
  unfold PlotSettings.step
  same

theorem PlotSettings.unknown {h : Val} {r : List Val} (hu : ∀ k ∈ [k!"layerselection", k!"plot_on_all_layers_selection", k!"disableapertmacros", k!"usegerberextensions", k!"usegerberattributes", k!"usegerberadvancedattributes", k!"creategerberjobfile", k!"dashed_line_dash_ratio", k!"dashed_line_gap_ratio", k!"svguseinch", k!"svgprecision", k!"excludeedgelayer", k!"plotframeref", k!"viasonmask", k!"mode", k!"useauxorigin", k!"hpglpennumber", k!"hpglpenspeed", k!"hpglpendiameter", k!"dxfpolygonmode", k!"dxfimperialunits", k!"dxfusepcbnewfont", k!"psnegative", k!"psa4output", k!"plotreference", k!"plotvalue", k!"plotinvisibletext", k!"sketchpadsonfab", k!"subtractmaskfromsilk", k!"outputformat", k!"mirror", k!"drillshape", k!"scaleselection", k!"outputdirectory"], h ≠ .str k) (o : PlotSettings) :
    PlotSettings.step o (.list (h :: r)) = .ok o := by
  unfold PlotSettings.step
  unknownHead hu

theorem PlotSettings.reordered {o a b : PlotSettings} {xs ys : List Val} (hr : Reordered [] xs ys) (ha : forM PlotSettings.step o xs = .ok a)
    (hb : forM PlotSettings.step o ys = .ok b) : a = b := by
  have f0 : a.layerSelection = b.layerSelection := (Track.folds (get := (·.layerSelection)) (fun o x o' hs => (PlotSettings.trackAll o x o' hs).1) ha).unique
    (Track.folds (get := (·.layerSelection)) (fun o x o' hs => (PlotSettings.trackAll o x o' hs).1) hb) (hr.tokens _)
  have f1 : a.plotOnAllLayersSelection = b.plotOnAllLayersSelection := (Track.folds (get := (·.plotOnAllLayersSelection)) (fun o x o' hs => (PlotSettings.trackAll o x o' hs).2.1) ha).unique
    (Track.folds (get := (·.plotOnAllLayersSelection)) (fun o x o' hs => (PlotSettings.trackAll o x o' hs).2.1) hb) (hr.tokens _)
  have f2 : a.disableApertMacros = b.disableApertMacros := (Track.folds (get := (·.disableApertMacros)) (fun o x o' hs => (PlotSettings.trackAll o x o' hs).2.2.1) ha).unique
    (Track.folds (get := (·.disableApertMacros)) (fun o x o' hs => (PlotSettings.trackAll o x o' hs).2.2.1) hb) (hr.tokens _)
  have f3 : a.useGerberExtensions = b.useGerberExtensions := (Track.folds (get := (·.useGerberExtensions)) (fun o x o' hs => (PlotSettings.trackAll o x o' hs).2.2.2.1) ha).unique
    (Track.folds (get := (·.useGerberExtensions)) (fun o x o' hs => (PlotSettings.trackAll o x o' hs).2.2.2.1) hb) (hr.tokens _)
  have f4 : a.useGerberAttributes = b.useGerberAttributes := (Track.folds (get := (·.useGerberAttributes)) (fun o x o' hs => (PlotSettings.trackAll o x o' hs).2.2.2.2.1) ha).unique
    (Track.folds (get := (·.useGerberAttributes)) (fun o x o' hs => (PlotSettings.trackAll o x o' hs).2.2.2.2.1) hb) (hr.tokens _)
  have f5 : a.useGerberAdvancedAttributes = b.useGerberAdvancedAttributes := (Track.folds (get := (·.useGerberAdvancedAttributes)) (fun o x o' hs => (PlotSettings.trackAll o x o' hs).2.2.2.2.2.1) ha).unique
    (Track.folds (get := (·.useGerberAdvancedAttributes)) (fun o x o' hs => (PlotSettings.trackAll o x o' hs).2.2.2.2.2.1) hb) (hr.tokens _)
  have f6 : a.createGerberJobFile = b.createGerberJobFile := (Track.folds (get := (·.createGerberJobFile)) (fun o x o' hs => (PlotSettings.trackAll o x o' hs).2.2.2.2.2.2.1) ha).unique
    (Track.folds (get := (·.createGerberJobFile)) (fun o x o' hs => (PlotSettings.trackAll o x o' hs).2.2.2.2.2.2.1) hb) (hr.tokens _)
  have f7 : a.dashedLineDashRatio = b.dashedLineDashRatio := (Track.folds (get := (·.dashedLineDashRatio)) (fun o x o' hs => (PlotSettings.trackAll o x o' hs).2.2.2.2.2.2.2.1) ha).unique
    (Track.folds (get := (·.dashedLineDashRatio)) (fun o x o' hs => (PlotSettings.trackAll o x o' hs).2.2.2.2.2.2.2.1) hb) (hr.tokens _)
  have f8 : a.dashedLineGapRatio = b.dashedLineGapRatio := (Track.folds (get := (·.dashedLineGapRatio)) (fun o x o' hs => (PlotSettings.trackAll o x o' hs).2.2.2.2.2.2.2.2.1) ha).unique
    (Track.folds (get := (·.dashedLineGapRatio)) (fun o x o' hs => (PlotSettings.trackAll o x o' hs).2.2.2.2.2.2.2.2.1) hb) (hr.tokens _)
  have f9 : a.svgUseInch = b.svgUseInch := (Track.folds (get := (·.svgUseInch)) (fun o x o' hs => (PlotSettings.trackAll o x o' hs).2.2.2.2.2.2.2.2.2.1) ha).unique
    (Track.folds (get := (·.svgUseInch)) (fun o x o' hs => (PlotSettings.trackAll o x o' hs).2.2.2.2.2.2.2.2.2.1) hb) (hr.tokens _)
  have f10 : a.svgPrecision = b.svgPrecision := (Track.folds (get := (·.svgPrecision)) (fun o x o' hs => (PlotSettings.trackAll o x o' hs).2.2.2.2.2.2.2.2.2.2.1) ha).unique
    (Track.folds (get := (·.svgPrecision)) (fun o x o' hs => (PlotSettings.trackAll o x o' hs).2.2.2.2.2.2.2.2.2.2.1) hb) (hr.tokens _)
  have f11 : a.excludeEdgeLayer = b.excludeEdgeLayer := (Track.folds (get := (·.excludeEdgeLayer)) (fun o x o' hs => (PlotSettings.trackAll o x o' hs).2.2.2.2.2.2.2.2.2.2.2.1) ha).unique
    (Track.folds (get := (·.excludeEdgeLayer)) (fun o x o' hs => (PlotSettings.trackAll o x o' hs).2.2.2.2.2.2.2.2.2.2.2.1) hb) (hr.tokens _)
  have f12 : a.plotFameRef = b.plotFameRef := (Track.folds (get := (·.plotFameRef)) (fun o x o' hs => (PlotSettings.trackAll o x o' hs).2.2.2.2.2.2.2.2.2.2.2.2.1) ha).unique
    (Track.folds (get := (·.plotFameRef)) (fun o x o' hs => (PlotSettings.trackAll o x o' hs).2.2.2.2.2.2.2.2.2.2.2.2.1) hb) (hr.tokens _)
  have f13 : a.viasOnMask = b.viasOnMask := (Track.folds (get := (·.viasOnMask)) (fun o x o' hs => (PlotSettings.trackAll o x o' hs).2.2.2.2.2.2.2.2.2.2.2.2.2.1) ha).unique
    (Track.folds (get := (·.viasOnMask)) (fun o x o' hs => (PlotSettings.trackAll o x o' hs).2.2.2.2.2.2.2.2.2.2.2.2.2.1) hb) (hr.tokens _)
  have f14 : a.mode = b.mode := (Track.folds (get := (·.mode)) (fun o x o' hs => (PlotSettings.trackAll o x o' hs).2.2.2.2.2.2.2.2.2.2.2.2.2.2.1) ha).unique
    (Track.folds (get := (·.mode)) (fun o x o' hs => (PlotSettings.trackAll o x o' hs).2.2.2.2.2.2.2.2.2.2.2.2.2.2.1) hb) (hr.tokens _)
  have f15 : a.useAuxOrigin = b.useAuxOrigin := (Track.folds (get := (·.useAuxOrigin)) (fun o x o' hs => (PlotSettings.trackAll o x o' hs).2.2.2.2.2.2.2.2.2.2.2.2.2.2.2.1) ha).unique
    (Track.folds (get := (·.useAuxOrigin)) (fun o x o' hs => (PlotSettings.trackAll o x o' hs).2.2.2.2.2.2.2.2.2.2.2.2.2.2.2.1) hb) (hr.tokens _)
  have f16 : a.hpglPenNumber = b.hpglPenNumber := (Track.folds (get := (·.hpglPenNumber)) (fun o x o' hs => (PlotSettings.trackAll o x o' hs).2.2.2.2.2.2.2.2.2.2.2.2.2.2.2.2.1) ha).unique
    (Track.folds (get := (·.hpglPenNumber)) (fun o x o' hs => (PlotSettings.trackAll o x o' hs).2.2.2.2.2.2.2.2.2.2.2.2.2.2.2.2.1) hb) (hr.tokens _)
  have f17 : a.hpglPenSpeed = b.hpglPenSpeed := (Track.folds (get := (·.hpglPenSpeed)) (fun o x o' hs => (PlotSettings.trackAll o x o' hs).2.2.2.2.2.2.2.2.2.2.2.2.2.2.2.2.2.1) ha).unique
    (Track.folds (get := (·.hpglPenSpeed)) (fun o x o' hs => (PlotSettings.trackAll o x o' hs).2.2.2.2.2.2.2.2.2.2.2.2.2.2.2.2.2.1) hb) (hr.tokens _)
  have f18 : a.hpglPenDiameter = b.hpglPenDiameter := (Track.folds (get := (·.hpglPenDiameter)) (fun o x o' hs => (PlotSettings.trackAll o x o' hs).2.2.2.2.2.2.2.2.2.2.2.2.2.2.2.2.2.2.1) ha).unique
    (Track.folds (get := (·.hpglPenDiameter)) (fun o x o' hs => (PlotSettings.trackAll o x o' hs).2.2.2.2.2.2.2.2.2.2.2.2.2.2.2.2.2.2.1) hb) (hr.tokens _)
  have f19 : a.dxfPolygonMode = b.dxfPolygonMode := (Track.folds (get := (·.dxfPolygonMode)) (fun o x o' hs => (PlotSettings.trackAll o x o' hs).2.2.2.2.2.2.2.2.2.2.2.2.2.2.2.2.2.2.2.1) ha).unique
    (Track.folds (get := (·.dxfPolygonMode)) (fun o x o' hs => (PlotSettings.trackAll o x o' hs).2.2.2.2.2.2.2.2.2.2.2.2.2.2.2.2.2.2.2.1) hb) (hr.tokens _)
  have f20 : a.dxfImperialUnits = b.dxfImperialUnits := (Track.folds (get := (·.dxfImperialUnits)) (fun o x o' hs => (PlotSettings.trackAll o x o' hs).2.2.2.2.2.2.2.2.2.2.2.2.2.2.2.2.2.2.2.2.1) ha).unique
    (Track.folds (get := (·.dxfImperialUnits)) (fun o x o' hs => (PlotSettings.trackAll o x o' hs).2.2.2.2.2.2.2.2.2.2.2.2.2.2.2.2.2.2.2.2.1) hb) (hr.tokens _)
  have f21 : a.dxfUsePcbnewFont = b.dxfUsePcbnewFont := (Track.folds (get := (·.dxfUsePcbnewFont)) (fun o x o' hs => (PlotSettings.trackAll o x o' hs).2.2.2.2.2.2.2.2.2.2.2.2.2.2.2.2.2.2.2.2.2.1) ha).unique
    (Track.folds (get := (·.dxfUsePcbnewFont)) (fun o x o' hs => (PlotSettings.trackAll o x o' hs).2.2.2.2.2.2.2.2.2.2.2.2.2.2.2.2.2.2.2.2.2.1) hb) (hr.tokens _)
  have f22 : a.psNegative = b.psNegative := (Track.folds (get := (·.psNegative)) (fun o x o' hs => (PlotSettings.trackAll o x o' hs).2.2.2.2.2.2.2.2.2.2.2.2.2.2.2.2.2.2.2.2.2.2.1) ha).unique
    (Track.folds (get := (·.psNegative)) (fun o x o' hs => (PlotSettings.trackAll o x o' hs).2.2.2.2.2.2.2.2.2.2.2.2.2.2.2.2.2.2.2.2.2.2.1) hb) (hr.tokens _)
  have f23 : a.psA4Output = b.psA4Output := (Track.folds (get := (·.psA4Output)) (fun o x o' hs => (PlotSettings.trackAll o x o' hs).2.2.2.2.2.2.2.2.2.2.2.2.2.2.2.2.2.2.2.2.2.2.2.1) ha).unique
    (Track.folds (get := (·.psA4Output)) (fun o x o' hs => (PlotSettings.trackAll o x o' hs).2.2.2.2.2.2.2.2.2.2.2.2.2.2.2.2.2.2.2.2.2.2.2.1) hb) (hr.tokens _)
  have f24 : a.plotReference = b.plotReference := (Track.folds (get := (·.plotReference)) (fun o x o' hs => (PlotSettings.trackAll o x o' hs).2.2.2.2.2.2.2.2.2.2.2.2.2.2.2.2.2.2.2.2.2.2.2.2.1) ha).unique
    (Track.folds (get := (·.plotReference)) (fun o x o' hs => (PlotSettings.trackAll o x o' hs).2.2.2.2.2.2.2.2.2.2.2.2.2.2.2.2.2.2.2.2.2.2.2.2.1) hb) (hr.tokens _)
  have f25 : a.plotValue = b.plotValue := (Track.folds (get := (·.plotValue)) (fun o x o' hs => (PlotSettings.trackAll o x o' hs).2.2.2.2.2.2.2.2.2.2.2.2.2.2.2.2.2.2.2.2.2.2.2.2.2.1) ha).unique
    (Track.folds (get := (·.plotValue)) (fun o x o' hs => (PlotSettings.trackAll o x o' hs).2.2.2.2.2.2.2.2.2.2.2.2.2.2.2.2.2.2.2.2.2.2.2.2.2.1) hb) (hr.tokens _)
  have f26 : a.plotInvisibleText = b.plotInvisibleText := (Track.folds (get := (·.plotInvisibleText)) (fun o x o' hs => (PlotSettings.trackAll o x o' hs).2.2.2.2.2.2.2.2.2.2.2.2.2.2.2.2.2.2.2.2.2.2.2.2.2.2.1) ha).unique
    (Track.folds (get := (·.plotInvisibleText)) (fun o x o' hs => (PlotSettings.trackAll o x o' hs).2.2.2.2.2.2.2.2.2.2.2.2.2.2.2.2.2.2.2.2.2.2.2.2.2.2.1) hb) (hr.tokens _)
  have f27 : a.sketchPadsOnFab = b.sketchPadsOnFab := (Track.folds (get := (·.sketchPadsOnFab)) (fun o x o' hs => (PlotSettings.trackAll o x o' hs).2.2.2.2.2.2.2.2.2.2.2.2.2.2.2.2.2.2.2.2.2.2.2.2.2.2.2.1) ha).unique
    (Track.folds (get := (·.sketchPadsOnFab)) (fun o x o' hs => (PlotSettings.trackAll o x o' hs).2.2.2.2.2.2.2.2.2.2.2.2.2.2.2.2.2.2.2.2.2.2.2.2.2.2.2.1) hb) (hr.tokens _)
  have f28 : a.subtractMaskFromSilk = b.subtractMaskFromSilk := (Track.folds (get := (·.subtractMaskFromSilk)) (fun o x o' hs => (PlotSettings.trackAll o x o' hs).2.2.2.2.2.2.2.2.2.2.2.2.2.2.2.2.2.2.2.2.2.2.2.2.2.2.2.2.1) ha).unique
    (Track.folds (get := (·.subtractMaskFromSilk)) (fun o x o' hs => (PlotSettings.trackAll o x o' hs).2.2.2.2.2.2.2.2.2.2.2.2.2.2.2.2.2.2.2.2.2.2.2.2.2.2.2.2.1) hb) (hr.tokens _)
  have f29 : a.outputFormat = b.outputFormat := (Track.folds (get := (·.outputFormat)) (fun o x o' hs => (PlotSettings.trackAll o x o' hs).2.2.2.2.2.2.2.2.2.2.2.2.2.2.2.2.2.2.2.2.2.2.2.2.2.2.2.2.2.1) ha).unique
    (Track.folds (get := (·.outputFormat)) (fun o x o' hs => (PlotSettings.trackAll o x o' hs).2.2.2.2.2.2.2.2.2.2.2.2.2.2.2.2.2.2.2.2.2.2.2.2.2.2.2.2.2.1) hb) (hr.tokens _)
  have f30 : a.mirror = b.mirror := (Track.folds (get := (·.mirror)) (fun o x o' hs => (PlotSettings.trackAll o x o' hs).2.2.2.2.2.2.2.2.2.2.2.2.2.2.2.2.2.2.2.2.2.2.2.2.2.2.2.2.2.2.1) ha).unique
    (Track.folds (get := (·.mirror)) (fun o x o' hs => (PlotSettings.trackAll o x o' hs).2.2.2.2.2.2.2.2.2.2.2.2.2.2.2.2.2.2.2.2.2.2.2.2.2.2.2.2.2.2.1) hb) (hr.tokens _)
  have f31 : a.drillShape = b.drillShape := (Track.folds (get := (·.drillShape)) (fun o x o' hs => (PlotSettings.trackAll o x o' hs).2.2.2.2.2.2.2.2.2.2.2.2.2.2.2.2.2.2.2.2.2.2.2.2.2.2.2.2.2.2.2.1) ha).unique
    (Track.folds (get := (·.drillShape)) (fun o x o' hs => (PlotSettings.trackAll o x o' hs).2.2.2.2.2.2.2.2.2.2.2.2.2.2.2.2.2.2.2.2.2.2.2.2.2.2.2.2.2.2.2.1) hb) (hr.tokens _)
  have f32 : a.scaleSelection = b.scaleSelection := (Track.folds (get := (·.scaleSelection)) (fun o x o' hs => (PlotSettings.trackAll o x o' hs).2.2.2.2.2.2.2.2.2.2.2.2.2.2.2.2.2.2.2.2.2.2.2.2.2.2.2.2.2.2.2.2.1) ha).unique
    (Track.folds (get := (·.scaleSelection)) (fun o x o' hs => (PlotSettings.trackAll o x o' hs).2.2.2.2.2.2.2.2.2.2.2.2.2.2.2.2.2.2.2.2.2.2.2.2.2.2.2.2.2.2.2.2.1) hb) (hr.tokens _)
  have f33 : a.outputDirectory = b.outputDirectory := (Track.folds (get := (·.outputDirectory)) (fun o x o' hs => (PlotSettings.trackAll o x o' hs).2.2.2.2.2.2.2.2.2.2.2.2.2.2.2.2.2.2.2.2.2.2.2.2.2.2.2.2.2.2.2.2.2) ha).unique
    (Track.folds (get := (·.outputDirectory)) (fun o x o' hs => (PlotSettings.trackAll o x o' hs).2.2.2.2.2.2.2.2.2.2.2.2.2.2.2.2.2.2.2.2.2.2.2.2.2.2.2.2.2.2.2.2.2) hb) (hr.tokens _)
  show PlotSettings.mk a.layerSelection a.plotOnAllLayersSelection a.disableApertMacros a.useGerberExtensions a.useGerberAttributes a.useGerberAdvancedAttributes a.createGerberJobFile a.dashedLineDashRatio a.dashedLineGapRatio a.svgUseInch a.svgPrecision a.excludeEdgeLayer a.plotFameRef a.viasOnMask a.mode a.useAuxOrigin a.hpglPenNumber a.hpglPenSpeed a.hpglPenDiameter a.dxfPolygonMode a.dxfImperialUnits a.dxfUsePcbnewFont a.psNegative a.psA4Output a.plotReference a.plotValue a.plotInvisibleText a.sketchPadsOnFab a.subtractMaskFromSilk a.outputFormat a.mirror a.drillShape a.scaleSelection a.outputDirectory =
    PlotSettings.mk b.layerSelection b.plotOnAllLayersSelection b.disableApertMacros b.useGerberExtensions b.useGerberAttributes b.useGerberAdvancedAttributes b.createGerberJobFile b.dashedLineDashRatio b.dashedLineGapRatio b.svgUseInch b.svgPrecision b.excludeEdgeLayer b.plotFameRef b.viasOnMask b.mode b.useAuxOrigin b.hpglPenNumber b.hpglPenSpeed b.hpglPenDiameter b.dxfPolygonMode b.dxfImperialUnits b.dxfUsePcbnewFont b.psNegative b.psA4Output b.plotReference b.plotValue b.plotInvisibleText b.sketchPadsOnFab b.subtractMaskFromSilk b.outputFormat b.mirror b.drillShape b.scaleSelection b.outputDirectory
  rw [f0, f1, f2, f3, f4, f5, f6, f7, f8, f9, f10, f11, f12, f13, f14, f15, f16, f17, f18, f19, f20, f21, f22, f23, f24, f25, f26, f27, f28, f29, f30, f31, f32, f33]

theorem PlotSettings.loopEq (xs : List Val) :
    PlotSettings.fromSexpr (.list (.str k!"pcbplotparams" :: xs)) = forM PlotSettings.step {} (.str k!"pcbplotparams" :: xs) :=
  rfl

theorem SetupData.trackAll (o : SetupData) (x : Val) : Post (SetupData.step o x) fun o' =>
    Track (tok k!"stackup") (fun _ => fun i => do return some (← Stackup.fromSexpr i)) x o.stackup o'.stackup ∧
    Track (tok k!"pad_to_mask_clearance") (fun _ => (·.idx 1)) x o.packToMaskClearance o'.packToMaskClearance ∧
    Track (tok k!"solder_mask_min_width") (fun _ => fun i => do return some (← i.idx 1)) x o.solderMaskMinWidth o'.solderMaskMinWidth ∧
    Track (tok k!"pad_to_paste_clearance") (fun _ => fun i => do return some (← i.idx 1)) x o.padToPasteClearance o'.padToPasteClearance ∧
    Track (tok k!"pad_to_paste_clearance_ratio") (fun _ => fun i => do return some (← i.idx 1)) x o.padToPasteClearanceRatio o'.padToPasteClearanceRatio ∧
    Track (tok k!"aux_axis_origin") (fun _ => fun i => do return some (← Position.fromSexpr i)) x o.auxAxisOrigin o'.auxAxisOrigin ∧
    Track (tok k!"grid_origin") (fun _ => fun i => do return some (← Position.fromSexpr i)) x o.gridOrigin o'.gridOrigin ∧
    Track (tok k!"pcbplotparams") (fun _ => fun i => do return some (← PlotSettings.fromSexpr i)) x o.plotSettings o'.plotSettings := by
  unfold SetupData.step
  trackItems

theorem SetupData.indep (o o' : SetupData) (x : Val) : Same (SetupData.step o x) (SetupData.step o' x) := by
  unfold SetupData.step
  same

theorem SetupData.unknown {h : Val} {r : List Val} (hu : ∀ k ∈ [k!"stackup", k!"pcbplotparams", k!"pad_to_mask_clearance", k!"solder_mask_min_width", k!"pad_to_paste_clearance", k!"pad_to_paste_clearance_ratio", k!"aux_axis_origin", k!"grid_origin"], h ≠ .str k) (o : SetupData) :
    SetupData.step o (.list (h :: r)) = .ok o := by
  unfold SetupData.step
  unknownHead hu

theorem SetupData.reordered {o a b : SetupData} {xs ys : List Val} (hr : Reordered [] xs ys) (ha : forM SetupData.step o xs = .ok a)
    (hb : forM SetupData.step o ys = .ok b) : a = b := by
  have f0 : a.stackup = b.stackup := (Track.folds (get := (·.stackup)) (fun o x o' hs => (SetupData.trackAll o x o' hs).1) ha).unique
    (Track.folds (get := (·.stackup)) (fun o x o' hs => (SetupData.trackAll o x o' hs).1) hb) (hr.tokens _)
  have f1 : a.packToMaskClearance = b.packToMaskClearance := (Track.folds (get := (·.packToMaskClearance)) (fun o x o' hs => (SetupData.trackAll o x o' hs).2.1) ha).unique
    (Track.folds (get := (·.packToMaskClearance)) (fun o x o' hs => (SetupData.trackAll o x o' hs).2.1) hb) (hr.tokens _)
  have f2 : a.solderMaskMinWidth = b.solderMaskMinWidth := (Track.folds (get := (·.solderMaskMinWidth)) (fun o x o' hs => (SetupData.trackAll o x o' hs).2.2.1) ha).unique
    (Track.folds (get := (·.solderMaskMinWidth)) (fun o x o' hs => (SetupData.trackAll o x o' hs).2.2.1) hb) (hr.tokens _)
  have f3 : a.padToPasteClearance = b.padToPasteClearance := (Track.folds (get := (·.padToPasteClearance)) (fun o x o' hs => (SetupData.trackAll o x o' hs).2.2.2.1) ha).unique
    (Track.folds (get := (·.padToPasteClearance)) (fun o x o' hs => (SetupData.trackAll o x o' hs).2.2.2.1) hb) (hr.tokens _)
  have f4 : a.padToPasteClearanceRatio = b.padToPasteClearanceRatio := (Track.folds (get := (·.padToPasteClearanceRatio)) (fun o x o' hs => (SetupData.trackAll o x o' hs).2.2.2.2.1) ha).unique
    (Track.folds (get := (·.padToPasteClearanceRatio)) (fun o x o' hs => (SetupData.trackAll o x o' hs).2.2.2.2.1) hb) (hr.tokens _)
  have f5 : a.auxAxisOrigin = b.auxAxisOrigin := (Track.folds (get := (·.auxAxisOrigin)) (fun o x o' hs => (SetupData.trackAll o x o' hs).2.2.2.2.2.1) ha).unique
    (Track.folds (get := (·.auxAxisOrigin)) (fun o x o' hs => (SetupData.trackAll o x o' hs).2.2.2.2.2.1) hb) (hr.tokens _)
  have f6 : a.gridOrigin = b.gridOrigin := (Track.folds (get := (·.gridOrigin)) (fun o x o' hs => (SetupData.trackAll o x o' hs).2.2.2.2.2.2.1) ha).unique
    (Track.folds (get := (·.gridOrigin)) (fun o x o' hs => (SetupData.trackAll o x o' hs).2.2.2.2.2.2.1) hb) (hr.tokens _)
  have f7 : a.plotSettings = b.plotSettings := (Track.folds (get := (·.plotSettings)) (fun o x o' hs => (SetupData.trackAll o x o' hs).2.2.2.2.2.2.2) ha).unique
    (Track.folds (get := (·.plotSettings)) (fun o x o' hs => (SetupData.trackAll o x o' hs).2.2.2.2.2.2.2) hb) (hr.tokens _)
  show SetupData.mk a.stackup a.packToMaskClearance a.solderMaskMinWidth a.padToPasteClearance a.padToPasteClearanceRatio a.auxAxisOrigin a.gridOrigin a.plotSettings =
    SetupData.mk b.stackup b.packToMaskClearance b.solderMaskMinWidth b.padToPasteClearance b.padToPasteClearanceRatio b.auxAxisOrigin b.gridOrigin b.plotSettings
  rw [f0, f1, f2, f3, f4, f5, f6, f7]

theorem SetupData.loopEq (xs : List Val) :
    SetupData.fromSexpr (.list (.str k!"setup" :: xs)) = forM SetupData.step {} (.str k!"setup" :: xs) :=
  rfl

theorem Segment.trackAll (o : Segment) (x : Val) : Post (Segment.step o x) fun o' =>
    Track (tok k!"start") (fun _ => Position.fromSexpr) x o.start o'.start ∧
    Track (tok k!"end") (fun _ => Position.fromSexpr) x o.«end» o'.«end» ∧
    Track (tok k!"width") (fun _ => (·.idx 1)) x o.width o'.width ∧
    Track (tok k!"layer") (fun _ => (·.idx 1)) x o.layer o'.layer ∧
    Track (wordIn [k!"locked"]) (fun _ _ => .ok true) x o.locked o'.locked ∧
    Track (tok k!"net") (fun _ => (·.idx 1)) x o.net o'.net ∧
    Track (tok k!"tstamp") (fun _ => (·.idx 1)) x o.tstamp o'.tstamp := by
  unfold Segment.step
  cases x <;> trackBoth

theorem Segment.indep (o o' : Segment) (x : Val) : Same (Segment.step o x) (Segment.step o' x) := by
  unfold Segment.step
  cases x <;> same

theorem Segment.unknown {h : Val} {r : List Val} (hu : ∀ k ∈ [k!"start", k!"end", k!"width", k!"layer", k!"net", k!"tstamp"], h ≠ .str k) (o : Segment) :
    Segment.step o (.list (h :: r)) = .ok o := by
  unfold Segment.step
  unknownHead hu

theorem Segment.reordered {o a b : Segment} {xs ys : List Val} (hr : Reordered [] xs ys) (ha : forM Segment.step o xs = .ok a)
    (hb : forM Segment.step o ys = .ok b) : a = b := by
  have f0 : a.start = b.start := (Track.folds (get := (·.start)) (fun o x o' hs => (Segment.trackAll o x o' hs).1) ha).unique
    (Track.folds (get := (·.start)) (fun o x o' hs => (Segment.trackAll o x o' hs).1) hb) (hr.tokens _)
  have f1 : a.«end» = b.«end» := (Track.folds (get := (·.«end»)) (fun o x o' hs => (Segment.trackAll o x o' hs).2.1) ha).unique
    (Track.folds (get := (·.«end»)) (fun o x o' hs => (Segment.trackAll o x o' hs).2.1) hb) (hr.tokens _)
  have f2 : a.width = b.width := (Track.folds (get := (·.width)) (fun o x o' hs => (Segment.trackAll o x o' hs).2.2.1) ha).unique
    (Track.folds (get := (·.width)) (fun o x o' hs => (Segment.trackAll o x o' hs).2.2.1) hb) (hr.tokens _)
  have f3 : a.layer = b.layer := (Track.folds (get := (·.layer)) (fun o x o' hs => (Segment.trackAll o x o' hs).2.2.2.1) ha).unique
    (Track.folds (get := (·.layer)) (fun o x o' hs => (Segment.trackAll o x o' hs).2.2.2.1) hb) (hr.tokens _)
  have f4 : a.locked = b.locked := (Track.folds (get := (·.locked)) (fun o x o' hs => (Segment.trackAll o x o' hs).2.2.2.2.1) ha).unique
    (Track.folds (get := (·.locked)) (fun o x o' hs => (Segment.trackAll o x o' hs).2.2.2.2.1) hb) (hr.word _)
  have f5 : a.net = b.net := (Track.folds (get := (·.net)) (fun o x o' hs => (Segment.trackAll o x o' hs).2.2.2.2.2.1) ha).unique
    (Track.folds (get := (·.net)) (fun o x o' hs => (Segment.trackAll o x o' hs).2.2.2.2.2.1) hb) (hr.tokens _)
  have f6 : a.tstamp = b.tstamp := (Track.folds (get := (·.tstamp)) (fun o x o' hs => (Segment.trackAll o x o' hs).2.2.2.2.2.2) ha).unique
    (Track.folds (get := (·.tstamp)) (fun o x o' hs => (Segment.trackAll o x o' hs).2.2.2.2.2.2) hb) (hr.tokens _)
  show Segment.mk a.start a.«end» a.width a.layer a.locked a.net a.tstamp =
    Segment.mk b.start b.«end» b.width b.layer b.locked b.net b.tstamp
  rw [f0, f1, f2, f3, f4, f5, f6]

theorem Segment.loopEq (xs : List Val) :
    Segment.fromSexpr (.list (.str k!"segment" :: xs)) = forM Segment.step {} (.str k!"segment" :: xs) :=
  rfl

theorem Via.trackAll (o : Via) (x : Val) : Post (Via.step o x) fun o' =>
    Track (wordIn [k!"micro", k!"blind"]) (fun _ => fun i => do return some i) x o.type o'.type ∧
    Track (wordIn [k!"locked"]) (fun _ _ => .ok true) x o.locked o'.locked ∧
    Track (tok k!"at") (fun _ => Position.fromSexpr) x o.position o'.position ∧
    Track (tok k!"size") (fun _ => (·.idx 1)) x o.size o'.size ∧
    Track (tok k!"drill") (fun _ => (·.idx 1)) x o.drill o'.drill ∧
    Track (tok k!"layers") (fun l i => do return l ++ (← (·.slice 1) i)) x o.layers o'.layers ∧
    Track (tok k!"remove_unused_layers") (fun _ _ => .ok true) x o.removeUnusedLayers o'.removeUnusedLayers ∧
    Track (tok k!"keep_end_layers") (fun _ _ => .ok true) x o.keepEndLayers o'.keepEndLayers ∧
    Track (tok k!"free") (fun _ _ => .ok true) x o.free o'.free ∧
    Track (tok k!"net") (fun _ => (·.idx 1)) x o.net o'.net ∧
    Track (tok k!"tstamp") (fun _ => fun i => do return some (← i.idx 1)) x o.tstamp o'.tstamp := by
  unfold Via.step
  cases x <;> trackBoth

theorem Via.indep (o o' : Via) (x : Val) : Same (Via.step o x) (Via.step o' x) := by
  unfold Via.step
  cases x <;> same

theorem Via.unknown {h : Val} {r : List Val} (hu : ∀ k ∈ [k!"at", k!"size", k!"drill", k!"layers", k!"remove_unused_layers", k!"keep_end_layers", k!"free", k!"net", k!"tstamp"], h ≠ .str k) (o : Via) :
    Via.step o (.list (h :: r)) = .ok o := by
  unfold Via.step
  unknownHead hu

theorem Via.reordered {o a b : Via} {xs ys : List Val} (hr : Reordered [] xs ys) (ha : forM Via.step o xs = .ok a)
    (hb : forM Via.step o ys = .ok b) : a = b := by
  have f0 : a.type = b.type := (Track.folds (get := (·.type)) (fun o x o' hs => (Via.trackAll o x o' hs).1) ha).unique
    (Track.folds (get := (·.type)) (fun o x o' hs => (Via.trackAll o x o' hs).1) hb) (hr.word _)
  have f1 : a.locked = b.locked := (Track.folds (get := (·.locked)) (fun o x o' hs => (Via.trackAll o x o' hs).2.1) ha).unique
    (Track.folds (get := (·.locked)) (fun o x o' hs => (Via.trackAll o x o' hs).2.1) hb) (hr.word _)
  have f2 : a.position = b.position := (Track.folds (get := (·.position)) (fun o x o' hs => (Via.trackAll o x o' hs).2.2.1) ha).unique
    (Track.folds (get := (·.position)) (fun o x o' hs => (Via.trackAll o x o' hs).2.2.1) hb) (hr.tokens _)
  have f3 : a.size = b.size := (Track.folds (get := (·.size)) (fun o x o' hs => (Via.trackAll o x o' hs).2.2.2.1) ha).unique
    (Track.folds (get := (·.size)) (fun o x o' hs => (Via.trackAll o x o' hs).2.2.2.1) hb) (hr.tokens _)
  have f4 : a.drill = b.drill := (Track.folds (get := (·.drill)) (fun o x o' hs => (Via.trackAll o x o' hs).2.2.2.2.1) ha).unique
    (Track.folds (get := (·.drill)) (fun o x o' hs => (Via.trackAll o x o' hs).2.2.2.2.1) hb) (hr.tokens _)
  have f5 : a.layers = b.layers := (Track.folds (get := (·.layers)) (fun o x o' hs => (Via.trackAll o x o' hs).2.2.2.2.2.1) ha).unique
    (Track.folds (get := (·.layers)) (fun o x o' hs => (Via.trackAll o x o' hs).2.2.2.2.2.1) hb) (hr.tokens _)
  have f6 : a.removeUnusedLayers = b.removeUnusedLayers := (Track.folds (get := (·.removeUnusedLayers)) (fun o x o' hs => (Via.trackAll o x o' hs).2.2.2.2.2.2.1) ha).unique
    (Track.folds (get := (·.removeUnusedLayers)) (fun o x o' hs => (Via.trackAll o x o' hs).2.2.2.2.2.2.1) hb) (hr.tokens _)
  have f7 : a.keepEndLayers = b.keepEndLayers := (Track.folds (get := (·.keepEndLayers)) (fun o x o' hs => (Via.trackAll o x o' hs).2.2.2.2.2.2.2.1) ha).unique
    (Track.folds (get := (·.keepEndLayers)) (fun o x o' hs => (Via.trackAll o x o' hs).2.2.2.2.2.2.2.1) hb) (hr.tokens _)
  have f8 : a.free = b.free := (Track.folds (get := (·.free)) (fun o x o' hs => (Via.trackAll o x o' hs).2.2.2.2.2.2.2.2.1) ha).unique
    (Track.folds (get := (·.free)) (fun o x o' hs => (Via.trackAll o x o' hs).2.2.2.2.2.2.2.2.1) hb) (hr.tokens _)
  have f9 : a.net = b.net := (Track.folds (get := (·.net)) (fun o x o' hs => (Via.trackAll o x o' hs).2.2.2.2.2.2.2.2.2.1) ha).unique
    (Track.folds (get := (·.net)) (fun o x o' hs => (Via.trackAll o x o' hs).2.2.2.2.2.2.2.2.2.1) hb) (hr.tokens _)
  have f10 : a.tstamp = b.tstamp := (Track.folds (get := (·.tstamp)) (fun o x o' hs => (Via.trackAll o x o' hs).2.2.2.2.2.2.2.2.2.2) ha).unique
    (Track.folds (get := (·.tstamp)) (fun o x o' hs => (Via.trackAll o x o' hs).2.2.2.2.2.2.2.2.2.2) hb) (hr.tokens _)
  show Via.mk a.type a.locked a.position a.size a.drill a.layers a.removeUnusedLayers a.keepEndLayers a.free a.net a.tstamp =
    Via.mk b.type b.locked b.position b.size b.drill b.layers b.removeUnusedLayers b.keepEndLayers b.free b.net b.tstamp
  rw [f0, f1, f2, f3, f4, f5, f6, f7, f8, f9, f10]

theorem Via.loopEq (xs : List Val) :
    Via.fromSexpr (.list (.str k!"via" :: xs)) = forM Via.step {} (.str k!"via" :: xs) :=
  rfl

theorem TraceArc.trackAll (o : TraceArc) (x : Val) : Post (TraceArc.step o x) fun o' =>
    Track (tok k!"start") (fun _ => Position.fromSexpr) x o.start o'.start ∧
    Track (tok k!"mid") (fun _ => Position.fromSexpr) x o.mid o'.mid ∧
    Track (tok k!"end") (fun _ => Position.fromSexpr) x o.«end» o'.«end» ∧
    Track (tok k!"width") (fun _ => (·.idx 1)) x o.width o'.width ∧
    Track (tok k!"layer") (fun _ => (·.idx 1)) x o.layer o'.layer ∧
    Track (wordIn [k!"locked"]) (fun _ _ => .ok true) x o.locked o'.locked ∧
    Track (tok k!"net") (fun _ => (·.idx 1)) x o.net o'.net ∧
    Track (tok k!"tstamp") (fun _ => fun i => do return some (← i.idx 1)) x o.tstamp o'.tstamp := by
  unfold TraceArc.step
  cases x <;> trackBoth

theorem TraceArc.indep (o o' : TraceArc) (x : Val) : Same (TraceArc.step o x) (TraceArc.step o' x) := by
  unfold TraceArc.step
  cases x <;> same

theorem TraceArc.unknown {h : Val} {r : List Val} (hu : ∀ k ∈ [k!"start", k!"mid", k!"end", k!"width", k!"layer", k!"net", k!"tstamp"], h ≠ .str k) (o : TraceArc) :
    TraceArc.step o (.list (h :: r)) = .ok o := by
  unfold TraceArc.step
  unknownHead hu

theorem TraceArc.reordered {o a b : TraceArc} {xs ys : List Val} (hr : Reordered [] xs ys) (ha : forM TraceArc.step o xs = .ok a)
    (hb : forM TraceArc.step o ys = .ok b) : a = b := by
  have f0 : a.start = b.start := (Track.folds (get := (·.start)) (fun o x o' hs => (TraceArc.trackAll o x o' hs).1) ha).unique
    (Track.folds (get := (·.start)) (fun o x o' hs => (TraceArc.trackAll o x o' hs).1) hb) (hr.tokens _)
  have f1 : a.mid = b.mid := (Track.folds (get := (·.mid)) (fun o x o' hs => (TraceArc.trackAll o x o' hs).2.1) ha).unique
    (Track.folds (get := (·.mid)) (fun o x o' hs => (TraceArc.trackAll o x o' hs).2.1) hb) (hr.tokens _)
  have f2 : a.«end» = b.«end» := (Track.folds (get := (·.«end»)) (fun o x o' hs => (TraceArc.trackAll o x o' hs).2.2.1) ha).unique
    (Track.folds (get := (·.«end»)) (fun o x o' hs => (TraceArc.trackAll o x o' hs).2.2.1) hb) (hr.tokens _)
  have f3 : a.width = b.width := (Track.folds (get := (·.width)) (fun o x o' hs => (TraceArc.trackAll o x o' hs).2.2.2.1) ha).unique
    (Track.folds (get := (·.width)) (fun o x o' hs => (TraceArc.trackAll o x o' hs).2.2.2.1) hb) (hr.tokens _)
  have f4 : a.layer = b.layer := (Track.folds (get := (·.layer)) (fun o x o' hs => (TraceArc.trackAll o x o' hs).2.2.2.2.1) ha).unique
    (Track.folds (get := (·.layer)) (fun o x o' hs => (TraceArc.trackAll o x o' hs).2.2.2.2.1) hb) (hr.tokens _)
  have f5 : a.locked = b.locked := (Track.folds (get := (·.locked)) (fun o x o' hs => (TraceArc.trackAll o x o' hs).2.2.2.2.2.1) ha).unique
    (Track.folds (get := (·.locked)) (fun o x o' hs => (TraceArc.trackAll o x o' hs).2.2.2.2.2.1) hb) (hr.word _)
  have f6 : a.net = b.net := (Track.folds (get := (·.net)) (fun o x o' hs => (TraceArc.trackAll o x o' hs).2.2.2.2.2.2.1) ha).unique
    (Track.folds (get := (·.net)) (fun o x o' hs => (TraceArc.trackAll o x o' hs).2.2.2.2.2.2.1) hb) (hr.tokens _)
  have f7 : a.tstamp = b.tstamp := (Track.folds (get := (·.tstamp)) (fun o x o' hs => (TraceArc.trackAll o x o' hs).2.2.2.2.2.2.2) ha).unique
    (Track.folds (get := (·.tstamp)) (fun o x o' hs => (TraceArc.trackAll o x o' hs).2.2.2.2.2.2.2) hb) (hr.tokens _)
  show TraceArc.mk a.start a.mid a.«end» a.width a.layer a.locked a.net a.tstamp =
    TraceArc.mk b.start b.mid b.«end» b.width b.layer b.locked b.net b.tstamp
  rw [f0, f1, f2, f3, f4, f5, f6, f7]

theorem TraceArc.loopEq (xs : List Val) :
    TraceArc.fromSexpr (.list (.str k!"arc" :: xs)) = forM TraceArc.step {} (.str k!"arc" :: xs) :=
  rfl

theorem Target.trackAll (o : Target) (x : Val) : Post (Target.step o x) fun o' =>
    Track (fun _ => false) (fun v _ => .ok v) x o.type o'.type ∧
    Track (tok k!"at") (fun _ => Position.fromSexpr) x o.position o'.position ∧
    Track (tok k!"size") (fun _ => (·.idx 1)) x o.size o'.size ∧
    Track (tok k!"width") (fun _ => (·.idx 1)) x o.width o'.width ∧
    Track (tok k!"layer") (fun _ => (·.idx 1)) x o.layer o'.layer ∧
    Track (tok k!"tstamp") (fun _ => fun i => do return some (← i.idx 1)) x o.tstamp o'.tstamp := by
  unfold Target.step
  trackItems

theorem Target.indep (o o' : Target) (x : Val) : Same (Target.step o x) (Target.step o' x) := by
  unfold Target.step
  same

theorem Target.unknown {h : Val} {r : List Val} (hu : ∀ k ∈ [k!"at", k!"size", k!"width", k!"layer", k!"tstamp"], h ≠ .str k) (o : Target) :
    Target.step o (.list (h :: r)) = .ok o := by
  unfold Target.step
  unknownHead hu

theorem Target.reordered {o a b : Target} {xs ys : List Val} (hr : Reordered [] xs ys) (ha : forM Target.step o xs = .ok a)
    (hb : forM Target.step o ys = .ok b) : a = b := by
  have f0 : a.type = b.type := (Track.folds (get := (·.type)) (fun o x o' hs => (Target.trackAll o x o' hs).1) ha).unique
    (Track.folds (get := (·.type)) (fun o x o' hs => (Target.trackAll o x o' hs).1) hb) filter_never
  have f1 : a.position = b.position := (Track.folds (get := (·.position)) (fun o x o' hs => (Target.trackAll o x o' hs).2.1) ha).unique
    (Track.folds (get := (·.position)) (fun o x o' hs => (Target.trackAll o x o' hs).2.1) hb) (hr.tokens _)
  have f2 : a.size = b.size := (Track.folds (get := (·.size)) (fun o x o' hs => (Target.trackAll o x o' hs).2.2.1) ha).unique
    (Track.folds (get := (·.size)) (fun o x o' hs => (Target.trackAll o x o' hs).2.2.1) hb) (hr.tokens _)
  have f3 : a.width = b.width := (Track.folds (get := (·.width)) (fun o x o' hs => (Target.trackAll o x o' hs).2.2.2.1) ha).unique
    (Track.folds (get := (·.width)) (fun o x o' hs => (Target.trackAll o x o' hs).2.2.2.1) hb) (hr.tokens _)
  have f4 : a.layer = b.layer := (Track.folds (get := (·.layer)) (fun o x o' hs => (Target.trackAll o x o' hs).2.2.2.2.1) ha).unique
    (Track.folds (get := (·.layer)) (fun o x o' hs => (Target.trackAll o x o' hs).2.2.2.2.1) hb) (hr.tokens _)
  have f5 : a.tstamp = b.tstamp := (Track.folds (get := (·.tstamp)) (fun o x o' hs => (Target.trackAll o x o' hs).2.2.2.2.2) ha).unique
    (Track.folds (get := (·.tstamp)) (fun o x o' hs => (Target.trackAll o x o' hs).2.2.2.2.2) hb) (hr.tokens _)
  show Target.mk a.type a.position a.size a.width a.layer a.tstamp =
    Target.mk b.type b.position b.size b.width b.layer b.tstamp
  rw [f0, f1, f2, f3, f4, f5]

theorem Target.loopEq (a1 : Val) (xs : List Val) :
    Target.fromSexpr (.list (.str k!"target" :: a1 :: xs)) = forM Target.step { type := a1 } xs :=
  rfl

end Kiutils
