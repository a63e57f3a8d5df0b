import Verif.Format.BrdItems
import Verif.Proofs.Common
import Verif.Proofs.SchItems
/-!
# Items of boards: the text denotes `toVal`, `from_sexpr` reads `toVal`
-/
namespace Kiutils

seal Position.fromSexpr

theorem GeneralSettings.lx [TextRule] {o : GeneralSettings} (h : o.WF) {i nl s t} (hs : s ⇛ t) :
    (o.toSexpr i nl ++ s) ⇛ toks o.toVal ++ t := by
  obtain ⟨h1⟩ := h
  simp only [toSexpr, toVal]
  lxNorm
  lxAuto

macro_rules | `(tactic| lxObj) => `(tactic| ((with_reducible refine GeneralSettings.lx ?_ ?_); (· wf)))

theorem GeneralSettings.from_toVal [TextRule] {o : GeneralSettings} (h : o.WF) : GeneralSettings.fromSexpr o.toVal = .ok (canon o) := by
  simp only [toVal, fromSexpr]
  foStart
  foSkip
  fld thickness
  rfl

seal GeneralSettings.fromSexpr

theorem LayerToken.lx [TextRule] {o : LayerToken} (h : o.WF) {i nl s t} (hs : s ⇛ t) :
    (o.toSexpr i nl ++ s) ⇛ toks o.toVal ++ t := by
  obtain ⟨h1, h2, h3, h4⟩ := h
  simp only [toSexpr, toVal]
  lxNorm
  lxAuto

macro_rules | `(tactic| lxObj) => `(tactic| ((with_reducible refine LayerToken.lx ?_ ?_); (· wf)))

theorem LayerToken.from_toVal {o : LayerToken} : LayerToken.fromSexpr o.toVal = .ok (canon o) := by
  obtain ⟨a, b, c, d⟩ := o
  cases d <;> rfl

seal LayerToken.fromSexpr

theorem StackupSubLayer.lx [TextRule] {o : StackupSubLayer} (h : o.WF) {i nl s t} (hs : s ⇛ t) :
    (o.toSexpr i nl ++ s) ⇛ toksL o.toVals ++ t := by
  obtain ⟨h1, h2, h3, h4⟩ := h
  simp only [toSexpr, toVals]
  lxNorm
  lxAuto

theorem lx_forL [TextRule] {α : Type} {xs : List α} {f : α → Str} {g : α → List Val} {s t} (hs : s ⇛ t)
    (hf : ∀ a ∈ xs, ∀ s t, s ⇛ t → (f a ++ s) ⇛ toksL (g a) ++ t) :
    (forS xs f ++ s) ⇛ toksL (xs.flatMap g) ++ t := by
  induction xs with
  | nil => simpa [forS, toksL_nil] using hs
  | cons a r ih =>
    have := ih (fun b hb => hf b (by simp [hb]))
    simp only [forS, List.flatMap_cons, toksL_append, List.append_assoc] at this ⊢
    exact hf a (by simp) _ _ this

theorem StackupLayer.lx [TextRule] {o : StackupLayer} (h : o.WF) {i nl s t} (hs : s ⇛ t) :
    (o.toSexpr i nl ++ s) ⇛ toks o.toVal ++ t := by
  obtain ⟨h1, h2, h3, h4, h5, h6, h7, h8⟩ := h
  have hl : ∀ {s t}, s ⇛ t → ((forS o.subLayers fun l => py!"\n{l.toSexpr (i + 2)}") ++ s) ⇛
      toksL (o.subLayers.flatMap StackupSubLayer.toVals) ++ t := fun hs =>
    lx_forL hs fun a ha s t hs => by lxNorm; exact lx_nl (StackupSubLayer.lx (h8 a ha) hs)
  have hq : ∀ s, sqEnd ((forS o.subLayers fun l => py!"\n{l.toSexpr (i + 2)}") ++ ')' :: s) = true := by
    intro s; cases o.subLayers <;> rfl
  simp only [toSexpr, toVal]
  generalize (forS o.subLayers fun l => py!"\n{l.toSexpr (i + 2)}") = L at hl hq ⊢
  generalize o.subLayers.flatMap StackupSubLayer.toVals = M at hl ⊢
  lxNorm
  lxAuto

macro_rules | `(tactic| lxObj) => `(tactic| ((with_reducible refine StackupLayer.lx ?_ ?_); (· wf)))

/-- The sublayer that is being read is finished. -/
def StackupLayer.State.finish (s : StackupLayer.State) : StackupLayer :=
  match s.temp with
  | some t => { s.object with subLayers := s.object.subLayers ++ [t] }
  | none => s.object

theorem StackupLayer.fold_sub (s : State) (a : StackupSubLayer) :
    forM step s a.toVals = .ok { object := s.finish, temp := some (canon a) } := by
  obtain ⟨b, temp⟩ := s
  obtain ⟨th, m, e, l⟩ := a
  cases temp <;> cases m <;> cases e <;> cases l <;> rfl

theorem StackupLayer.fold_subs (l : List StackupSubLayer) (s : State) :
    ∃ s', forM step s (l.flatMap StackupSubLayer.toVals) = .ok s' ∧
      s'.finish = { s.finish with subLayers := s.finish.subLayers ++ l.map canon } := by
  induction l generalizing s with
  | nil => exact ⟨s, rfl, by simp⟩
  | cons a l ih =>
    obtain ⟨s', h1, h2⟩ := ih { object := s.finish, temp := some (canon a) }
    refine ⟨s', ?_, ?_⟩
    · rw [List.flatMap_cons, forM_append, fold_sub]
      exact h1
    · rw [h2]
      simp [State.finish]

theorem StackupLayer.from_toVal {o : StackupLayer} : StackupLayer.fromSexpr o.toVal = .ok (canon o) := by
  have key : ∀ l s', forM step { object := { name := o.name.canon } } l = .ok s' →
      fromSexpr (.list (.str k!"layer" :: o.name.canon :: l)) = .ok s'.finish := by
    intro l s' h
    simp only [fromSexpr, checkHead_ok, getI1, List.drop_succ_cons, List.drop_zero, h]
    obtain ⟨b, temp⟩ := s'
    cases temp <;> rfl
  obtain ⟨s', h1, h2⟩ := fold_subs o.subLayers { object := canon { o with subLayers := [] } }
  have h3 : canon o = s'.finish := by
    rw [h2]; rfl
  rw [h3]
  simp only [toVal, List.append_assoc, List.cons_append, List.nil_append]
  refine key _ _ ?_
  refine fo_set (fun s v => { s with object := { s.object with type := v } }) _ (by rfl) ?_
  refine fo_opt (fun s v => { s with object := { s.object with color := v } }) canon (by rfl) (by intro _ _; rfl) ?_
  refine fo_opt (fun s v => { s with object := { s.object with thickness := v } }) canon (by rfl) (by intro _ _; rfl) ?_
  refine fo_opt (fun s v => { s with object := { s.object with material := v } }) canon (by rfl) (by intro _ _; rfl) ?_
  refine fo_opt (fun s v => { s with object := { s.object with epsilonR := v } }) canon (by rfl) (by intro _ _; rfl) ?_
  refine fo_opt (fun s v => { s with object := { s.object with lossTangent := v } }) canon (by rfl) (by intro _ _; rfl) ?_
  exact h1

seal StackupLayer.fromSexpr

theorem Stackup.lx [TextRule] {o : Stackup} (h : o.WF) {i nl s t} (hs : s ⇛ t) :
    (o.toSexpr i nl ++ s) ⇛ toks o.toVal ++ t := by
  obtain ⟨h1, h2, h3, h4⟩ := h
  simp only [toSexpr, toVal]
  lxNorm
  lxAuto

macro_rules | `(tactic| lxObj) => `(tactic| ((with_reducible refine Stackup.lx ?_ ?_); (· wf)))

theorem Stackup.from_toVal [TextRule] {o : Stackup} (h : o.WF) : Stackup.fromSexpr o.toVal = .ok (canon o) := by
  simp only [toVal, fromSexpr]
  foStart
  foSkip
  fldL layers using (fun _ _ => StackupLayer.from_toVal)
  fldO copperFinish
  fldO dielectricContraints
  fldO edgeConnector
  fldF castellatedPads
  fldF edgePlating
  rfl

seal Stackup.fromSexpr

macro_rules | `(tactic| lxObj) => `(tactic| ((with_reducible refine lx_fix ?_ ?_ ?_); (· wf); (· delim)))

theorem PlotSettings.from_toVal [TextRule] {o : PlotSettings} (h : o.WF) : PlotSettings.fromSexpr o.toVal = .ok (canon { o with useAuxOrigin := false }) := by
  simp only [toVal, fromSexpr]
  foStart
  foSkip
  fld layerSelection
  dsimp only
  fldO plotOnAllLayersSelection
  dsimp only
  fldB disableApertMacros o.disableApertMacros
  dsimp only
  fldB useGerberExtensions o.useGerberExtensions
  dsimp only
  fldB useGerberAttributes o.useGerberAttributes
  dsimp only
  fldB useGerberAdvancedAttributes o.useGerberAdvancedAttributes
  dsimp only
  fldB createGerberJobFile o.createGerberJobFile
  dsimp only
  fldO dashedLineDashRatio
  dsimp only
  fldO dashedLineGapRatio
  dsimp only
  refine fo_opt (fun o v => { o with svgUseInch := v }) canon (by rfl) (by intro a _; cases a <;> rfl) ?_
  dsimp only
  fld svgPrecision
  dsimp only
  refine fo_opt (fun o v => { o with excludeEdgeLayer := v }) canon (by rfl) (by intro a _; cases a <;> rfl) ?_
  dsimp only
  fldB plotFameRef o.plotFameRef
  dsimp only
  fldB viasOnMask o.viasOnMask
  dsimp only
  fld mode
  dsimp only
  fld useAuxOrigin
  dsimp only
  fld hpglPenNumber
  dsimp only
  fld hpglPenSpeed
  dsimp only
  fld hpglPenDiameter
  dsimp only
  fldB dxfPolygonMode o.dxfPolygonMode
  dsimp only
  fldB dxfImperialUnits o.dxfImperialUnits
  dsimp only
  fldB dxfUsePcbnewFont o.dxfUsePcbnewFont
  dsimp only
  fldB psNegative o.psNegative
  dsimp only
  fldB psA4Output o.psA4Output
  dsimp only
  fldB plotReference o.plotReference
  dsimp only
  fldB plotValue o.plotValue
  dsimp only
  fldB plotInvisibleText o.plotInvisibleText
  dsimp only
  fldB sketchPadsOnFab o.sketchPadsOnFab
  dsimp only
  fldB subtractMaskFromSilk o.subtractMaskFromSilk
  dsimp only
  fld outputFormat
  dsimp only
  fldB mirror o.mirror
  dsimp only
  fld drillShape
  dsimp only
  fld scaleSelection
  dsimp only
  fld outputDirectory
  rw [fo_end]
  rfl

seal PlotSettings.fromSexpr

theorem PlotSettings.lx0 [TextRule] {o : PlotSettings} (h : o.WF) {i s t} (hs : s ⇛ t) :
    (((py!"{indents i}  (layerselection {o.layerSelection.pyStr})\n") ++
      (optS o.plotOnAllLayersSelection fun t => py!"{indents i}  (plot_on_all_layers_selection {t.pyStr})\n") ++
      (py!"{indents i}  (disableapertmacros {trueFalse o.disableApertMacros})\n") ++
      (py!"{indents i}  (usegerberextensions {trueFalse o.useGerberExtensions})\n") ++
      (py!"{indents i}  (usegerberattributes {trueFalse o.useGerberAttributes})\n") ++
      (py!"{indents i}  (usegerberadvancedattributes {trueFalse o.useGerberAdvancedAttributes})\n")) ++ s) ⇛
      toksL ([.list [.str k!"layerselection", o.layerSelection.canon]] ++
      (optL o.plotOnAllLayersSelection fun v => [.list [.str k!"plot_on_all_layers_selection", v.canon]]) ++
      [.list [.str k!"disableapertmacros", .str (trueFalse o.disableApertMacros)]] ++
      [.list [.str k!"usegerberextensions", .str (trueFalse o.useGerberExtensions)]] ++
      [.list [.str k!"usegerberattributes", .str (trueFalse o.useGerberAttributes)]] ++
      [.list [.str k!"usegerberadvancedattributes", .str (trueFalse o.useGerberAdvancedAttributes)]]) ++ t := by
  obtain ⟨h1, h2, h3, h4, h5, h6, h7, h8, h9, h10, h11, h12, h13⟩ := h
  lxNorm
  lxAuto

theorem PlotSettings.lx1 [TextRule] {o : PlotSettings} (h : o.WF) {i s t} (hs : s ⇛ t) :
    (((py!"{indents i}  (creategerberjobfile {trueFalse o.createGerberJobFile})\n") ++
      (optS o.dashedLineDashRatio fun t => py!"{indents i}  (dashed_line_dash_ratio {fmtFixedVal 6 t})\n") ++
      (optS o.dashedLineGapRatio fun t => py!"{indents i}  (dashed_line_gap_ratio {fmtFixedVal 6 t})\n") ++
      (optS o.svgUseInch fun t => py!"{indents i}  (svguseinch {trueFalse t})\n") ++
      (py!"{indents i}  (svgprecision {o.svgPrecision.pyStr})\n") ++
      (optS o.excludeEdgeLayer fun t => py!"{indents i}  (excludeedgelayer {trueFalse t})\n")) ++ s) ⇛
      toksL ([.list [.str k!"creategerberjobfile", .str (trueFalse o.createGerberJobFile)]] ++
      (optL o.dashedLineDashRatio fun v => [.list [.str k!"dashed_line_dash_ratio", v.canon]]) ++
      (optL o.dashedLineGapRatio fun v => [.list [.str k!"dashed_line_gap_ratio", v.canon]]) ++
      (optL o.svgUseInch fun v => [.list [.str k!"svguseinch", .str (trueFalse v)]]) ++
      [.list [.str k!"svgprecision", o.svgPrecision.canon]] ++
      (optL o.excludeEdgeLayer fun v => [.list [.str k!"excludeedgelayer", .str (trueFalse v)]])) ++ t := by
  obtain ⟨h1, h2, h3, h4, h5, h6, h7, h8, h9, h10, h11, h12, h13⟩ := h
  lxNorm
  lxAuto

theorem PlotSettings.lx2 [TextRule] {o : PlotSettings} (h : o.WF) {i s t} (hs : s ⇛ t) :
    (((py!"{indents i}  (plotframeref {trueFalse o.plotFameRef})\n") ++
      (py!"{indents i}  (viasonmask {trueFalse o.viasOnMask})\n") ++
      (py!"{indents i}  (mode {o.mode.pyStr})\n") ++
      (py!"{indents i}  (useauxorigin false)\n") ++
      (py!"{indents i}  (hpglpennumber {o.hpglPenNumber.pyStr})\n") ++
      (py!"{indents i}  (hpglpenspeed {o.hpglPenSpeed.pyStr})\n")) ++ s) ⇛
      toksL ([.list [.str k!"plotframeref", .str (trueFalse o.plotFameRef)]] ++
      [.list [.str k!"viasonmask", .str (trueFalse o.viasOnMask)]] ++
      [.list [.str k!"mode", o.mode.canon]] ++
      [.list [.str k!"useauxorigin", .str k!"false"]] ++
      [.list [.str k!"hpglpennumber", o.hpglPenNumber.canon]] ++
      [.list [.str k!"hpglpenspeed", o.hpglPenSpeed.canon]]) ++ t := by
  obtain ⟨h1, h2, h3, h4, h5, h6, h7, h8, h9, h10, h11, h12, h13⟩ := h
  lxNorm
  lxAuto

theorem PlotSettings.lx3 [TextRule] {o : PlotSettings} (h : o.WF) {i s t} (hs : s ⇛ t) :
    (((py!"{indents i}  (hpglpendiameter {fmtFixedVal 6 o.hpglPenDiameter})\n") ++
      (py!"{indents i}  (dxfpolygonmode {trueFalse o.dxfPolygonMode})\n") ++
      (py!"{indents i}  (dxfimperialunits {trueFalse o.dxfImperialUnits})\n") ++
      (py!"{indents i}  (dxfusepcbnewfont {trueFalse o.dxfUsePcbnewFont})\n") ++
      (py!"{indents i}  (psnegative {trueFalse o.psNegative})\n") ++
      (py!"{indents i}  (psa4output {trueFalse o.psA4Output})\n")) ++ s) ⇛
      toksL ([.list [.str k!"hpglpendiameter", o.hpglPenDiameter.canon]] ++
      [.list [.str k!"dxfpolygonmode", .str (trueFalse o.dxfPolygonMode)]] ++
      [.list [.str k!"dxfimperialunits", .str (trueFalse o.dxfImperialUnits)]] ++
      [.list [.str k!"dxfusepcbnewfont", .str (trueFalse o.dxfUsePcbnewFont)]] ++
      [.list [.str k!"psnegative", .str (trueFalse o.psNegative)]] ++
      [.list [.str k!"psa4output", .str (trueFalse o.psA4Output)]]) ++ t := by
  obtain ⟨h1, h2, h3, h4, h5, h6, h7, h8, h9, h10, h11, h12, h13⟩ := h
  lxNorm
  lxAuto

theorem PlotSettings.lx4 [TextRule] {o : PlotSettings} (h : o.WF) {i s t} (hs : s ⇛ t) :
    (((py!"{indents i}  (plotreference {trueFalse o.plotReference})\n") ++
      (py!"{indents i}  (plotvalue {trueFalse o.plotValue})\n") ++
      (py!"{indents i}  (plotinvisibletext {trueFalse o.plotInvisibleText})\n") ++
      (py!"{indents i}  (sketchpadsonfab {trueFalse o.sketchPadsOnFab})\n") ++
      (py!"{indents i}  (subtractmaskfromsilk {trueFalse o.subtractMaskFromSilk})\n") ++
      (py!"{indents i}  (outputformat {o.outputFormat.pyStr})\n")) ++ s) ⇛
      toksL ([.list [.str k!"plotreference", .str (trueFalse o.plotReference)]] ++
      [.list [.str k!"plotvalue", .str (trueFalse o.plotValue)]] ++
      [.list [.str k!"plotinvisibletext", .str (trueFalse o.plotInvisibleText)]] ++
      [.list [.str k!"sketchpadsonfab", .str (trueFalse o.sketchPadsOnFab)]] ++
      [.list [.str k!"subtractmaskfromsilk", .str (trueFalse o.subtractMaskFromSilk)]] ++
      [.list [.str k!"outputformat", o.outputFormat.canon]]) ++ t := by
  obtain ⟨h1, h2, h3, h4, h5, h6, h7, h8, h9, h10, h11, h12, h13⟩ := h
  lxNorm
  lxAuto

theorem PlotSettings.lx5 [TextRule] {o : PlotSettings} (h : o.WF) {i s t} (hs : s ⇛ t) :
    (((py!"{indents i}  (mirror {trueFalse o.mirror})\n") ++
      (py!"{indents i}  (drillshape {o.drillShape.pyStr})\n") ++
      (py!"{indents i}  (scaleselection {o.scaleSelection.pyStr})\n") ++
      (py!"{indents i}  (outputdirectory \"{dq o.outputDirectory}\")\n")) ++ s) ⇛
      toksL ([.list [.str k!"mirror", .str (trueFalse o.mirror)]] ++
      [.list [.str k!"drillshape", o.drillShape.canon]] ++
      [.list [.str k!"scaleselection", o.scaleSelection.canon]] ++
      [.list [.str k!"outputdirectory", o.outputDirectory.canon]]) ++ t := by
  obtain ⟨h1, h2, h3, h4, h5, h6, h7, h8, h9, h10, h11, h12, h13⟩ := h
  lxNorm
  lxAuto

set_option maxRecDepth 4000 in
theorem PlotSettings.lexes [TextRule] {o : PlotSettings} (h : o.WF) (i nl) : Lexes (o.toSexpr i nl) [o.toVal] := by
  have e1 : (optSM o.dashedLineDashRatio fun t => do
      return py!"{indents i}  (dashed_line_dash_ratio {← floatFixed 6 t})\n") =
      .ok (optS o.dashedLineDashRatio fun t => py!"{indents i}  (dashed_line_dash_ratio {fmtFixedVal 6 t})\n") :=
    optSM_eq fun v hv => by rw [(h.dashedLineDashRatio v hv).floatFixed]; rfl
  have e2 : (optSM o.dashedLineGapRatio fun t => do
      return py!"{indents i}  (dashed_line_gap_ratio {← floatFixed 6 t})\n") =
      .ok (optS o.dashedLineGapRatio fun t => py!"{indents i}  (dashed_line_gap_ratio {fmtFixedVal 6 t})\n") :=
    optSM_eq fun v hv => by rw [(h.dashedLineGapRatio v hv).floatFixed]; rfl
  refine ⟨_, by rw [toSexpr, e1, e2, h.hpglPenDiameter.floatFixed]; rfl, fun s t hs => ?_⟩
  have h9 := lx_indents (n := i) (lx_cl (lx_endl (b := nl) hs))
  have h5 := PlotSettings.lx5 h (i := i) h9
  have h4 := PlotSettings.lx4 h (i := i) h5
  have h3 := PlotSettings.lx3 h (i := i) h4
  have h2 := PlotSettings.lx2 h (i := i) h3
  have h1 := PlotSettings.lx1 h (i := i) h2
  have h0 := PlotSettings.lx0 h (i := i) h1
  have h10 := lx_indents (n := i) (lx_op (lx_kw (k := k!"pcbplotparams") rfl rfl (lx_nl h0)))
  simp only [toVal, toks_list, toksL_append, toksL_cons, toksL_nil, List.append_assoc, List.cons_append, List.nil_append, List.append_nil] at h10 ⊢
  exact h10

theorem Segment.lx [TextRule] {o : Segment} (h : o.WF) {i nl s t} (hs : s ⇛ t) :
    (o.toSexpr i nl ++ s) ⇛ toks o.toVal ++ t := by
  obtain ⟨h1, h2, h3, h4, h5, h6⟩ := h
  simp only [toSexpr, toVal]
  lxNorm
  lxAuto

macro_rules | `(tactic| lxObj) => `(tactic| ((with_reducible refine Segment.lx ?_ ?_); (· wf)))

theorem Segment.from_toVal [TextRule] {o : Segment} (h : o.WF) : Segment.fromSexpr o.toVal = .ok (canon o) := by
  simp only [toVal, fromSexpr]
  foStart
  foSkip
  fldF locked
  fld start using Position.from_toValXY h.start rfl
  fld «end» using Position.from_toValXY h.«end» rfl
  fld width
  fld layer
  fld net
  fld tstamp
  rfl

seal Segment.fromSexpr

theorem Via.lx [TextRule] {o : Via} (h : o.WF) {i nl s t} (hs : s ⇛ t) :
    (o.toSexpr i nl ++ s) ⇛ toks o.toVal ++ t := by
  obtain ⟨h1, h2, h3, h4, h5, h6, h7⟩ := h
  have h0 : ∀ v, o.type = some v → TokOk v := by
    intro v hv
    rcases h1 v hv with rfl | rfl <;> refine ⟨by simp, ?_, TextRule.word_noQuote (by decide), rfl⟩ <;> decide
  simp only [toSexpr, toVal]
  lxNorm
  lxAuto

macro_rules | `(tactic| lxObj) => `(tactic| ((with_reducible refine Via.lx ?_ ?_); (· wf)))

theorem Via.from_toVal [TextRule] {o : Via} (h : o.WF) : Via.fromSexpr o.toVal = .ok (canon o) := by
  simp only [toVal, fromSexpr]
  foStart
  foSkip
  refine fo_opt (fun o v => { o with type := v }) canon (by rfl) (by intro a ha; rcases h.type a ha with rfl | rfl <;> rfl) ?_
  fldF locked
  fld position using Position.from_toValXY h.position rfl
  fld size
  fld drill
  fld layers
  fldF removeUnusedLayers
  fldF keepEndLayers
  fldF free
  fld net
  fldO tstamp
  rfl

seal Via.fromSexpr

theorem TraceArc.lx [TextRule] {o : TraceArc} (h : o.WF) {i nl s t} (hs : s ⇛ t) :
    (o.toSexpr i nl ++ s) ⇛ toks o.toVal ++ t := by
  obtain ⟨h1, h2, h3, h4, h5, h6, h7⟩ := h
  simp only [toSexpr, toVal]
  lxNorm
  lxAuto

macro_rules | `(tactic| lxObj) => `(tactic| ((with_reducible refine TraceArc.lx ?_ ?_); (· wf)))

theorem TraceArc.from_toVal [TextRule] {o : TraceArc} (h : o.WF) : TraceArc.fromSexpr o.toVal = .ok (canon o) := by
  simp only [toVal, fromSexpr]
  foStart
  foSkip
  fldF locked
  fld start using Position.from_toValXY h.start rfl
  fld mid using Position.from_toValXY h.mid rfl
  fld «end» using Position.from_toValXY h.«end» rfl
  fld width
  fld layer
  fld net
  fldO tstamp
  rfl

seal TraceArc.fromSexpr

theorem Target.lx [TextRule] {o : Target} (h : o.WF) {i nl s t} (hs : s ⇛ t) :
    (o.toSexpr i nl ++ s) ⇛ toks o.toVal ++ t := by
  obtain ⟨h1, h2, h3, h4, h5, h6⟩ := h
  simp only [toSexpr, toVal]
  lxNorm
  lxAuto

macro_rules | `(tactic| lxObj) => `(tactic| ((with_reducible refine Target.lx ?_ ?_); (· wf)))

theorem Target.from_toVal [TextRule] {o : Target} (h : o.WF) : Target.fromSexpr o.toVal = .ok (canon o) := by
  simp only [toVal, fromSexpr]
  foStart
  fld position using Position.from_toValXY h.position rfl
  fld size
  fld width
  fld layer
  fldR tstamp k!"tstamp" h.tstamp
  rfl

seal Target.fromSexpr

theorem SetupData.lexes [TextRule] {o : SetupData} (h : o.WF) (i nl) : Lexes (o.toSexpr i nl) [o.toVal] := by
  obtain ⟨h1, h2, h3, h4, h5, h6, h7, h8⟩ := h
  obtain ⟨x1, hx1, hy1⟩ := Lexes.optSM (f := fun a => PlotSettings.toSexpr a (i + 2)) (g := fun v => [v.toVal])
    fun a ha => PlotSettings.lexes (h8 a ha) (i + 2) true
  refine ⟨_, by rw [toSexpr, hx1]; rfl, fun s t hs => ?_⟩
  simp only [toVal]
  lxNorm
  lxAuto

theorem SetupData.from_toVal [TextRule] {o : SetupData} (h : o.WF) : SetupData.fromSexpr o.toVal = .ok (canon o.asRead) := by
  simp only [toVal, fromSexpr]
  foStart
  foSkip
  fldO stackup using (fun a ha => Stackup.from_toVal (h.stackup a ha))
  dsimp only
  fld packToMaskClearance
  dsimp only
  fldO solderMaskMinWidth
  dsimp only
  fldO padToPasteClearance
  dsimp only
  fldO padToPasteClearanceRatio
  dsimp only
  fldO auxAxisOrigin using (fun a ha => Position.from_toValXY (h.auxAxisOrigin a ha) rfl)
  dsimp only
  fldO gridOrigin using (fun a ha => Position.from_toValXY (h.gridOrigin a ha) rfl)
  dsimp only
  refine fo_optB (c := fun a => canon (PlotSettings.asRead a)) (fun o v => { o with plotSettings := v }) (fun a ha => PlotSettings.from_toVal (h.plotSettings a ha)) (by rfl) (by intro _; rfl) ?_
  rw [fo_end]
  refine congrArg Except.ok ?_
  dsimp only
  simp only [canon, asRead, Option.map_map]
  rfl

seal SetupData.fromSexpr

end Kiutils
