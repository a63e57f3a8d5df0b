import Verif.Format.Holes
import Verif.Proofs.Board
import Verif.Proofs.Stable
import Verif.Proofs.SameTree
/-!
# Round holes with an offset: proofs

The proofs of `Verif/Proofs/Footprint.lean` and `Verif/Proofs/Board.lean` once more, with the holes of `Verif/Format/Holes.lean`.
-/
namespace Kiutils

theorem DrillDefinition.Hole.lx [TextRule] {o : DrillDefinition} (h : o.Hole) {i nl s t} (hs : s ⇛ t) :
    (o.toSexpr i nl ++ s) ⇛ toks o.toVal ++ t := by
  obtain ⟨oval, diameter, width, offset⟩ := o
  obtain ⟨h1, h2, h3, h4⟩ := h
  simp only at h1 h2 h3 h4
  cases oval with
  | true =>
    obtain ⟨w, rfl, hw⟩ := h2 rfl
    simp only [toSexpr, toVal, ifS_true, ifL_true, optS_some, optL_some]
    lxNorm
    lxAuto
  | false =>
    obtain rfl := h3 rfl
    simp only [toSexpr, toVal, ifS_false, ifL_false, optL_none]
    lxNorm
    lxAuto

theorem DrillDefinition.Hole.from_toVal [TextRule] {o : DrillDefinition} (h : o.Hole) :
    DrillDefinition.fromSexpr o.toVal = .ok (canon o.loaded) := by
  by_cases hw : o.WF
  · rw [DrillDefinition.from_toVal hw]
    obtain ⟨oval, diameter, width, offset⟩ := o
    cases oval with
    | true => rfl
    | false => obtain ⟨h1, h2⟩ := hw.round rfl; cases h1; cases h2; rfl
  · obtain ⟨oval, diameter, width, offset⟩ := o
    obtain ⟨h1, h2, h3, h4⟩ := h
    simp only at h1 h2 h3 h4
    cases oval with
    | true => exact absurd ⟨h1, h2, nofun, h4⟩ hw
    | false =>
      obtain rfl := h3 rfl
      cases offset with
      | none => exact absurd ⟨h1, h2, fun _ => ⟨rfl, rfl⟩, h4⟩ hw
      | some p =>
        simp only [toVal, ifL_false, optL_none, optL_some, List.append_nil, List.cons_append, List.nil_append]
        rw [DrillDefinition.fromSexpr.eq_def]
        simp only [checkHead_ok, getI1, h1.not_is]
        foSkip
        refine fo_cons (DrillDefinition.step_num h1 _) ?_
        have hs : ∀ a, DrillDefinition.step a (p.toValXY k!"offset") =
            (Position.fromSexpr (p.toValXY k!"offset") >>= fun q => .ok { a with offset := some q }) := fun _ => rfl
        refine fo_cons (o' := { diameter := diameter.canon, width := some (p.toValXY k!"offset"), offset := some (canon p) }) ?_ rfl
        rw [hs, Position.from_toValXY (h4 p rfl) rfl]
        rfl

macro_rules | `(tactic| lxObj) => `(tactic| ((with_reducible refine DrillDefinition.Hole.lx ?_ ?_); (· wf)))

seal DrillDefinition.fromSexpr

theorem Pad.Holed.from_toVal [TextRule] {o : Pad} (h : o.Holed) : Pad.fromSexpr o.toVal = .ok (canon o.loaded) := by
  obtain ⟨h, hd⟩ := h
  simp only [toVal, fromSexpr]
  foStart
  refine fo_cons (step_shape h.shape h.shape_ne) ?_
  fldF locked
  dsimp only
  fld position using Position.from_toVal h.position rfl
  dsimp only
  fld size using Position.from_toValXY h.size rfl
  dsimp only
  fldO drill using (fun a ha => DrillDefinition.Hole.from_toVal (hd a ha))
  dsimp only
  fldO property
  dsimp only
  fld layers
  dsimp only
  fldF removeUnusedLayers
  dsimp only
  fldF keepEndLayers
  dsimp only
  fldO roundrectRatio
  dsimp only
  fldO chamferRatio
  dsimp only
  refine fo_ifScalars (fun p v => { p with chamfer := v }) rfl (by intro _; rfl) ?_
  dsimp only
  fldO dieLength
  dsimp only
  fldO net using (fun a _ => Net.from_toVal)
  dsimp only
  fldO pinFunction
  dsimp only
  fldO pinType
  dsimp only
  fldO solderMaskMargin
  dsimp only
  fldO solderPasteMargin
  dsimp only
  fldO solderPasteMarginRatio
  dsimp only
  fldO clearance
  dsimp only
  fldO zoneConnect
  dsimp only
  fldO thermalWidth
  dsimp only
  fldO thermalGap
  dsimp only
  fldO customPadOptions using (fun a ha => PadOptions.from_toVal (h.customPadOptions a ha))
  dsimp only
  refine fo_primitives (fun p v => { p with customPadPrimitives := v }) h.customPadPrimitives rfl (by intro _; rfl) ?_
  dsimp only
  fldO tstamp
  have e : (o.drill.map fun a => canon a.loaded) = canon (o.drill.map DrillDefinition.loaded) := by cases o.drill <;> rfl
  rw [e]
  rfl

seal Pad.fromSexpr

theorem Pad.Holed.lexes [TextRule] {o : Pad} (h : o.Holed) (i nl) : Lexes (o.toSexpr i nl) [o.toVal] := by
  obtain ⟨h, h6⟩ := h
  obtain ⟨h1, h2, h3, h4, h5, _, h7, h8, h9, h10, h11, h12, h13, h14, h15, h16, h17, h18, h19, h20, h21, h22, h23, h24, h25, h26⟩ := h
  dsimp only at h1 h2 h3 h4 h5 h7 h8 h9 h10 h11 h12 h13 h14 h15 h16 h17 h18 h19 h20 h21 h22 h23 h24 h25 h26
  obtain ⟨x1, hx1, hb1, hy1⟩ := lx_padLayers h8
  obtain ⟨x2, hx2, hy2⟩ := Lexes.forSM (f := fun p : GrItem => do return py!"\n{← p.toSexpr (i + 4) false false}") (g := GrItem.toVal)
    (xs := o.customPadPrimitives) fun a ha => by
      obtain ⟨x, hx, hy⟩ := GrItem.lexes (h24 a ha).1 (i + 4) false false
      exact ⟨'\n' :: x, by rw [hx]; rfl, fun s t hs => lx_nl (hy s t hs)⟩
  have hb2 : ∀ s, bareEnd (x2 ++ '\n' :: s) = true := bareEnd_forSM_nl hx2
  refine ⟨_, by rw [toSexpr, hx1, hx2]; rfl, fun s t hs => ?_⟩
  have hc : ∀ {s t}, s ⇛ t → (ifS (!o.chamfer.isEmpty || o.chamferRatio.isSome)
      py!"\n{indents i} {optS o.chamferRatio fun t => py!" (chamfer_ratio {t.pyStr})"}{ifS (!o.chamfer.isEmpty) (py!" (chamfer" ++ (forS o.chamfer fun c => py!" {c.pyStr}") ++ py!")")}" ++ s) ⇛
      toksL ((optL o.chamferRatio fun v => [.list [.str k!"chamfer_ratio", v.canon]]) ++
        ifL (!o.chamfer.isEmpty) [.list (.str k!"chamfer" :: o.chamfer.map Val.canon)]) ++ t := by
    refine lx_group ?_ ?_
    · cases o.chamfer <;> cases o.chamferRatio <;> simp [optL, ifL]
    · intro s t hs
      lxNorm
      lxAuto
  have hm : ∀ {s t}, s ⇛ t → (ifS (o.solderMaskMargin.isSome || o.solderPasteMargin.isSome || o.solderPasteMarginRatio.isSome ||
      o.clearance.isSome || o.zoneConnect.isSome || o.thermalWidth.isSome || o.thermalGap.isSome ||
      (o.net.isSome || o.pinFunction.isSome || o.pinType.isSome))
      py!"\n{indents i} {optS o.net fun n => py!" {n.toSexpr}"}{optS o.pinFunction fun t => py!" (pinfunction \"{dq t}\")"}{optS o.pinType fun t => py!" (pintype \"{dq t}\")"}{optS o.solderMaskMargin fun t => py!" (solder_mask_margin {t.pyStr})"}{optS o.solderPasteMargin fun t => py!" (solder_paste_margin {t.pyStr})"}{optS o.solderPasteMarginRatio fun t => py!" (solder_paste_margin_ratio {t.pyStr})"}{optS o.clearance fun t => py!" (clearance {t.pyStr})"}{optS o.zoneConnect fun t => py!" (zone_connect {t.pyStr})"}{optS o.thermalWidth fun t => py!" (thermal_width {t.pyStr})"}{optS o.thermalGap fun t => py!" (thermal_gap {t.pyStr})"}" ++ s) ⇛
      toksL ((optL o.net fun v => [v.toVal]) ++ (optL o.pinFunction fun v => [.list [.str k!"pinfunction", v.canon]]) ++
        (optL o.pinType fun v => [.list [.str k!"pintype", v.canon]]) ++
        (optL o.solderMaskMargin fun v => [.list [.str k!"solder_mask_margin", v.canon]]) ++
        (optL o.solderPasteMargin fun v => [.list [.str k!"solder_paste_margin", v.canon]]) ++
        (optL o.solderPasteMarginRatio fun v => [.list [.str k!"solder_paste_margin_ratio", v.canon]]) ++
        (optL o.clearance fun v => [.list [.str k!"clearance", v.canon]]) ++
        (optL o.zoneConnect fun v => [.list [.str k!"zone_connect", v.canon]]) ++
        (optL o.thermalWidth fun v => [.list [.str k!"thermal_width", v.canon]]) ++
        (optL o.thermalGap fun v => [.list [.str k!"thermal_gap", v.canon]])) ++ t := by
    refine lx_group ?_ ?_
    · intro hb
      simp only [Bool.or_eq_false_iff] at hb
      simp only [optL_isNone, hb, List.append_nil]
    · intro s t hs
      lxNorm
      lxAuto
  generalize ifS (!o.chamfer.isEmpty || o.chamferRatio.isSome) _ = L1 at hc ⊢
  generalize ifS (o.solderMaskMargin.isSome || _) _ = L2 at hm ⊢
  simp only [toVal]
  simp only [toks_list, List.append_assoc, List.cons_append, List.nil_append, toksL_cons, toksL_nil, toksL_append] at hc hm
  lxNorm
  lxAuto

theorem Footprint.Holed.step_pads [TextRule] {o : Footprint} {a : Pad} (h : a.Holed) :
    Footprint.step o a.toVal = .ok { o with pads := o.pads ++ [canon a.loaded] } := by
  have key : ∀ l, Footprint.step o (.list (.str k!"pad" :: l)) =
      (Pad.fromSexpr (.list (.str k!"pad" :: l)) >>= fun v => .ok { o with pads := o.pads ++ [v] }) := fun _ => rfl
  obtain ⟨l, e⟩ : ∃ l, a.toVal = .list (.str k!"pad" :: l) := by
    simp only [Pad.toVal, List.append_assoc, List.cons_append]
    exact ⟨_, rfl⟩
  have hf := Pad.Holed.from_toVal (o := a) h
  rw [e] at hf ⊢
  rw [key, hf]
  rfl

theorem Footprint.Holed.from_toVal [TextRule] {o : Footprint} (h : o.Holed) (tedit : Val) :
    Footprint.fromSexpr tedit o.toVal = .ok (canon o.loaded) := by
  obtain ⟨h, hp⟩ := h
  simp only [toVal, List.append_assoc, List.cons_append, List.nil_append]
  simp only [fromSexpr]
  refine (if_pos rfl).trans ?_
  rw [Footprint.set_get (o := o) h.id]
  foStart
  fldF locked
  dsimp only
  fldF placed
  dsimp only
  fldO version
  dsimp only
  fldO generator
  dsimp only
  fld layer
  dsimp only
  fld tedit
  dsimp only
  fldO tstamp
  dsimp only
  fldO position using (fun a ha => Position.from_toVal (h.position a ha) rfl)
  dsimp only
  fldO description
  dsimp only
  fldO tags
  dsimp only
  refine fo_list_pre (fun p v => { p with properties := v }) canon rfl (fun pre a post hl => (Footprint.step_property _ _ _).trans (by rw [Dict.update_distinct h.propertyNames h.distinct hl]; rfl)) ?_
  dsimp only
  fldO path
  dsimp only
  fldO autoplaceCost90
  dsimp only
  fldO autoplaceCost180
  dsimp only
  fldO solderMaskMargin
  dsimp only
  fldO solderPasteMargin
  dsimp only
  fldO solderPasteRatio
  dsimp only
  fldO clearance
  dsimp only
  fldO zoneConnect
  dsimp only
  fldO thermalWidth
  dsimp only
  fldO thermalGap
  dsimp only
  refine fo_attributes (fun p v => { p with attributes := v }) h.attributes rfl rfl ?_
  dsimp only
  refine fo_ifScalars (fun p v => { p with privateLayers := v }) rfl (by intro _; rfl) ?_
  dsimp only
  refine fo_ifScalars (fun p v => { p with netTiePadGroups := v }) rfl (by intro _; rfl) ?_
  dsimp only
  refine fo_list (fun o v => { o with graphicItems := v }) canon rfl (fun pre a ha => step_graphicItems (h.graphicItems a ha)) ?_
  dsimp only
  refine fo_list (fun o v => { o with pads := v }) (fun a => canon a.loaded) rfl (fun pre a ha => Holed.step_pads (hp a ha)) ?_
  dsimp only
  refine fo_list (fun o v => { o with zones := v }) canon rfl (fun pre a ha => step_zones (h.zones a ha)) ?_
  dsimp only
  refine fo_list (fun o v => { o with models := v }) canon rfl (fun pre a ha => step_models (h.models a ha)) ?_
  dsimp only
  refine fo_list (fun o v => { o with groups := v }) canon rfl (fun pre a ha => step_groups (h.groups a ha)) ?_
  rw [fo_end]
  refine congrArg Except.ok ?_
  dsimp only
  simp only [canon, loaded, List.map_map]
  rfl

seal Footprint.fromSexpr

theorem Footprint.Holed.lexes [TextRule] {o : Footprint} (h : o.Holed) (i nl lf) : Lexes (o.toSexpr i nl lf) [o.toVal] := by
  obtain ⟨h, h27⟩ := h
  obtain ⟨h1, h2, h3, h4, h5, h6, h7, h8, h9, h10, h11, h12, h13, h14, h15, h16, h17, h18, h19, h20, h21, h22, h23, h24, h25, h26, _, h28, h29, h30⟩ := h
  dsimp only at h1 h2 h3 h4 h5 h6 h7 h8 h9 h10 h11 h12 h13 h14 h15 h16 h17 h18 h19 h20 h21 h22 h23 h24 h25 h26 h28 h29 h30
  obtain ⟨x1, hx1, hy1⟩ := Lexes.forSM (f := fun a => FpItem.toSexpr a (i + 2)) fun a ha => FpItem.lexes (h26 a ha) (i + 2)
  obtain ⟨x2, hx2, hy2⟩ := Lexes.forSM (f := fun a => Pad.toSexpr a (i + 2)) fun a ha => Pad.Holed.lexes (h27 a ha) (i + 2) true
  obtain ⟨x3, hx3, hy3⟩ := Lexes.forSM (f := fun a => Zone.toSexpr a (i + 2)) fun a ha => Zone.lexes (h28 a ha) (i + 2) true
  refine ⟨_, by rw [toSexpr, hx1, hx2, hx3]; rfl, fun s t hs => ?_⟩
  have hid : ∀ {s t}, sqEnd s = true → s ⇛ t → ('"' :: (dequote o.libId ++ '"' :: s)) ⇛ toks (.str o.libId) ++ t :=
    fun hd hs => lx_text (v := .str o.libId) (Footprint.text (o := o) h1) hd hs
  have hl : ∀ {s t}, s ⇛ t → ((if lf then py!" (layer \"{dq o.layer}\")\n" else py!"\n{indents i}  (layer \"{dq o.layer}\")\n") ++ s) ⇛
      toks (.list [.str k!"layer", o.layer.canon]) ++ t := by
    intro s t hs
    cases lf <;> simp only [Bool.false_eq_true, if_false, if_true] <;> lxNorm <;> lxAuto
  have hb : ∀ s, bareEnd ((if lf then py!" (layer \"{dq o.layer}\")\n" else py!"\n{indents i}  (layer \"{dq o.layer}\")\n") ++ s) = true := by
    intro s
    cases lf <;> rfl
  have hq : ∀ s, sqEnd ((if lf then py!" (layer \"{dq o.layer}\")\n" else py!"\n{indents i}  (layer \"{dq o.layer}\")\n") ++ s) = true := by
    intro s
    cases lf <;> rfl
  generalize (if lf then py!" (layer \"{dq o.layer}\")\n" else py!"\n{indents i}  (layer \"{dq o.layer}\")\n") = L at hl hb hq ⊢
  simp only [toVal]
  simp only [toks_list, List.append_assoc, List.cons_append, List.nil_append, toksL_cons, toksL_nil, toksL_append] at hl
  lxNorm
  lxAuto
  delim

theorem Board.Holed.step_footprints [TextRule] {tedit : Val} {o : Board} {a : Footprint} (h : a.Holed) :
    Board.step tedit o a.toVal = .ok { o with footprints := o.footprints ++ [canon a.loaded] } := by
  have key : ∀ l, Board.step tedit o (.list (.str k!"footprint" :: l)) =
      (Footprint.fromSexpr tedit (.list (.str k!"footprint" :: l)) >>= fun v => .ok { o with footprints := o.footprints ++ [v] }) := fun _ => rfl
  obtain ⟨l, e⟩ : ∃ l, a.toVal = .list (.str k!"footprint" :: l) := by
    simp only [Footprint.toVal, List.append_assoc, List.cons_append]
    exact ⟨_, rfl⟩
  have hf := Footprint.Holed.from_toVal (o := a) h tedit
  rw [e] at hf ⊢
  rw [key, hf]
  rfl

theorem Board.Holed.from_toVal [TextRule] {o : Board} (h : o.Holed) (tedit : Val) : Board.fromSexpr tedit o.toVal = .ok (canon o.loaded) := by
  obtain ⟨h, hf⟩ := h
  simp only [toVal, fromSexpr]
  foStart
  foSkip
  fld version
  dsimp only
  fld generator
  dsimp only
  fld general using GeneralSettings.from_toVal h.general
  dsimp only
  fld paper using PageSettings.from_toVal h.paper
  dsimp only
  fldO titleBlock using (fun a ha => TitleBlock.from_toVal (h.titleBlock a ha))
  dsimp only
  refine fo_map (fun o v => { o with layers := v }) (fun _ _ => LayerToken.from_toVal) (by intro _; rfl) ?_
  dsimp only
  fld setup using SetupData.from_toVal h.setup
  dsimp only
  refine fo_list_pre (fun p v => { p with properties := v }) canon rfl (fun pre a post hl => (Board.step_property _ _ _).trans (by rw [Dict.update_distinct h.propertyNames h.distinct hl]; rfl)) ?_
  dsimp only
  refine fo_list (fun o v => { o with nets := v }) canon rfl (fun pre a ha => step_nets (h.nets a ha)) ?_
  dsimp only
  refine fo_list (fun o v => { o with footprints := v }) (fun a => canon a.loaded) rfl (fun pre a ha => Holed.step_footprints (hf a ha)) ?_
  dsimp only
  refine fo_list (fun o v => { o with graphicItems := v }) canon rfl (fun pre a ha => step_graphicItems (h.graphicItems a ha)) ?_
  dsimp only
  refine fo_list (fun o v => { o with dimensions := v }) canon rfl (fun pre a ha => step_dimensions (h.dimensions a ha)) ?_
  dsimp only
  refine fo_list (fun o v => { o with targets := v }) canon rfl (fun pre a ha => step_targets (h.targets a ha)) ?_
  dsimp only
  refine fo_list (fun o v => { o with traceItems := v }) canon rfl (fun pre a ha => step_traceItems (h.traceItems a ha)) ?_
  dsimp only
  refine fo_list (fun o v => { o with zones := v }) canon rfl (fun pre a ha => step_zones (h.zones a ha)) ?_
  dsimp only
  refine fo_list (fun o v => { o with groups := v }) canon rfl (fun pre a ha => step_groups (h.groups a ha)) ?_
  rw [fo_end]
  refine congrArg Except.ok ?_
  dsimp only
  simp only [canon, loaded, List.map_map]
  rfl

theorem Board.Holed.lexes [TextRule] {o : Board} (h : o.Holed) (i nl) : Lexes (o.toSexpr i nl) [o.toVal] := by
  obtain ⟨h, h12⟩ := h
  obtain ⟨h1, h2, h3, h4, h5, h6, h7, h8, h9, h10, h11, _, h13, h14, h15, h16, h17, h18⟩ := h
  dsimp only at h1 h2 h3 h4 h5 h6 h7 h8 h9 h10 h11 h13 h14 h15 h16 h17 h18
  obtain ⟨x1, hx1, hy1⟩ := PageSettings.lx h4 (i + 2) true
  obtain ⟨x6, hx6, hy6⟩ := SetupData.lexes h7 (i + 2) true
  obtain ⟨x2, hx2, hy2⟩ := Lexes.forSM (f := fun f : Footprint => do return py!"{← f.toSexpr (i + 2) true true}\n") (g := Footprint.toVal)
    (xs := o.footprints) fun a ha => by
      obtain ⟨x, hx, hy⟩ := Footprint.Holed.lexes (h12 a ha) (i + 2) true true
      exact ⟨x ++ ['\n'], by rw [hx]; rfl, fun s t hs => by rw [List.append_assoc]; exact hy _ _ (lx_nl hs)⟩
  obtain ⟨x3, hx3, hy3⟩ := Lexes.forSM (f := fun a => GrItem.toSexpr a (i + 2) true true) fun a ha =>
    GrItem.lexes (h13 a ha) (i + 2) true true
  obtain ⟨x4, hx4, hy4⟩ := Lexes.forSM (f := fun a => Dimension.toSexpr a (i + 2)) fun a ha => Dimension.lexes (h14 a ha) (i + 2) true
  obtain ⟨x5, hx5, hy5⟩ := Lexes.forSM (f := fun a => Zone.toSexpr a (i + 2)) fun a ha => Zone.lexes (h17 a ha) (i + 2) true
  refine ⟨_, by rw [toSexpr, hx1, hx6, hx2, hx3, hx4, hx5]; rfl, fun s t hs => ?_⟩
  have hl1 : ∀ {s t}, s ⇛ t →
      (ifS (!o.properties.isEmpty) ((forS o.properties fun p => py!"  (property \"{dq p.1}\" \"{dq p.2}\")\n") ++ py!"\n") ++ s) ⇛
        toksL (o.properties.map fun p => .list [.str k!"property", p.1.canon, p.2.canon]) ++ t := fun hs =>
    lx_ifFor hs fun a ha s t hs => by
      have := h8 a ha
      have := h9 a ha
      lxNorm
      lxAuto
  have hl2 : ∀ {s t}, s ⇛ t → (ifS (!o.nets.isEmpty) ((forS o.nets fun n => n.toSexpr (i + 2) true) ++ py!"\n") ++ s) ⇛
      toksL (o.nets.map Net.toVal) ++ t := fun hs => lx_ifFor hs fun a ha s t hs => Net.lx (h11 a ha) hs
  have hl3 : ∀ {s t}, s ⇛ t → (ifS (!o.traceItems.isEmpty) ((forS o.traceItems fun t => t.toSexpr (i + 2)) ++ py!"\n") ++ s) ⇛
      toksL (o.traceItems.map TraceItem.toVal) ++ t := fun hs => lx_ifFor hs fun a ha s t hs => TraceItem.lx (h16 a ha) hs
  have hl4 : ∀ {b : Bool} {s t}, s ⇛ t → (ifS b py!"\n" ++ s) ⇛ t := by
    intro b s t hs
    cases b
    · exact hs
    · exact lx_nl hs
  generalize ifS (!o.properties.isEmpty) _ = L1 at hl1 ⊢
  generalize ifS (!o.nets.isEmpty) _ = L2 at hl2 ⊢
  generalize ifS (!o.traceItems.isEmpty) _ = L3 at hl3 ⊢
  replace hl4 := @hl4 (!o.graphicItems.isEmpty || !o.dimensions.isEmpty || !o.targets.isEmpty)
  generalize ifS (!o.graphicItems.isEmpty || !o.dimensions.isEmpty || !o.targets.isEmpty) _ = L4 at hl4 ⊢
  simp only [toVal]
  simp only [toks_list, List.append_assoc, List.cons_append, List.nil_append, toksL_cons, toksL_nil, toksL_append] at hy1 hy6
  lxNorm
  lxAuto

/-! ## Saving what was loaded -/

theorem DrillDefinition.loaded_toSexpr (o : DrillDefinition) (i nl) : o.loaded.toSexpr i nl = o.toSexpr i nl := by
  obtain ⟨oval, diameter, width, offset⟩ := o
  cases oval <;> rfl

theorem DrillDefinition.loaded_canon (o : DrillDefinition) : canon o.loaded = (canon o).loaded := by
  obtain ⟨oval, diameter, width, offset⟩ := o
  cases oval with
  | true => rfl
  | false =>
    cases offset with
    | none => rfl
    | some p =>
      have hx : Val.canon (Val.canon p.X) = Val.canon p.X := canon_canon _
      have hy : Val.canon (Val.canon p.Y) = Val.canon p.Y := canon_canon _
      show DrillDefinition.mk false _ (some (.list [.str k!"offset", Val.canon p.X, Val.canon p.Y])) _ =
        DrillDefinition.mk false _ (some (.list [.str k!"offset", Val.canon (Val.canon p.X), Val.canon (Val.canon p.Y)])) _
      rw [hx, hy]
      rfl

theorem Pad.loaded_toSexpr (o : Pad) (i nl) : o.loaded.toSexpr i nl = o.toSexpr i nl := by
  have e : ∀ f : Str → Str, optS (o.drill.map DrillDefinition.loaded) (fun d => f (d.toSexpr)) = optS o.drill (fun d => f (d.toSexpr)) := by
    intro f
    cases o.drill with
    | none => rfl
    | some d => exact congrArg f (DrillDefinition.loaded_toSexpr d _ _)
  unfold Pad.toSexpr
  simp only [Pad.loaded]
  rw [e (fun x => ' ' :: x)]

theorem Pad.loaded_canon (o : Pad) : canon o.loaded = (canon o).loaded := by
  have e : canon (o.drill.map DrillDefinition.loaded) = (canon o.drill).map DrillDefinition.loaded := by
    cases o.drill with
    | none => rfl
    | some d => exact congrArg some (DrillDefinition.loaded_canon d)
  show ({ canon o with drill := canon (o.drill.map DrillDefinition.loaded) } : Pad) = _
  rw [e]
  rfl

theorem forSM_loaded {α : Type} {f g : α → PyM Str} {m : α → α} (h : ∀ a, f (m a) = g a) (l : List α) : forSM (l.map m) f = forSM l g := by
  induction l with
  | nil => rfl
  | cons a l ih => simp only [List.map_cons, forSM, h, ih]

theorem Footprint.loaded_toSexpr (o : Footprint) (i nl lf) : o.loaded.toSexpr i nl lf = o.toSexpr i nl lf := by
  have e : forSM (o.pads.map Pad.loaded) (fun a => Pad.toSexpr a (i + 2)) = forSM o.pads (fun a => Pad.toSexpr a (i + 2)) :=
    forSM_loaded (fun a => Pad.loaded_toSexpr a _ _) _
  unfold Footprint.toSexpr
  simp only [Footprint.loaded]
  rw [e]
  rfl

theorem map_loaded {α : Type} [Canon α] {m : α → α} (h : ∀ a, canon (m a) = m (canon a)) (l : List α) : canon (l.map m) = (canon l).map m := by
  show (l.map m).map canon = (l.map canon).map m
  rw [List.map_map, List.map_map]
  exact List.map_congr_left fun a _ => h a

theorem Footprint.loaded_canon (o : Footprint) : canon o.loaded = (canon o).loaded := by
  show ({ canon o with pads := canon (o.pads.map Pad.loaded), filePath := none } : Footprint) = _
  rw [map_loaded Pad.loaded_canon]
  rfl

theorem Board.loaded_toSexpr (o : Board) (i nl) : o.loaded.toSexpr i nl = ({ o with setup := o.setup.asRead } : Board).toSexpr i nl := by
  have e : forSM (o.footprints.map Footprint.loaded) (fun f : Footprint => do return py!"{← f.toSexpr (i + 2) true true}\n") =
      forSM o.footprints (fun f : Footprint => do return py!"{← f.toSexpr (i + 2) true true}\n") :=
    forSM_loaded (fun a => by rw [Footprint.loaded_toSexpr]) _
  unfold Board.toSexpr
  simp only [Board.loaded]
  rw [e]

/-! ## The conditions after loading -/

theorem DrillDefinition.Hole.stable [TextRule] {o : DrillDefinition} (h : o.Hole) : (canon o).Hole where
  diameter := Stable.keep h.diameter
  oval := fun hr => by
    obtain ⟨w, hw, hn⟩ := h.oval hr
    refine ⟨canon w, ?_, Stable.keep hn⟩
    show canon o.width = _
    rw [hw]
    rfl
  round := fun hr => Stable.none (h.round hr)
  offset := fun v hv => by
    cases ho : o.offset with
    | none => have : canon o.offset = some v := hv; rw [ho] at this; cases this
    | some p =>
      have : canon o.offset = some v := hv
      rw [ho] at this
      cases this
      exact Stable.keep (h.offset p ho)

theorem Pad.Holed.stable [TextRule] {o : Pad} (h : o.Holed) : (canon o).Holed where
  rest := Stable.keep h.rest
  drill := fun d hd => by
    have hd : canon o.drill = some d := hd
    cases ho : o.drill with
    | none => rw [ho] at hd; cases hd
    | some p => rw [ho] at hd; cases hd; exact (h.drill p ho).stable

theorem Footprint.Holed.stable [TextRule] {o : Footprint} (h : o.Holed) : (canon o).Holed where
  rest := Stable.keep h.rest
  pads := fun p hp => by
    obtain ⟨a, ha, rfl⟩ := List.mem_map.1 (show p ∈ o.pads.map canon from hp)
    exact (h.pads a ha).stable

theorem Board.Holed.stable [TextRule] {o : Board} (h : o.Holed) : (canon o).Holed where
  rest := Stable.keep h.rest
  footprints := fun p hp => by
    obtain ⟨a, ha, rfl⟩ := List.mem_map.1 (show p ∈ o.footprints.map canon from hp)
    exact (h.footprints a ha).stable

/-! ## The tree after loading -/

theorem Footprint.Holed.toVal_canon [TextRule] {o : Footprint} (h : o.Holed) : Footprint.toVal (canon o) = Footprint.toVal o := by
  obtain ⟨h1, h2⟩ := SchIdOk.tree h.rest.id
  dsimp only at h1 h2
  simp only [Footprint.toVal, Footprint.libId, Footprint.libraryNickname_canon, Footprint.entryName_canon]
  rw [h1, h2]
  simp only [sametree]

theorem Board.Holed.toVal_canon [TextRule] {o : Board} (h : o.Holed) : Board.toVal (canon o) = Board.toVal o := by
  simp only [Board.toVal, Board.footprints_canon]
  rw [tree_map_of fun a ha => (h.footprints a ha).toVal_canon]
  simp only [sametree]

end Kiutils
