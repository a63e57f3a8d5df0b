import Verif.Format.Footprint
import Verif.Proofs.GrItems
import Verif.Proofs.FpItems
import Verif.Proofs.Zones
import Verif.Proofs.SchItems
/-!
# Footprints: the text denotes `toVal`, `from_sexpr` reads `toVal`
-/
namespace Kiutils

seal Position.fromSexpr Coordinate.fromSexpr Net.fromSexpr Image.fromSexpr Group.fromSexpr GrText.fromSexpr GrTextBox.fromSexpr GrLine.fromSexpr GrRect.fromSexpr GrCircle.fromSexpr GrArc.fromSexpr GrPoly.fromSexpr GrCurve.fromSexpr FpText.fromSexpr FpTextBox.fromSexpr FpLine.fromSexpr FpRect.fromSexpr FpCircle.fromSexpr FpArc.fromSexpr FpPoly.fromSexpr FpCurve.fromSexpr Zone.fromSexpr

theorem Attributes.lx [TextRule] {o : Attributes} (h : o.WF) {i nl s t} (hs : s ⇛ t) :
    (o.toSexpr i nl ++ s) ⇛ toksL (ifL (!o.isDefault) [o.toVal]) ++ t := by
  obtain ⟨h1⟩ := h
  cases hd : o.isDefault with
  | true => simpa only [toSexpr, hd, if_true, Bool.not_true, ifL_false, toksL_nil, List.nil_append] using hs
  | false =>
    have h2 : ∀ v, o.type = some v → TokOk v := by
      intro v hv
      rcases h1 v hv with rfl | rfl <;> refine ⟨by simp, ?_, TextRule.word_noQuote (by decide), rfl⟩ <;> decide
    simp only [toSexpr, hd, Bool.false_eq_true, if_false, Bool.not_false, ifL_true, toVal]
    lxNorm
    lxAuto

macro_rules | `(tactic| lxObj) => `(tactic| ((with_reducible refine Attributes.lx ?_ ?_); (· wf)))

theorem Attributes.from_toVal [TextRule] {o : Attributes} (h : o.WF) : Attributes.fromSexpr o.toVal = .ok (canon o) := by
  obtain ⟨type, b1, b2, b3, b4⟩ := o
  obtain ⟨h⟩ := h
  cases type with
  | none => cases b1 <;> cases b2 <;> cases b3 <;> cases b4 <;> rfl
  | some v => rcases h v rfl with rfl | rfl <;> cases b1 <;> cases b2 <;> cases b3 <;> cases b4 <;> rfl

theorem Attributes.canon_default {o : Attributes} (h : o.isDefault = true) : canon o = {} := by
  obtain ⟨type, b1, b2, b3, b4⟩ := o
  cases type with
  | none => cases b1 <;> cases b2 <;> cases b3 <;> cases b4 <;> first | rfl | exact absurd h Bool.false_ne_true
  | some v => exact absurd h Bool.false_ne_true

seal Attributes.fromSexpr

theorem Model.lx [TextRule] {o : Model} (h : o.WF) {i nl s t} (hs : s ⇛ t) :
    (o.toSexpr i nl ++ s) ⇛ toks o.toVal ++ t := by
  obtain ⟨h1, h2, h3, h4, h5⟩ := h
  simp only [toSexpr, toVal]
  lxNorm
  lxAuto

macro_rules | `(tactic| lxObj) => `(tactic| ((with_reducible refine Model.lx ?_ ?_); (· wf)))

theorem Model.from_loop [TextRule] {o o1 : Model} (h : o.WF) (h1 : o1 = { path := o.path.canon, hide := o.hide }) :
    forM Model.step o1 ((optL o.opacity fun v => [.list [.str k!"opacity", v.canon]]) ++
    [.list [.str k!"offset", o.pos.toVal], .list [.str k!"scale", o.scale.toVal], .list [.str k!"rotate", o.rotate.toVal]]) =
    .ok (canon o) := by
  subst h1
  foStart
  fldO opacity
  fld pos using Coordinate.from_toVal (o := o.pos)
  fld scale using Coordinate.from_toVal (o := o.scale)
  fld rotate using Coordinate.from_toVal (o := o.rotate)
  rfl

theorem Model.from_toVal [TextRule] {o : Model} (h : o.WF) : Model.fromSexpr o.toVal = .ok (canon o) := by
  cases hh : o.hide with
  | true =>
    have := Model.from_loop h (o1 := { path := o.path.canon, hide := true }) (by rw [hh])
    rw [← this]
    simp only [toVal, hh, ifL_true]
    cases ho : o.opacity <;> rfl
  | false =>
    have := Model.from_loop h (o1 := { path := o.path.canon }) (by rw [hh])
    rw [← this]
    simp only [toVal, hh, ifL_false]
    cases ho : o.opacity <;> rfl

seal Model.fromSexpr

theorem NumOk.not_oval {v : Val} (h : NumOk v) : v.canon.is k!"oval" = false := h.not_is _

theorem DrillDefinition.step_num {v : Val} (h : NumOk v) (o : DrillDefinition) : DrillDefinition.step o v.canon = .ok o := by
  cases v with
  | int n => rfl
  | flt f =>
    simp only [Val.canon]
    split <;> rfl
  | str s => exact False.elim h
  | list l => exact False.elim h

theorem DrillDefinition.lx [TextRule] {o : DrillDefinition} (h : o.WF) {i nl s t} (hs : s ⇛ t) :
    (o.toSexpr i nl ++ s) ⇛ toks o.toVal ++ t := by
  obtain ⟨oval, diameter, width, offset⟩ := o
  obtain ⟨h1, h2, h3, h4⟩ := h
  simp only at h1 h2 h3 h4
  cases oval with
  | true =>
    obtain ⟨w, rfl, hw⟩ := h2 rfl
    simp only [toSexpr, toVal, ifS_true, ifL_true, optS_some, optL_some]
    lxNorm
    lxAuto
  | false =>
    obtain ⟨rfl, rfl⟩ := h3 rfl
    simp only [toSexpr, toVal, ifS_false, ifL_false, optS_none, optL_none]
    lxNorm
    lxAuto

macro_rules | `(tactic| lxObj) => `(tactic| ((with_reducible refine DrillDefinition.lx ?_ ?_); (· wf)))

theorem DrillDefinition.from_toVal [TextRule] {o : DrillDefinition} (h : o.WF) : DrillDefinition.fromSexpr o.toVal = .ok (canon o) := by
  obtain ⟨oval, diameter, width, offset⟩ := o
  obtain ⟨h1, h2, h3, h4⟩ := h
  simp only at h1 h2 h3 h4
  cases oval with
  | true =>
    obtain ⟨w, rfl, hw⟩ := h2 rfl
    simp only [toVal, fromSexpr, ifL_true, optL_some]
    simp only [List.append_assoc, List.cons_append, List.nil_append, checkHead_ok, getI1, getI2, getI3]
    refine (if_pos rfl).trans ?_
    apply fo_start
    simp only [List.append_assoc, List.cons_append, List.nil_append]
    foSkip
    foSkip
    refine fo_cons (step_num h1 _) ?_
    refine fo_cons (step_num hw _) ?_
    fldO offset using (fun a ha => Position.from_toValXY (h4 a ha) rfl)
    rfl
  | false =>
    obtain ⟨rfl, rfl⟩ := h3 rfl
    simp only [toVal, fromSexpr, ifL_false, optL_none]
    simp only [List.append_assoc, List.cons_append, List.nil_append, checkHead_ok, getI1, h1.not_is]
    foSkip
    refine fo_cons (step_num h1 _) ?_
    rfl

seal DrillDefinition.fromSexpr

theorem PadOptions.lx [TextRule] {o : PadOptions} (h : o.WF) {i nl s t} (hs : s ⇛ t) :
    (o.toSexpr i nl ++ s) ⇛ toks o.toVal ++ t := by
  obtain ⟨h1, h2⟩ := h
  simp only [toSexpr, toVal]
  lxNorm
  lxAuto

macro_rules | `(tactic| lxObj) => `(tactic| ((with_reducible refine PadOptions.lx ?_ ?_); (· wf)))

theorem PadOptions.from_toVal [TextRule] {o : PadOptions} (h : o.WF) : PadOptions.fromSexpr o.toVal = .ok (canon o) := by
  simp only [toVal, fromSexpr]
  foStart
  foSkip
  fld clearance
  fld anchor
  rfl

seal PadOptions.fromSexpr

theorem padPrimitive_toVal [TextRule] {l : List GrItem} {a : GrItem} (h : a.WF) (hn : a.NotImage) :
    padPrimitive l a.toVal = .ok (l ++ [canon a]) := by
  cases a with
  | text a =>
    refine eq_bind (b := canon a) (fun v : GrText => l ++ [GrItem.text v]) (GrText.from_toVal (o := a) h) ?_
    rfl
  | textBox a =>
    refine eq_bind (b := canon a) (fun v : GrTextBox => l ++ [GrItem.textBox v]) (GrTextBox.from_toVal (o := a) h) ?_
    rfl
  | line a =>
    refine eq_bind (b := canon a) (fun v : GrLine => l ++ [GrItem.line v]) (GrLine.from_toVal (o := a) h) ?_
    rfl
  | rect a =>
    refine eq_bind (b := canon a) (fun v : GrRect => l ++ [GrItem.rect v]) (GrRect.from_toVal (o := a) h) ?_
    rfl
  | circle a =>
    refine eq_bind (b := canon a) (fun v : GrCircle => l ++ [GrItem.circle v]) (GrCircle.from_toVal (o := a) h) ?_
    rfl
  | arc a =>
    refine eq_bind (b := canon a) (fun v : GrArc => l ++ [GrItem.arc v]) (GrArc.from_toVal (o := a) h) ?_
    rfl
  | poly a =>
    refine eq_bind (b := canon a) (fun v : GrPoly => l ++ [GrItem.poly v]) (GrPoly.from_toVal (o := a) h) ?_
    rfl
  | curve a =>
    refine eq_bind (b := canon a) (fun v : GrCurve => l ++ [GrItem.curve v]) (GrCurve.from_toVal (o := a) h) ?_
    rfl
  | image a => exact False.elim hn

theorem fo_primitives [TextRule] {σ : Type} {step : σ → Val → PyM σ} {o : σ} {xs : List Val} {r : PyM σ} (f : σ → List GrItem → σ)
    {l : List GrItem} {key : Str} (h : ∀ v ∈ l, v.WF ∧ v.NotImage) (h0 : f o [] = o)
    (h1 : ∀ vs, step o (.list (.str key :: vs)) = (forM padPrimitive [] vs >>= fun v => .ok (f o v)))
    (hs : forM step (f o (l.map canon)) xs = r) :
    forM step o (ifL (!l.isEmpty) [.list (.str key :: l.map GrItem.toVal)] ++ xs) = r := by
  have e : forM padPrimitive [] (l.map GrItem.toVal) = .ok (l.map canon) := by
    apply fo_start
    refine fo_list (fun _ v => v) canon rfl (fun pre a ha => padPrimitive_toVal (h a ha).1 (h a ha).2) ?_
    rfl
  cases l with
  | nil => simp only [List.map_nil, h0] at hs; exact hs
  | cons a l =>
    refine fo_cons ?_ hs
    rw [h1, e]
    rfl

/-- The loop of a pad sees the shape as well; it must not be the word `locked`. -/
theorem Pad.step_shape [TextRule] {o : Pad} {v : Val} (h : TokOk v) (h' : v ≠ .str k!"locked") : Pad.step o v.canon = .ok o := by
  cases v with
  | str s =>
    cases s with
    | nil => exact absurd rfl h.1
    | cons c s =>
      have : (Val.str (c :: s)).is k!"locked" = false := by
        simpa [Val.is] using h'
      simp only [Pad.step, Val.canon, this, Bool.false_eq_true, if_false]
      refine bind_ok (a := .str [c]) rfl ?_
      simp only [char_is, Bool.false_eq_true, if_false]
      rfl
  | _ => exact False.elim h

theorem Pad.from_toVal [TextRule] {o : Pad} (h : o.WF) : Pad.fromSexpr o.toVal = .ok (canon o) := by
  simp only [toVal, fromSexpr]
  foStart
  refine fo_cons (step_shape h.shape h.shape_ne) ?_
  fldF locked
  dsimp only
  fld position using Position.from_toVal h.position rfl
  dsimp only
  fld size using Position.from_toValXY h.size rfl
  dsimp only
  fldO drill using (fun a ha => DrillDefinition.from_toVal (h.drill a ha))
  dsimp only
  fldO property
  dsimp only
  fld layers
  dsimp only
  fldF removeUnusedLayers
  dsimp only
  fldF keepEndLayers
  dsimp only
  fldO roundrectRatio
  dsimp only
  fldO chamferRatio
  dsimp only
  refine fo_ifScalars (fun p v => { p with chamfer := v }) rfl (by intro _; rfl) ?_
  dsimp only
  fldO dieLength
  dsimp only
  fldO net using (fun a _ => Net.from_toVal)
  dsimp only
  fldO pinFunction
  dsimp only
  fldO pinType
  dsimp only
  fldO solderMaskMargin
  dsimp only
  fldO solderPasteMargin
  dsimp only
  fldO solderPasteMarginRatio
  dsimp only
  fldO clearance
  dsimp only
  fldO zoneConnect
  dsimp only
  fldO thermalWidth
  dsimp only
  fldO thermalGap
  dsimp only
  fldO customPadOptions using (fun a ha => PadOptions.from_toVal (h.customPadOptions a ha))
  dsimp only
  refine fo_primitives (fun p v => { p with customPadPrimitives := v }) h.customPadPrimitives rfl (by intro _; rfl) ?_
  dsimp only
  fldO tstamp
  rfl

seal Pad.fromSexpr

theorem optL_isNone {α : Type} {x : Option α} {g : α → List Val} (h : x.isSome = false) : optL x g = [] := by
  cases x with
  | none => rfl
  | some a => exact absurd h.symm Bool.false_ne_true

theorem lx_padLayers [TextRule] {l : List Val} (h : ∀ v ∈ l, PadLayerOk v) : ∃ x, forSM l padLayer = .ok x ∧ (∀ s, bareEnd (x ++ ')' :: s) = true) ∧
    ∀ s t, (')' :: s) ⇛ t → (x ++ ')' :: s) ⇛ toksL (l.map Val.canon) ++ t := by
  have key : ∃ x, forSM l padLayer = .ok x ∧ (∀ s, numEnd (x ++ ')' :: s) = true) ∧
      ∀ s t, (')' :: s) ⇛ t → (x ++ ')' :: s) ⇛ toksL (l.map Val.canon) ++ t := by
    induction l with
    | nil => exact ⟨[], rfl, fun _ => rfl, fun s t hs => by simpa [toksL_nil] using hs⟩
    | cons a l ih =>
      obtain ⟨y, hy1, hy2, hy3⟩ := ih (fun v hv => h v (by simp [hv]))
      rcases h a (by simp) with ⟨e, ha⟩ | ⟨e, ha⟩
      · refine ⟨' ' :: (a.pyStr ++ y), ?_, fun _ => rfl, fun s t hs => ?_⟩
        · simp only [forSM, padLayer, e, hy1]
          simp [bind, Except.bind, pure, Except.pure]
        · simp only [List.map_cons]
          lxNorm
          refine lx_sp (lx_tok ha (bareEnd_of_numEnd (hy2 s)) (hy3 s t hs))
      · refine ⟨' ' :: '"' :: (dq a ++ '"' :: y), ?_, fun _ => rfl, fun s t hs => ?_⟩
        · simp only [forSM, padLayer, e, hy1]
          simp [bind, Except.bind, pure, Except.pure]
        · simp only [List.map_cons]
          lxNorm
          refine lx_sp (lx_text ha (sqEnd_of_numEnd (hy2 s)) (hy3 s t hs))
  obtain ⟨x, h1, h2, h3⟩ := key
  exact ⟨x, h1, fun s => bareEnd_of_numEnd (h2 s), h3⟩

/-- A group of optional parts on a line of its own that is only written if one of them is there. -/
theorem lx_group [TextRule] {b : Bool} {x : Str} {l : List Val} (h0 : b = false → l = [])
    (h : ∀ {s t}, s ⇛ t → (x ++ s) ⇛ toksL l ++ t) {s t} (hs : s ⇛ t) : (ifS b x ++ s) ⇛ toksL l ++ t := by
  cases b with
  | true => exact h hs
  | false => rw [h0 rfl, toksL_nil]; exact hs

theorem bareEnd_forSM_nl {α : Type} {f : α → PyM Str} {l : List α} {x : Str}
    (h : forSM l (fun a => do return '\n' :: (← f a)) = .ok x) (s : Str) : bareEnd (x ++ '\n' :: s) = true := by
  cases l with
  | nil => cases h; rfl
  | cons a l =>
    simp only [forSM, bind, Except.bind, pure, Except.pure] at h
    cases ha : f a with
    | error e => simp [ha] at h
    | ok y =>
      simp only [ha] at h
      split at h
      · cases h
      · cases h; rfl

theorem Pad.lexes [TextRule] {o : Pad} (h : o.WF) (i nl) : Lexes (o.toSexpr i nl) [o.toVal] := by
  obtain ⟨h1, h2, h3, h4, h5, h6, h7, h8, h9, h10, h11, h12, h13, h14, h15, h16, h17, h18, h19, h20, h21, h22, h23, h24, h25, h26⟩ := h
  obtain ⟨x1, hx1, hb1, hy1⟩ := lx_padLayers h8
  obtain ⟨x2, hx2, hy2⟩ := Lexes.forSM (f := fun p : GrItem => do return py!"\n{← p.toSexpr (i + 4) false false}") (g := GrItem.toVal)
    (xs := o.customPadPrimitives) fun a ha => by
      obtain ⟨x, hx, hy⟩ := GrItem.lexes (h24 a ha).1 (i + 4) false false
      exact ⟨'\n' :: x, by rw [hx]; rfl, fun s t hs => lx_nl (hy s t hs)⟩
  have hb2 : ∀ s, bareEnd (x2 ++ '\n' :: s) = true := bareEnd_forSM_nl hx2
  refine ⟨_, by rw [toSexpr, hx1, hx2]; rfl, fun s t hs => ?_⟩
  have hc : ∀ {s t}, s ⇛ t → (ifS (!o.chamfer.isEmpty || o.chamferRatio.isSome)
      py!"\n{indents i} {optS o.chamferRatio fun t => py!" (chamfer_ratio {t.pyStr})"}{ifS (!o.chamfer.isEmpty) (py!" (chamfer" ++ (forS o.chamfer fun c => py!" {c.pyStr}") ++ py!")")}" ++ s) ⇛
      toksL ((optL o.chamferRatio fun v => [.list [.str k!"chamfer_ratio", v.canon]]) ++
        ifL (!o.chamfer.isEmpty) [.list (.str k!"chamfer" :: o.chamfer.map Val.canon)]) ++ t := by
    refine lx_group ?_ ?_
    · cases o.chamfer <;> cases o.chamferRatio <;> simp [optL, ifL]
    · intro s t hs
      lxNorm
      lxAuto
  have hm : ∀ {s t}, s ⇛ t → (ifS (o.solderMaskMargin.isSome || o.solderPasteMargin.isSome || o.solderPasteMarginRatio.isSome ||
      o.clearance.isSome || o.zoneConnect.isSome || o.thermalWidth.isSome || o.thermalGap.isSome ||
      (o.net.isSome || o.pinFunction.isSome || o.pinType.isSome))
      py!"\n{indents i} {optS o.net fun n => py!" {n.toSexpr}"}{optS o.pinFunction fun t => py!" (pinfunction \"{dq t}\")"}{optS o.pinType fun t => py!" (pintype \"{dq t}\")"}{optS o.solderMaskMargin fun t => py!" (solder_mask_margin {t.pyStr})"}{optS o.solderPasteMargin fun t => py!" (solder_paste_margin {t.pyStr})"}{optS o.solderPasteMarginRatio fun t => py!" (solder_paste_margin_ratio {t.pyStr})"}{optS o.clearance fun t => py!" (clearance {t.pyStr})"}{optS o.zoneConnect fun t => py!" (zone_connect {t.pyStr})"}{optS o.thermalWidth fun t => py!" (thermal_width {t.pyStr})"}{optS o.thermalGap fun t => py!" (thermal_gap {t.pyStr})"}" ++ s) ⇛
      toksL ((optL o.net fun v => [v.toVal]) ++ (optL o.pinFunction fun v => [.list [.str k!"pinfunction", v.canon]]) ++
        (optL o.pinType fun v => [.list [.str k!"pintype", v.canon]]) ++
        (optL o.solderMaskMargin fun v => [.list [.str k!"solder_mask_margin", v.canon]]) ++
        (optL o.solderPasteMargin fun v => [.list [.str k!"solder_paste_margin", v.canon]]) ++
        (optL o.solderPasteMarginRatio fun v => [.list [.str k!"solder_paste_margin_ratio", v.canon]]) ++
        (optL o.clearance fun v => [.list [.str k!"clearance", v.canon]]) ++
        (optL o.zoneConnect fun v => [.list [.str k!"zone_connect", v.canon]]) ++
        (optL o.thermalWidth fun v => [.list [.str k!"thermal_width", v.canon]]) ++
        (optL o.thermalGap fun v => [.list [.str k!"thermal_gap", v.canon]])) ++ t := by
    refine lx_group ?_ ?_
    · intro hb
      simp only [Bool.or_eq_false_iff] at hb
      simp only [optL_isNone, hb, List.append_nil]
    · intro s t hs
      lxNorm
      lxAuto
  generalize ifS (!o.chamfer.isEmpty || o.chamferRatio.isSome) _ = L1 at hc ⊢
  generalize ifS (o.solderMaskMargin.isSome || _) _ = L2 at hm ⊢
  simp only [toVal]
  simp only [toks_list, List.append_assoc, List.cons_append, List.nil_append, toksL_cons, toksL_nil, toksL_append] at hc hm
  lxNorm
  lxAuto

theorem Footprint.text [TextRule] {o : Footprint} (h : SchIdOk o.libraryNickname o.entryName) : TextOk (.str o.libId) := by
  have : TextOk (.str (SchematicSymbol.libId { libraryNickname := o.libraryNickname, entryName := o.entryName })) := SchIdOk.text h
  exact this

/-- Setting `libId` to what `libId` returns gives back the two parts. -/
theorem Footprint.set_get [TextRule] {o : Footprint} (h : SchIdOk o.libraryNickname o.entryName) (p : Footprint) :
    Footprint.setLibId p (.str o.libId) = { p with libraryNickname := canon o.libraryNickname, entryName := canon o.entryName } := by
  obtain ⟨n, e⟩ := o
  simp only at h
  cases h with
  | nick n e h1 h2 h3 h4 h5 h6 =>
    have : n.isEmpty = false := by cases n <;> simp_all
    have e1 := matchNick_mk h1 h2 h3 h4 h5
    simp only [Footprint.setLibId, Footprint.libId, Val.truthy, this, optPyStr, Val.pyStr, kw, Bool.not_false, if_true,
      List.cons_append, List.nil_append, e1]
    rfl
  | plain e h1 h2 =>
    have e1 : matchNick e = none := matchNick_none h1
    simp only [Footprint.setLibId, Footprint.libId, optPyStr, Val.pyStr, e1]
    rfl

theorem Dict.update_distinct [TextRule] {l : Dict Val} (hk : ∀ p ∈ l, TextOk p.1) (hd : l.Pairwise fun a b => a.1.keyEq b.1 = false) {pre : Dict Val}
    {a : Val × Val} {post : Dict Val} (hl : l = pre ++ a :: post) :
    Dict.update (pre.map canon) a.1.canon a.2.canon = .ok (pre.map canon ++ [canon a]) := by
  rw [Dict.update_text (hk a (by simp [hl])), Dict.set_new]
  · rfl
  · intro p hp
    obtain ⟨q, hq, rfl⟩ := List.mem_map.1 hp
    have := hd
    rw [hl, List.pairwise_append] at this
    show q.1.canon.keyEq _ = false
    rw [Val.keyEq_canon]
    exact this.2.2 q hq a (by simp)

theorem Footprint.step_property (o : Footprint) (a b : Val) :
    step o (.list [.str k!"property", a, b]) = (Dict.update o.properties a b >>= fun c => .ok { o with properties := c }) := rfl

theorem Footprint.step_graphicItems [TextRule] {o : Footprint} {a : FpItem} (h : a.WF) :
    Footprint.step o a.toVal = .ok { o with graphicItems := o.graphicItems ++ [canon a] } := by
  cases a with
  | text a =>
    refine eq_bind (b := canon a) (fun v : FpText => { o with graphicItems := o.graphicItems ++ [FpItem.text v] }) (FpText.from_toVal (o := a) h) ?_
    rfl
  | textBox a =>
    refine eq_bind (b := canon a) (fun v : FpTextBox => { o with graphicItems := o.graphicItems ++ [FpItem.textBox v] }) (FpTextBox.from_toVal (o := a) h) ?_
    rfl
  | line a =>
    refine eq_bind (b := canon a) (fun v : FpLine => { o with graphicItems := o.graphicItems ++ [FpItem.line v] }) (FpLine.from_toVal (o := a) h) ?_
    rfl
  | rect a =>
    refine eq_bind (b := canon a) (fun v : FpRect => { o with graphicItems := o.graphicItems ++ [FpItem.rect v] }) (FpRect.from_toVal (o := a) h) ?_
    rfl
  | circle a =>
    refine eq_bind (b := canon a) (fun v : FpCircle => { o with graphicItems := o.graphicItems ++ [FpItem.circle v] }) (FpCircle.from_toVal (o := a) h) ?_
    rfl
  | arc a =>
    refine eq_bind (b := canon a) (fun v : FpArc => { o with graphicItems := o.graphicItems ++ [FpItem.arc v] }) (FpArc.from_toVal (o := a) h) ?_
    rfl
  | poly a =>
    refine eq_bind (b := canon a) (fun v : FpPoly => { o with graphicItems := o.graphicItems ++ [FpItem.poly v] }) (FpPoly.from_toVal (o := a) h) ?_
    rfl
  | curve a =>
    refine eq_bind (b := canon a) (fun v : FpCurve => { o with graphicItems := o.graphicItems ++ [FpItem.curve v] }) (FpCurve.from_toVal (o := a) h) ?_
    rfl
  | image a =>
    refine eq_bind (b := canon a) (fun v : Image => { o with graphicItems := o.graphicItems ++ [FpItem.image v] }) (Image.from_toVal (o := a) h) ?_
    rfl

theorem Footprint.step_pads [TextRule] {o : Footprint} {a : Pad} (h : a.WF) :
    Footprint.step o a.toVal = .ok { o with pads := o.pads ++ [canon a] } := by
  have key : ∀ l, Footprint.step o (.list (.str k!"pad" :: l)) =
      (Pad.fromSexpr (.list (.str k!"pad" :: l)) >>= fun v => .ok { o with pads := o.pads ++ [v] }) := fun _ => rfl
  obtain ⟨l, e⟩ : ∃ l, a.toVal = .list (.str k!"pad" :: l) := by
    simp only [Pad.toVal, List.append_assoc, List.cons_append]
    exact ⟨_, rfl⟩
  have hf := Pad.from_toVal (o := a) h
  rw [e] at hf ⊢
  rw [key, hf]
  rfl

theorem Footprint.step_zones [TextRule] {o : Footprint} {a : Zone} (h : a.WF) :
    Footprint.step o a.toVal = .ok { o with zones := o.zones ++ [canon a] } := by
  have key : ∀ l, Footprint.step o (.list (.str k!"zone" :: l)) =
      (Zone.fromSexpr (.list (.str k!"zone" :: l)) >>= fun v => .ok { o with zones := o.zones ++ [v] }) := fun _ => rfl
  obtain ⟨l, e⟩ : ∃ l, a.toVal = .list (.str k!"zone" :: l) := by
    simp only [Zone.toVal, List.append_assoc, List.cons_append]
    exact ⟨_, rfl⟩
  have hf := Zone.from_toVal (o := a) h
  rw [e] at hf ⊢
  rw [key, hf]
  rfl

theorem Footprint.step_models [TextRule] {o : Footprint} {a : Model} (h : a.WF) :
    Footprint.step o a.toVal = .ok { o with models := o.models ++ [canon a] } := by
  have key : ∀ l, Footprint.step o (.list (.str k!"model" :: l)) =
      (Model.fromSexpr (.list (.str k!"model" :: l)) >>= fun v => .ok { o with models := o.models ++ [v] }) := fun _ => rfl
  obtain ⟨l, e⟩ : ∃ l, a.toVal = .list (.str k!"model" :: l) := by
    simp only [Model.toVal, List.append_assoc, List.cons_append]
    exact ⟨_, rfl⟩
  have hf := Model.from_toVal (o := a) h
  rw [e] at hf ⊢
  rw [key, hf]
  rfl

theorem Footprint.step_groups [TextRule] {o : Footprint} {a : Group} (h : a.WF) :
    Footprint.step o a.toVal = .ok { o with groups := o.groups ++ [canon a] } := by
  have key : ∀ l, Footprint.step o (.list (.str k!"group" :: l)) =
      (Group.fromSexpr (.list (.str k!"group" :: l)) >>= fun v => .ok { o with groups := o.groups ++ [v] }) := fun _ => rfl
  obtain ⟨l, e⟩ : ∃ l, a.toVal = .list (.str k!"group" :: l) := by
    simp only [Group.toVal, List.append_assoc, List.cons_append]
    exact ⟨_, rfl⟩
  have hf := Group.from_toVal (o := a) h
  rw [e] at hf ⊢
  rw [key, hf]
  rfl

theorem fo_attributes [TextRule] {σ : Type} {step : σ → Val → PyM σ} {o : σ} {xs : List Val} {r : PyM σ} (f : σ → Attributes → σ) {a : Attributes}
    (ha : a.WF) (h0 : f o {} = o) (h1 : step o a.toVal = (Attributes.fromSexpr a.toVal >>= fun v => .ok (f o v)))
    (hs : forM step (f o (canon a)) xs = r) : forM step o (ifL (!a.isDefault) [a.toVal] ++ xs) = r := by
  cases hd : a.isDefault with
  | true =>
    rw [Attributes.canon_default hd, h0] at hs
    exact hs
  | false =>
    refine fo_cons ?_ hs
    rw [h1, Attributes.from_toVal ha]
    rfl

theorem Footprint.from_toVal [TextRule] {o : Footprint} (h : o.WF) (tedit : Val) :
    Footprint.fromSexpr tedit o.toVal = .ok (canon { o with filePath := none }) := by
  simp only [toVal, List.append_assoc, List.cons_append, List.nil_append]
  simp only [fromSexpr]
  refine (if_pos rfl).trans ?_
  rw [Footprint.set_get h.id]
  foStart
  fldF locked
  dsimp only
  fldF placed
  dsimp only
  fldO version
  dsimp only
  fldO generator
  dsimp only
  fld layer
  dsimp only
  fld tedit
  dsimp only
  fldO tstamp
  dsimp only
  fldO position using (fun a ha => Position.from_toVal (h.position a ha) rfl)
  dsimp only
  fldO description
  dsimp only
  fldO tags
  dsimp only
  refine fo_list_pre (fun p v => { p with properties := v }) canon rfl (fun pre a post hl => (Footprint.step_property _ _ _).trans (by rw [Dict.update_distinct h.propertyNames h.distinct hl]; rfl)) ?_
  dsimp only
  fldO path
  dsimp only
  fldO autoplaceCost90
  dsimp only
  fldO autoplaceCost180
  dsimp only
  fldO solderMaskMargin
  dsimp only
  fldO solderPasteMargin
  dsimp only
  fldO solderPasteRatio
  dsimp only
  fldO clearance
  dsimp only
  fldO zoneConnect
  dsimp only
  fldO thermalWidth
  dsimp only
  fldO thermalGap
  dsimp only
  refine fo_attributes (fun p v => { p with attributes := v }) h.attributes rfl rfl ?_
  dsimp only
  refine fo_ifScalars (fun p v => { p with privateLayers := v }) rfl (by intro _; rfl) ?_
  dsimp only
  refine fo_ifScalars (fun p v => { p with netTiePadGroups := v }) rfl (by intro _; rfl) ?_
  dsimp only
  refine fo_list (fun o v => { o with graphicItems := v }) canon rfl (fun pre a ha => step_graphicItems (h.graphicItems a ha)) ?_
  dsimp only
  refine fo_list (fun o v => { o with pads := v }) canon rfl (fun pre a ha => step_pads (h.pads a ha)) ?_
  dsimp only
  refine fo_list (fun o v => { o with zones := v }) canon rfl (fun pre a ha => step_zones (h.zones a ha)) ?_
  dsimp only
  refine fo_list (fun o v => { o with models := v }) canon rfl (fun pre a ha => step_models (h.models a ha)) ?_
  dsimp only
  refine fo_list (fun o v => { o with groups := v }) canon rfl (fun pre a ha => step_groups (h.groups a ha)) ?_
  rw [fo_end]
  refine congrArg Except.ok ?_
  dsimp only
  simp only [canon]
  rfl

seal Footprint.fromSexpr

theorem Footprint.lexes [TextRule] {o : Footprint} (h : o.WF) (i nl lf) : Lexes (o.toSexpr i nl lf) [o.toVal] := by
  obtain ⟨h1, h2, h3, h4, h5, h6, h7, h8, h9, h10, h11, h12, h13, h14, h15, h16, h17, h18, h19, h20, h21, h22, h23, h24, h25, h26, h27, h28, h29, h30⟩ := h
  obtain ⟨x1, hx1, hy1⟩ := Lexes.forSM (f := fun a => FpItem.toSexpr a (i + 2)) fun a ha => FpItem.lexes (h26 a ha) (i + 2)
  obtain ⟨x2, hx2, hy2⟩ := Lexes.forSM (f := fun a => Pad.toSexpr a (i + 2)) fun a ha => Pad.lexes (h27 a ha) (i + 2) true
  obtain ⟨x3, hx3, hy3⟩ := Lexes.forSM (f := fun a => Zone.toSexpr a (i + 2)) fun a ha => Zone.lexes (h28 a ha) (i + 2) true
  refine ⟨_, by rw [toSexpr, hx1, hx2, hx3]; rfl, fun s t hs => ?_⟩
  have hid : ∀ {s t}, sqEnd s = true → s ⇛ t → ('"' :: (dequote o.libId ++ '"' :: s)) ⇛ toks (.str o.libId) ++ t :=
    fun hd hs => lx_text (v := .str o.libId) (Footprint.text h1) hd hs
  have hl : ∀ {s t}, s ⇛ t → ((if lf then py!" (layer \"{dq o.layer}\")\n" else py!"\n{indents i}  (layer \"{dq o.layer}\")\n") ++ s) ⇛
      toks (.list [.str k!"layer", o.layer.canon]) ++ t := by
    intro s t hs
    cases lf <;> simp only [Bool.false_eq_true, if_false, if_true] <;> lxNorm <;> lxAuto
  have hb : ∀ s, bareEnd ((if lf then py!" (layer \"{dq o.layer}\")\n" else py!"\n{indents i}  (layer \"{dq o.layer}\")\n") ++ s) = true := by
    intro s
    cases lf <;> rfl
  have hq : ∀ s, sqEnd ((if lf then py!" (layer \"{dq o.layer}\")\n" else py!"\n{indents i}  (layer \"{dq o.layer}\")\n") ++ s) = true := by
    intro s
    cases lf <;> rfl
  generalize (if lf then py!" (layer \"{dq o.layer}\")\n" else py!"\n{indents i}  (layer \"{dq o.layer}\")\n") = L at hl hb hq ⊢
  simp only [toVal]
  simp only [toks_list, List.append_assoc, List.cons_append, List.nil_append, toksL_cons, toksL_nil, toksL_append] at hl
  lxNorm
  lxAuto
  delim

end Kiutils
