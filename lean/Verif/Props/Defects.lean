import Verif.Props.RoundTrip
/-!
# Properties that the code violates (C22, C23, C24, C35, C40)

For each of them: what goes wrong, for which objects, and what still holds.
-/
namespace Kiutils

/-! ## C22: the diameter of a junction -/

theorem forM_inv {σ : Type} {step : σ → Val → PyM σ} {P : σ → Prop} (h : ∀ o x o', P o → step o x = .ok o' → P o') :
    ∀ (xs : List Val) (o o' : σ), P o → forM step o xs = .ok o' → P o'
  | [], o, o', hp, he => by cases he; exact hp
  | x :: r, o, o', hp, he => by
    rw [forM] at he
    cases hs : step o x with
    | error e => rw [hs] at he; cases he
    | ok o1 => rw [hs] at he; exact forM_inv h r o1 o' (h o x o1 hp hs) he

/-- No junction that is loaded from a file has a diameter other than the default, whatever the file says. -/
theorem C22_diameter_never_loaded (exp : Val) (o : Junction) (h : Junction.fromSexpr exp = .ok o) : o.diameter = .int 0 := by
  unfold Junction.fromSexpr at h
  cases hc : checkHead k!"junction" exp with
  | error e => rw [hc] at h; cases h
  | ok l =>
    rw [hc] at h
    have h : forM Junction.step {} l = .ok o := h
    refine forM_inv (P := fun o => o.diameter = .int 0) ?_ l {} o rfl h
    intro o x o' hp hs
    unfold Junction.step at hs
    cases hk : x.idx 0 with
    | error e => rw [hk] at hs; cases hs
    | ok k =>
      rw [hk] at hs
      simp only [bind, Except.bind, pure, Except.pure] at hs
      repeat' split at hs
      all_goals first | (cases hs; exact hp) | cases hs
example := C22_diameter_never_loaded (.list [.str k!"junction", .list [.str k!"diameter", .int 5]]) _ rfl

/-- No junction with a diameter other than zero survives saving and loading. -/
theorem C22_violated (o : Junction) (h : ¬ PyEq.eq o.diameter (.int 0)) (i : Nat) (nl : Bool) :
    ¬ Reloads (o.toSexpr i nl) Junction.fromSexpr o := by
  rintro ⟨o', ho, he⟩
  have h0 : o'.diameter = .int 0 := by
    simp only [bind, Except.bind] at ho
    split at ho
    · cases ho
    · exact C22_diameter_never_loaded _ _ ho
  obtain ⟨-, hd, -⟩ := he
  rw [h0] at hd
  exact h hd
example : ({ sampleJunction with diameter := .int 1 } : Junction).WF ∧ ¬ PyEq.eq (Val.int 1) (.int 0) :=
  ⟨{ sampleJunction_wf with diameter := ok_int (by decide) }, fun h => by cases h⟩

/-- If the diameter comes after the colour in the file, the loaded junction cannot be saved. -/
theorem C22_colour_first_violated :
    ∃ v : Val, ∃ o : Junction, Junction.fromSexpr v = .ok o ∧ ∀ i nl, o.toSexpr i nl = .error .attributeError :=
  ⟨.list [.str k!"junction", .list [.str k!"color", .int 0, .int 0, .int 0, .int 0], .list [.str k!"diameter", .int 1]], _, rfl,
    fun _ _ => rfl⟩

/-! ## C23: locked texts -/

/-- A locked text becomes an unlocked text that reads `locked`; nothing else changes. -/
theorem C23_violated (o : GrText) (h : GrText.WF { o with locked := false }) (hl : o.locked = true)
    (ht : o.text ≠ .str k!"locked") (i : Nat) (nl : Bool) :
    Reloads (.ok (o.toSexpr i nl)) GrText.fromSexpr { o with text := .str k!"locked", locked := false } := by
  have hw : GrText.WF { o with text := .str k!"locked", locked := false } := { h with text := by textOk }
  have hf := GrText.from_toVal hw
  obtain ⟨text, knockout, position, layer, effects, tstamp, locked, renderCache⟩ := o
  simp only at hl ht
  subst hl
  have hlex : Lexes (.ok (GrText.toSexpr ⟨text, knockout, position, layer, effects, tstamp, true, renderCache⟩ i nl))
      [.list ([.str k!"gr_text", .str k!"locked", text.canon, position.toVal k!"at"] ++
        (optL layer fun v => [.list ([.str k!"layer", v.canon] ++ ifL knockout [.str k!"knockout"])]) ++
        (optL tstamp fun v => [.list [.str k!"tstamp", v.canon]]) ++ [effects.toVal] ++
        (optL renderCache fun v => [v.toVal]))] := by
    refine Lexes.one fun s t hs => ?_
    obtain ⟨h1, h2, h3, h4, h5, h6, h7, h8⟩ := h
    simp only at h1 h2 h3 h4 h5 h6
    simp only [GrText.toSexpr, ifS_true]
    lxNorm
    lxAuto
  refine hlex.reloads ?_
  rw [← hf]
  have h1 := h.text
  cases htt : text with
  | str w =>
    have hw : (Val.str w).is k!"locked" = false := by
      rw [htt] at ht
      show (w == k!"locked") = false
      rw [beq_eq_false_iff_ne]
      rintro rfl
      exact ht rfl
    rw [GrText.fromSexpr.eq_def, GrText.fromSexpr.eq_def]
    show forM GrText.step _ (.str w :: _) = _
    rw [forM]
    have : GrText.step { text := .str k!"locked" } (.str w) = .ok { text := .str k!"locked" } := by
      simp only [GrText.step, hw]; rfl
    rw [this]
    rfl
  | _ => rw [htt] at h1; exact False.elim h1
example := C23_violated { sampleGrText with locked := true } sampleGrText_wf rfl (by intro h; cases h)

/-- Texts that are not locked keep their text. -/
theorem C23_partial [TextRule] (o : GrText) (h : o.WF) (i : Nat) (nl : Bool) :
    ∃ o', (parseSexp (o.toSexpr i nl) >>= GrText.fromSexpr) = .ok o' ∧ o'.text = o.text ∧ o'.locked = o.locked := by
  refine ⟨canon o, ?_, ?_, rfl⟩
  · rw [parse_of_lx fun r t hs => GrText.lx h hs]
    exact GrText.from_toVal h
  · have := h.text
    show o.text.canon = o.text
    cases ht : o.text with
    | str w => rfl
    | _ => rw [ht] at this; exact False.elim this
example := C23_partial sampleGrText sampleGrText_wf

/-! ## C24: texts whose brackets do not match -/

/-- No curve of a symbol can be read back: its text starts with a closing bracket. -/
theorem C24_SyCurve_violated (o : SyCurve) (i : Nat) (nl : Bool) :
    depthOk 0 (lex (o.toSexpr i nl)) = false ∧ parseSexp (o.toSexpr i nl) = .error .assertionError := by
  have : ∃ t, lex (o.toSexpr i nl) = .cl :: t := by
    unfold SyCurve.toSexpr
    simp only [List.append_assoc]
    exact ⟨_, (lx_indents (lx_sp (lx_sp (lx_cl ⟨rfl, trivial⟩)))).lex⟩
  obtain ⟨t, ht⟩ := this
  have h : depthOk 0 (lex (o.toSexpr i nl)) = false := by rw [ht]; rfl
  exact ⟨h, by rw [parseSexp, run_bad _ [] _ h]⟩

mutual
theorem depthOk_toks (v : Val) (d : Nat) (t : List Tok) : depthOk d (toks v ++ t) = depthOk d t := by
  cases v with
  | list l =>
    have := depthOk_toksL l (d + 1) (.cl :: t)
    simp only [toks, List.cons_append, List.append_assoc, List.nil_append, depthOk] at this ⊢
    rw [this]
  | _ => rfl
theorem depthOk_toksL (l : List Val) (d : Nat) (t : List Tok) : depthOk d (toksL l ++ t) = depthOk d t := by
  cases l with
  | nil => rfl
  | cons a l =>
    rw [toksL_cons, List.append_assoc, depthOk_toks a, depthOk_toksL l]
end

/-- No graphic line with an angle can be read back: a closing bracket is missing. -/
theorem C24_GrLine_violated [TextRule] (o : GrLine) (a : Val) (ha : NumOk a) (h : o.WF) (i : Nat) (nl : Bool) :
    depthOk 0 (lex (GrLine.toSexpr { o with angle := some a } i nl)) = false ∧
    parseSexp (GrLine.toSexpr { o with angle := some a } i nl) = .error .assertionError := by
  have hd : depthOk 0 (lex (GrLine.toSexpr { o with angle := some a } i nl)) = false := by
    have : lex (GrLine.toSexpr { o with angle := some a } i nl ++ []) =
        .op :: (toksL ([.str k!"gr_line"] ++ ifL o.locked [.str k!"locked"] ++
          [o.start.toValXY k!"start", o.«end».toValXY k!"end"]) ++
        (.op :: (toksL ([.str k!"angle", a.canon] ++
          (optL o.layer fun v => [.list [.str k!"layer", v.canon]]) ++ [.list [.str k!"width", optCanon o.width]] ++
          (optL o.tstamp fun v => [.list [.str k!"tstamp", v.canon]])) ++ [.cl]))) := by
      obtain ⟨h1, h2, h3, h4, h5, h6⟩ := h
      refine Lx.lex ?_
      simp only [GrLine.toSexpr, optS_some]
      lxNorm
      lxAuto
    rw [List.append_nil] at this
    rw [this]
    simp only [depthOk]
    rw [depthOk_toksL]
    simp only [depthOk]
    rw [depthOk_toksL]
    rfl
  exact ⟨hd, by rw [parseSexp, run_bad _ [] _ hd]⟩
example := C24_GrLine_violated sampleGrLine (.int 90) (ok_int (by decide)) sampleGrLine_wf

theorem ok_bind {α β : Type} (a : α) (f : α → PyM β) : ((Except.ok a : PyM α) >>= f) = f a := rfl

/-! ## C35: locked flags -/

/-- The flag of a line in a footprint does not appear in its text. -/
theorem C35_FpLine_violated (o : FpLine) (b : Bool) (i : Nat) (nl : Bool) :
    FpLine.toSexpr { o with locked := b } i nl = o.toSexpr i nl := rfl

/-- The flag of a dimension does not appear in its text. -/
theorem C35_Dimension_violated (o : Dimension) (b : Bool) (i : Nat) (nl : Bool) :
    Dimension.toSexpr { o with locked := b } i nl = o.toSexpr i nl := rfl

/-- A locked line in a footprint is loaded as an unlocked one; nothing else changes. -/
theorem C35_FpLine_unlocked [TextRule] (o : FpLine) (h : FpLine.WF { o with locked := false }) (i : Nat) (nl : Bool) :
    Reloads (.ok (o.toSexpr i nl)) FpLine.fromSexpr { o with locked := false } :=
  C41_FpLine { o with locked := false } h i nl
example := C35_FpLine_unlocked { sampleFpLine with locked := true } sampleFpLine_wf

/-- A locked dimension is loaded as an unlocked one; nothing else changes. -/
theorem C35_Dimension_unlocked [TextRule] (o : Dimension) (h : Dimension.WF { o with locked := false }) (i : Nat) (nl : Bool) :
    Reloads (o.toSexpr i nl) Dimension.fromSexpr { o with locked := false } :=
  C41_Dimension { o with locked := false } h i nl
example := C35_Dimension_unlocked { sampleDimension with locked := true } sampleDimension_wf

/-- A group named `locked` is loaded as a locked group, whether it was locked or not. -/
theorem C35_Group_violated (id : Str) (members : List Val) :
    ∃ o, Group.fromSexpr (.list [.str k!"group", .str k!"locked", .list [.str k!"id", .str id],
      .list (.str k!"members" :: members)]) = .ok o ∧ o.locked = true := ⟨_, rfl, rfl⟩

theorem C35_Footprint_partial [TextRule] (o : Footprint) (h : o.WF) (tedit : Val) (i : Nat) (nl lf : Bool) :
    ∃ o', (o.toSexpr i nl lf >>= parseSexp >>= Footprint.fromSexpr tedit) = .ok o' ∧ o'.locked = o.locked ∧ o'.placed = o.placed := by
  refine ⟨canon { o with filePath := none }, ?_, rfl, rfl⟩
  rw [(Footprint.lexes h i nl lf).parse, ok_bind]
  exact Footprint.from_toVal h tedit
example := C35_Footprint_partial sampleFootprint sampleFootprint_wf

theorem C35_GrTextBox_partial [TextRule] (o : GrTextBox) (h : o.WF) (i : Nat) (nl : Bool) :
    ∃ o', (o.toSexpr i nl >>= parseSexp >>= GrTextBox.fromSexpr) = .ok o' ∧ o'.locked = o.locked := by
  refine ⟨canon o, ?_, rfl⟩
  rw [(GrTextBox.lexes h i nl).parse, ok_bind]
  exact GrTextBox.from_toVal h
example := C35_GrTextBox_partial sampleGrTextBox sampleGrTextBox_wf

theorem C35_GrLine_partial [TextRule] (o : GrLine) (h : o.WF) (i : Nat) (nl : Bool) :
    ∃ o', (parseSexp (o.toSexpr i nl) >>= GrLine.fromSexpr) = .ok o' ∧ o'.locked = o.locked := by
  refine ⟨canon o, ?_, rfl⟩
  rw [parse_of_lx fun _ _ hs => GrLine.lx h hs]
  exact GrLine.from_toVal h
example := C35_GrLine_partial sampleGrLine sampleGrLine_wf

theorem C35_GrRect_partial [TextRule] (o : GrRect) (h : o.WF) (i : Nat) (nl : Bool) :
    ∃ o', (parseSexp (o.toSexpr i nl) >>= GrRect.fromSexpr) = .ok o' ∧ o'.locked = o.locked := by
  refine ⟨canon o, ?_, rfl⟩
  rw [parse_of_lx fun _ _ hs => GrRect.lx h hs]
  exact GrRect.from_toVal h
example := C35_GrRect_partial sampleGrRect sampleGrRect_wf

theorem C35_GrCircle_partial [TextRule] (o : GrCircle) (h : o.WF) (i : Nat) (nl : Bool) :
    ∃ o', (parseSexp (o.toSexpr i nl) >>= GrCircle.fromSexpr) = .ok o' ∧ o'.locked = o.locked := by
  refine ⟨canon o, ?_, rfl⟩
  rw [parse_of_lx fun _ _ hs => GrCircle.lx h hs]
  exact GrCircle.from_toVal h
example := C35_GrCircle_partial sampleGrCircle sampleGrCircle_wf

theorem C35_GrArc_partial [TextRule] (o : GrArc) (h : o.WF) (i : Nat) (nl : Bool) :
    ∃ o', (parseSexp (o.toSexpr i nl) >>= GrArc.fromSexpr) = .ok o' ∧ o'.locked = o.locked := by
  refine ⟨canon o, ?_, rfl⟩
  rw [parse_of_lx fun _ _ hs => GrArc.lx h hs]
  exact GrArc.from_toVal h
example := C35_GrArc_partial sampleGrArc sampleGrArc_wf

theorem C35_GrPoly_partial [TextRule] (o : GrPoly) (h : o.WF) (i : Nat) (nl pn : Bool) :
    ∃ o', (parseSexp (o.toSexpr i nl pn) >>= GrPoly.fromSexpr) = .ok o' ∧ o'.locked = o.locked := by
  refine ⟨canon o, ?_, rfl⟩
  rw [parse_of_lx fun _ _ hs => GrPoly.lx h hs]
  exact GrPoly.from_toVal h
example := C35_GrPoly_partial sampleGrPoly sampleGrPoly_wf

theorem C35_GrCurve_partial [TextRule] (o : GrCurve) (h : o.WF) (i : Nat) (nl : Bool) :
    ∃ o', (parseSexp (o.toSexpr i nl) >>= GrCurve.fromSexpr) = .ok o' ∧ o'.locked = o.locked := by
  refine ⟨canon o, ?_, rfl⟩
  rw [parse_of_lx fun _ _ hs => GrCurve.lx h hs]
  exact GrCurve.from_toVal h
example := C35_GrCurve_partial sampleGrCurve sampleGrCurve_wf

theorem C35_FpRect_partial [TextRule] (o : FpRect) (h : o.WF) (i : Nat) (nl : Bool) :
    ∃ o', (parseSexp (o.toSexpr i nl) >>= FpRect.fromSexpr) = .ok o' ∧ o'.locked = o.locked := by
  refine ⟨canon o, ?_, rfl⟩
  rw [parse_of_lx fun _ _ hs => FpRect.lx h hs]
  exact FpRect.from_toVal h
example := C35_FpRect_partial sampleFpRect sampleFpRect_wf

theorem C35_FpTextBox_partial [TextRule] (o : FpTextBox) (h : o.WF) (i : Nat) (nl : Bool) :
    ∃ o', (o.toSexpr i nl >>= parseSexp >>= FpTextBox.fromSexpr) = .ok o' ∧ o'.locked = o.locked := by
  refine ⟨canon o, ?_, rfl⟩
  rw [(FpTextBox.lexes h i nl).parse, ok_bind]
  exact FpTextBox.from_toVal h
example := C35_FpTextBox_partial sampleFpTextBox sampleFpTextBox_wf

theorem C35_FpCircle_partial [TextRule] (o : FpCircle) (h : o.WF) (i : Nat) (nl : Bool) :
    ∃ o', (parseSexp (o.toSexpr i nl) >>= FpCircle.fromSexpr) = .ok o' ∧ o'.locked = o.locked := by
  refine ⟨canon o, ?_, rfl⟩
  rw [parse_of_lx fun _ _ hs => FpCircle.lx h hs]
  exact FpCircle.from_toVal h
example := C35_FpCircle_partial sampleFpCircle sampleFpCircle_wf

theorem C35_FpArc_partial [TextRule] (o : FpArc) (h : o.WF) (i : Nat) (nl : Bool) :
    ∃ o', (parseSexp (o.toSexpr i nl) >>= FpArc.fromSexpr) = .ok o' ∧ o'.locked = o.locked := by
  refine ⟨canon o, ?_, rfl⟩
  rw [parse_of_lx fun _ _ hs => FpArc.lx h hs]
  exact FpArc.from_toVal h
example := C35_FpArc_partial sampleFpArc sampleFpArc_wf

theorem C35_FpPoly_partial [TextRule] (o : FpPoly) (h : o.WF) (i : Nat) (nl : Bool) :
    ∃ o', (parseSexp (o.toSexpr i nl) >>= FpPoly.fromSexpr) = .ok o' ∧ o'.locked = o.locked := by
  refine ⟨canon o, ?_, rfl⟩
  rw [parse_of_lx fun _ _ hs => FpPoly.lx h hs]
  exact FpPoly.from_toVal h
example := C35_FpPoly_partial sampleFpPoly sampleFpPoly_wf

theorem C35_FpCurve_partial [TextRule] (o : FpCurve) (h : o.WF) (i : Nat) (nl : Bool) :
    ∃ o', (parseSexp (o.toSexpr i nl) >>= FpCurve.fromSexpr) = .ok o' ∧ o'.locked = o.locked := by
  refine ⟨canon o, ?_, rfl⟩
  rw [parse_of_lx fun _ _ hs => FpCurve.lx h hs]
  exact FpCurve.from_toVal h
example := C35_FpCurve_partial sampleFpCurve sampleFpCurve_wf

theorem C35_Zone_partial [TextRule] (o : Zone) (h : o.WF) (i : Nat) (nl : Bool) :
    ∃ o', (o.toSexpr i nl >>= parseSexp >>= Zone.fromSexpr) = .ok o' ∧ o'.locked = o.locked := by
  refine ⟨canon o, ?_, rfl⟩
  rw [(Zone.lexes h i nl).parse, ok_bind]
  exact Zone.from_toVal h
example := C35_Zone_partial sampleZone sampleZone_wf

theorem C35_Pad_partial [TextRule] (o : Pad) (h : o.WF) (i : Nat) (nl : Bool) :
    ∃ o', (o.toSexpr i nl >>= parseSexp >>= Pad.fromSexpr) = .ok o' ∧ o'.locked = o.locked := by
  refine ⟨canon o, ?_, rfl⟩
  rw [(Pad.lexes h i nl).parse, ok_bind]
  exact Pad.from_toVal h
example := C35_Pad_partial samplePad samplePad_wf

theorem C35_Segment_partial [TextRule] (o : Segment) (h : o.WF) (i : Nat) (nl : Bool) :
    ∃ o', (parseSexp (o.toSexpr i nl) >>= Segment.fromSexpr) = .ok o' ∧ o'.locked = o.locked := by
  refine ⟨canon o, ?_, rfl⟩
  rw [parse_of_lx fun _ _ hs => Segment.lx h hs]
  exact Segment.from_toVal h
example := C35_Segment_partial sampleSegment sampleSegment_wf

theorem C35_Via_partial [TextRule] (o : Via) (h : o.WF) (i : Nat) (nl : Bool) :
    ∃ o', (parseSexp (o.toSexpr i nl) >>= Via.fromSexpr) = .ok o' ∧ o'.locked = o.locked := by
  refine ⟨canon o, ?_, rfl⟩
  rw [parse_of_lx fun _ _ hs => Via.lx h hs]
  exact Via.from_toVal h
example := C35_Via_partial sampleVia sampleVia_wf

theorem C35_TraceArc_partial [TextRule] (o : TraceArc) (h : o.WF) (i : Nat) (nl : Bool) :
    ∃ o', (parseSexp (o.toSexpr i nl) >>= TraceArc.fromSexpr) = .ok o' ∧ o'.locked = o.locked := by
  refine ⟨canon o, ?_, rfl⟩
  rw [parse_of_lx fun _ _ hs => TraceArc.lx h hs]
  exact TraceArc.from_toVal h
example := C35_TraceArc_partial sampleTraceArc sampleTraceArc_wf

theorem C35_Group_partial [TextRule] (o : Group) (h : o.WF) (i : Nat) (nl : Bool) :
    ∃ o', (parseSexp (o.toSexpr i nl) >>= Group.fromSexpr) = .ok o' ∧ o'.locked = o.locked := by
  refine ⟨canon o, ?_, rfl⟩
  rw [parse_of_lx fun _ _ hs => Group.lx h hs]
  exact Group.from_toVal h
example := C35_Group_partial sampleGroup sampleGroup_wf

/-! ## C40: plot settings -/

/-- The flag `useAuxOrigin` does not appear in the text. -/
theorem C40_violated (o : PlotSettings) (b : Bool) (i : Nat) (nl : Bool) :
    PlotSettings.toSexpr { o with useAuxOrigin := b } i nl = o.toSexpr i nl := rfl

/-- All plot settings with the flag off survive saving and loading. -/
theorem C40_flag_off_partial [TextRule] (o : PlotSettings) (h : o.WF) (hf : o.useAuxOrigin = false) (i : Nat) (nl : Bool) :
    Reloads (o.toSexpr i nl) PlotSettings.fromSexpr o := by
  have := C40_PlotSettings_partial o h i nl
  rwa [show ({ o with useAuxOrigin := false } : PlotSettings) = o by rw [← hf]] at this
example := C40_flag_off_partial { samplePlotSettings with useAuxOrigin := false } { samplePlotSettings_wf with } rfl

end Kiutils
