import Verif.Proofs.FixedTwice
import Verif.Props.FixedPoint
import Verif.Props.FixedFormat
/-!
# C78: what is rounded when it is saved is rounded once

The opacity of the fill of a sheet is written with four decimals once the sheet has been loaded, and the ratios and the pen diameter
of the plot settings with six decimals. The first such saving may round the number. Here: the second one does not round again.
-/
namespace Kiutils
open F64

/-- `w` is the number that remains of `v` if it is written with `p` decimals: ints do not change, and floats are rounded to the
nearest decimal (`Rounds`: ties to even), which is read as the double nearest to it. -/
def Remains (p : Nat) : Val → Val → Prop
  | .int k, w => w = .int k
  | .flt f, w => ∃ D, Rounds (f.absVal * 10 ^ p) D ∧ w = .flt (ofRat f.neg? D (10 ^ p))
  | _, _ => False

/-- A number other than infinities: an int that is a double, or a double. -/
def Finite : Val → Prop
  | .int k => ExactInt k
  | .flt f => f.Valid ∧ ∀ b, f ≠ .inf b
  | _ => False

theorem Remains.unique {p : Nat} {v w w' : Val} (h : Remains p v w) (h' : Remains p v w') : w = w' := by
  cases v with
  | int k => exact Eq.trans h (Eq.symm h')
  | flt f =>
    obtain ⟨D, h1, h2⟩ := h
    obtain ⟨D', h1', h2'⟩ := h'
    rw [h2, h2', h1.unique h1']
  | str _ => cases h
  | list _ => cases h

/-- Every finite number is written like the number that remains of it, which is written without loss. -/
theorem Finite.remains (p : Nat) {v : Val} (h : Finite v) : ∃ w, Remains p v w ∧ formatFixed p v = formatFixed p w ∧ FixOk p w := by
  cases v with
  | int k => exact ⟨_, rfl, rfl, fixOk_int h⟩
  | flt f =>
    obtain ⟨D, h1, h2, h3⟩ := fix_like p h.1 h.2
    exact ⟨_, ⟨D, h1, rfl⟩, congrArg Except.ok h2.symm, h3⟩
  | str _ => cases h
  | list _ => cases h

/-- An integral double other than zero is written like the int. -/
theorem fmtFixedVal_canon (p : Nat) {g : F64} (hg : g.Valid) (h0 : Val.canon (.flt g) ≠ .int 0) :
    fmtFixedVal p (Val.canon (.flt g)) = fmtFixedVal p (.flt g) := by
  by_cases hi : g.isInteger = true
  · have hc : Val.canon (.flt g) = .int g.toInt := by simp [Val.canon, hi]
    rw [hc] at h0 ⊢
    cases g with
    | inf _ => cases hi
    | fin neg m e =>
      obtain ⟨a, ha, hk⟩ := integral_abs hi
      rw [hk] at h0 ⊢
      simp only [fmtFixedVal]
      congr 1
      have ha0 : a ≠ 0 := by rintro rfl; exact h0 (by cases neg <;> rfl)
      have e1 : decide ((if neg then -(a : Int) else a) < 0) = neg := by cases neg <;> simp; omega
      have e2 : (if neg then -(a : Int) else a).natAbs = a := by cases neg <;> simp
      rw [e1, e2]
      exact ofRat_self hg Nat.one_pos (by rw [← ha]; simp)
  · have hc : Val.canon (.flt g) = .flt g := by simp [Val.canon, hi]
    rw [hc]

/-- A number written with `p` decimals and read again is written with `p` decimals without loss: reading that text gives the same
number. The two texts are the same, unless the number is zero (then the sign is lost: `-0.00` is read as 0 and written as `0.00`). -/
theorem C78_number (p : Nat) (f : F64) (hf : f.Valid) (hinf : ∀ b, f ≠ .inf b) :
    ∃ n n' : NumLit, n.Wf ∧ n'.Wf ∧ formatFixed p (.flt f) = .ok n.src ∧ formatFixed p n.val = .ok n'.src ∧ n'.val = n.val ∧
      (n.val ≠ .int 0 → n'.src = n.src) := by
  obtain ⟨D, h1, h2, h3⟩ := fix_like p hf hinf
  have h4 : FixOk p (Val.canon (.flt (ofRat f.neg? D (10 ^ p)))) := Stable.keep h3
  obtain ⟨n, a1, a2, a3⟩ := h3
  rw [← a3] at h4
  obtain ⟨n', b1, b2, b3⟩ := id h4
  refine ⟨n, n', a1, b1, ?_, ?_, ?_, ?_⟩
  · rw [a2]; exact congrArg Except.ok h2.symm
  · rw [h4.formatFixed, b2]
  · rw [b3]; exact idem (Val.flt _)
  · intro h0
    have hv : (ofRat f.neg? D (10 ^ p)).Valid := ofRat_valid _ (by positivity)
    rw [b2, a2, a3]
    rw [a3] at h0
    exact fmtFixedVal_canon p hv h0
/-- 0.12345 is written as `0.1235` (or rather, the double nearest to it is), and 0.1235 as `0.1235`. -/
example := C78_number 4 f12345 (F64.Plain.valid ok_f12345) (by intro b h; revert h; cases b <;> decide)

/-! ## Sheets -/

theorem Finite.of_numOk {v : Val} (h : NumOk v) : Finite v := by
  cases v with
  | int k => exact h
  | flt f =>
    have h : f.Plain := h
    refine ⟨h.valid, ?_⟩
    rintro b rfl
    obtain ⟨n, h1, h2, -⟩ := h.lit
    exact absurd h2 (h1.src_ne_inf 0 b)
  | str _ => cases h
  | list _ => cases h

theorem Finite.of_fixOk {p : Nat} {v : Val} (h : FixOk p v) : Finite v.canon := by
  have hk : FixOk p v.canon := Stable.keep h
  obtain ⟨n, h1, h2, h3⟩ := h
  obtain ⟨n', h1', h2', -⟩ := hk
  have hv := n.float_valid
  have h3 : Val.canon (.flt n.float) = v.canon := h3
  rw [← h3] at h2' ⊢
  simp only [Val.canon] at h2' ⊢
  split
  · rename_i hi; exact exactInt_of_integral hv hi
  · rename_i hi
    rw [if_neg hi] at h2'
    refine ⟨hv, ?_⟩
    intro b hb
    rw [hb] at h2'
    exact absurd h2' (h1'.src_ne_inf p b)

/-- The sheet with another opacity. -/
def HierarchicalSheet.withA (o : HierarchicalSheet) (a : Val) : HierarchicalSheet := { o with fill := { o.fill with A := a } }

theorem HierarchicalSheet.finite [TextRule] {o : HierarchicalSheet} (h : o.WF) : Finite o.fill.A.canon := by
  rcases h.fill.A with ⟨-, h⟩ | ⟨p, -, h⟩
  · exact .of_numOk (Stable.keep h)
  · exact .of_fixOk h

/-- The sheet as loaded is written like a sheet that is written without loss. -/
theorem HierarchicalSheet.like [TextRule] {o : HierarchicalSheet} (h : o.WF) {w : Val} (hf : formatFixed 4 o.fill.A.canon = formatFixed 4 w)
    (hw : FixOk 4 w) : ((canon o.asRead).withA w).WF ∧ ∀ i nl, (canon o.asRead).toSexpr i nl = ((canon o.asRead).withA w).toSexpr i nl := by
  constructor
  · have h0 : (o.asRead.withA w).WF := { h with fill := ⟨h.fill.R, h.fill.G, h.fill.B, .inr ⟨4, rfl, hw⟩⟩ }
    have h1 : (canon (o.asRead.withA w)).WF := Stable.keep h0
    exact { h1 with fill := ⟨h1.fill.R, h1.fill.G, h1.fill.B, .inr ⟨4, rfl, hw⟩⟩ }
  · intro i nl
    have h2 : (canon o.asRead).fill.toSexprM = ((canon o.asRead).withA w).fill.toSexprM :=
      congrArg (fun x : PyM Str => do
        let alpha ← x
        return py!"{indents 0}(color {o.fill.R.canon.pyStr} {o.fill.G.canon.pyStr} {o.fill.B.canon.pyStr} {alpha}){endl false}") hf
    unfold HierarchicalSheet.toSexpr
    rw [h2]
    rfl

theorem HierarchicalSheet.withA_canon (o : HierarchicalSheet) (w : Val) :
    canon ((canon o.asRead).withA w).asRead = (canon o.asRead).withA w.canon :=
  show (canon (canon o.asRead).asRead).withA w.canon = _ from congrArg (·.withA w.canon) (HierarchicalSheet.asRead_idem o)

/-- After two loads a sheet does not change any more, whatever its opacity is: `o₁` is the sheet after the first load, and saving
and loading that one gives a sheet `o₂` which is the same after each further saving and loading. The sheet `o₂` is `o₁` with the
opacity rounded to four decimals. -/
theorem C78_HierarchicalSheet [TextRule] (o : HierarchicalSheet) (h : o.WF) (i i' i'' : Nat) (nl nl' nl'' : Bool) :
    ∃ o₁ o₂ a, (o.toSexpr i nl >>= parseSexp >>= HierarchicalSheet.fromSexpr) = .ok o₁ ∧
      (o₁.toSexpr i' nl' >>= parseSexp >>= HierarchicalSheet.fromSexpr) = .ok o₂ ∧
      (o₂.toSexpr i'' nl'' >>= parseSexp >>= HierarchicalSheet.fromSexpr) = .ok o₂ ∧
      Remains 4 o₁.fill.A a ∧ o₂ = { o₁ with fill := { o₁.fill with A := a.canon } } := by
  obtain ⟨w, hw1, hw2, hw3⟩ := (HierarchicalSheet.finite h).remains 4
  obtain ⟨hX, ht⟩ := HierarchicalSheet.like h hw2 hw3
  obtain ⟨o₂, h1, h2⟩ := C21_HierarchicalSheet_partial _ hX hw3 i' nl' i'' nl''
  have h3 := (HierarchicalSheet.lexes hX i' nl').loads (HierarchicalSheet.from_toVal hX)
  simp only at h1 h2
  rw [h3] at h1
  refine ⟨canon o.asRead, o₂, w, (HierarchicalSheet.lexes h _ _).loads (HierarchicalSheet.from_toVal h), ?_, h2, hw1, ?_⟩
  · rw [ht, h3, h1]
  · rw [← Except.ok.inj h1, HierarchicalSheet.withA_canon]; rfl
example := C78_HierarchicalSheet sheet12345 sheet12345_wf

/-- Exactly the sheets whose opacity, as it is loaded, has at most four decimals do not change any more after one load. -/
theorem C78_HierarchicalSheet_once [TextRule] (o : HierarchicalSheet) (h : o.WF) (i i' : Nat) (nl nl' : Bool) :
    (∃ o₁, (o.toSexpr i nl >>= parseSexp >>= HierarchicalSheet.fromSexpr) = .ok o₁ ∧
      (o₁.toSexpr i' nl' >>= parseSexp >>= HierarchicalSheet.fromSexpr) = .ok o₁) ↔
    ∃ a, Remains 4 o.fill.A.canon a ∧ a.canon = o.fill.A.canon := by
  obtain ⟨w, hw1, hw2, hw3⟩ := (HierarchicalSheet.finite h).remains 4
  obtain ⟨hX, ht⟩ := HierarchicalSheet.like h hw2 hw3
  have h0 := (HierarchicalSheet.lexes h i nl).loads (HierarchicalSheet.from_toVal h)
  have h3 := (HierarchicalSheet.lexes hX i' nl').loads (HierarchicalSheet.from_toVal hX)
  rw [HierarchicalSheet.withA_canon] at h3
  rw [← ht] at h3
  constructor
  · rintro ⟨o₁, h1, h2⟩
    rw [h0] at h1
    cases h1
    rw [h3] at h2
    exact ⟨w, hw1, congrArg (fun o : HierarchicalSheet => o.fill.A) (Except.ok.inj h2)⟩
  · rintro ⟨a, ha, hc⟩
    cases ha.unique hw1
    refine ⟨_, h0, ?_⟩
    rw [h3, hc]
    rfl
example := C78_HierarchicalSheet_once sheet12345 sheet12345_wf

/-! ## Schematics -/

/-- What remains of a finite number. -/
noncomputable def Val.remains (p : Nat) (v : Val) : Val := open Classical in if h : ∃ w, Remains p v w then h.choose else v

theorem Finite.remains' (p : Nat) {v : Val} (h : Finite v) :
    Remains p v (v.remains p) ∧ formatFixed p v = formatFixed p (v.remains p) ∧ FixOk p (v.remains p) := by
  obtain ⟨w, h1, h2, h3⟩ := h.remains p
  have h4 : ∃ w, Remains p v w := ⟨w, h1⟩
  have h5 : v.remains p = w := by
    unfold Val.remains
    rw [dif_pos h4]
    exact h4.choose_spec.unique h1
  rw [h5]
  exact ⟨h1, h2, h3⟩

theorem forSM_map {α β : Type} (xs : List α) (f : α → β) (g : β → PyM Str) : forSM (xs.map f) g = forSM xs (fun x => g (f x)) := by
  induction xs with
  | nil => rfl
  | cons a r ih => rw [List.map_cons, forSM, forSM, ih]

theorem forSM_same {α : Type} {xs : List α} {f g : α → PyM Str} (h : ∀ a ∈ xs, f a = g a) : forSM xs f = forSM xs g := by
  induction xs with
  | nil => rfl
  | cons a r ih => rw [forSM, forSM, h a (by simp), ih fun b hb => h b (by simp [hb])]

/-- After two loads a schematic does not change any more: `o₁` is the schematic after the first load, and saving and loading that
one gives a schematic `o₂` which is the same after each further saving and loading. The schematic `o₂` is `o₁` with the opacities
of the sheets rounded to four decimals. -/
theorem C78_Schematic [TextRule] (o : Schematic) (h : o.WF) (i i' i'' : Nat) (nl nl' nl'' : Bool) :
    ∃ o₁ o₂ sheets, (o.toSexpr i nl >>= parseSexp >>= Schematic.fromSexpr) = .ok o₁ ∧
      (o₁.toSexpr i' nl' >>= parseSexp >>= Schematic.fromSexpr) = .ok o₂ ∧
      (o₂.toSexpr i'' nl'' >>= parseSexp >>= Schematic.fromSexpr) = .ok o₂ ∧
      o₂ = { o₁ with sheets := sheets } ∧
      List.Forall₂ (fun s s' : HierarchicalSheet => ∃ a, Remains 4 s.fill.A a ∧ s' = { s with fill := { s.fill with A := a.canon } })
        o₁.sheets sheets := by
  have hs := fun s (hs : s ∈ o.sheets) => (HierarchicalSheet.finite (h.sheets s hs)).remains' 4
  have hl := fun s (hm : s ∈ o.sheets) => HierarchicalSheet.like (h.sheets s hm) (hs s hm).2.1 (hs s hm).2.2
  let L := o.sheets.map fun s => (canon s.asRead).withA (s.fill.A.canon.remains 4)
  have hsh : (canon o.asRead).sheets = o.sheets.map fun s => canon s.asRead := by
    show canon (o.sheets.map HierarchicalSheet.asRead) = _
    exact List.map_map
  let X : Schematic := { canon o.asRead with sheets := L }
  have hX : X.WF := by
    have h1 : (canon (Schematic.asRead { o with sheets := [] })).WF :=
      Stable.keep (Schematic.WF.asRead (o := { o with sheets := [] }) { h with sheets := fun _ hv => nomatch hv } fun _ hv => nomatch hv)
    exact { h1 with
      sheets := fun v hv => by
        obtain ⟨s, hm, rfl⟩ := List.mem_map.1 hv
        exact (hl s hm).1 }
  have ht : (canon o.asRead).toSexpr i' nl' = X.toSexpr i' nl' := by
    have h2 : (forSM (canon o.asRead).sheets fun x => do return py!"\n{← x.toSexpr (i' + 2)}") =
        (forSM L fun x => do return py!"\n{← x.toSexpr (i' + 2)}") := by
      rw [hsh, forSM_map, forSM_map]
      refine forSM_same fun s hm => ?_
      simp only [(hl s hm).2]
    have h3 : X.sheets = L := rfl
    unfold Schematic.toSexpr
    rw [h2, h3]
  obtain ⟨o₂, h1, h2⟩ := C21_Schematic_partial X hX (fun v hv => by
    obtain ⟨s, hm, rfl⟩ := List.mem_map.1 hv
    exact (hs s hm).2.2) i' nl' i'' nl''
  have h3 := (Schematic.lexes hX i' nl').loads (Schematic.from_toVal hX)
  simp only at h1 h2
  rw [h3] at h1
  refine ⟨canon o.asRead, o₂, o.sheets.map fun s => (canon s.asRead).withA (s.fill.A.canon.remains 4).canon,
    (Schematic.lexes h _ _).loads (Schematic.from_toVal h), ?_, h2, ?_, ?_⟩
  · rw [ht, h3, h1]
  · rw [← Except.ok.inj h1]
    have hL : canon (L.map HierarchicalSheet.asRead) =
        o.sheets.map fun s => (canon s.asRead).withA (s.fill.A.canon.remains 4).canon := by
      show ((o.sheets.map _).map HierarchicalSheet.asRead).map canon = _
      rw [List.map_map, List.map_map]
      exact List.map_congr_left fun s _ => HierarchicalSheet.withA_canon s _
    have e1 : canon X.asRead = { canon (canon o.asRead).asRead with sheets := canon (L.map HierarchicalSheet.asRead) } := rfl
    rw [e1, Schematic.asRead_idem, hL]
  · rw [hsh, List.forall₂_map_left_iff, List.forall₂_map_right_iff]
    refine List.forall₂_same.2 fun s hm => ⟨_, (hs s hm).1, rfl⟩
example := C78_Schematic { sampleSchematic with sheets := [sheet12345] }
  { sampleSchematic_wf with sheets := by rintro v (_ | ⟨_, ⟨⟩⟩); exact sheet12345_wf }

/-! ## Plot settings -/

theorem Finite.float (p : Nat) {v : Val} (h : Finite v) : floatFixed p v = formatFixed p v := by
  cases v with
  | int _ => rfl
  | flt _ => rfl
  | str _ => cases h
  | list _ => cases h

/-- What remains of a value that may be missing. -/
def RemainsOpt (p : Nat) (v w : Option Val) : Prop := v = none ∧ w = none ∨ ∃ a b, v = some a ∧ w = some b ∧ Remains p a b

theorem Finite.opt (p : Nat) {v : Option Val} (h : ∀ a, v = some a → Finite a) : ∃ w, RemainsOpt p v w ∧ (∀ b, w = some b → FixOk p b) ∧
    ∀ f : Str → Str, (optSM v fun t => do return f (← floatFixed p t)) = optSM w fun t => do return f (← floatFixed p t) := by
  cases v with
  | none => exact ⟨none, .inl ⟨rfl, rfl⟩, nofun, fun _ => rfl⟩
  | some a =>
    obtain ⟨w, h1, h2, h3⟩ := (h a rfl).remains p
    refine ⟨some w, .inr ⟨a, w, rfl, rfl, h1⟩, fun b hb => by cases hb; exact h3, fun f => ?_⟩
    have : floatFixed p a = floatFixed p w := by rw [(h a rfl).float p, h2, h3.formatFixed, h3.floatFixed]
    simp only [optSM, this]

/-- Plot settings with any numbers are written like those with the numbers that remain. -/
theorem PlotSettings.like [TextRule] {o : PlotSettings} (h : o.WF) {d g : Option Val} {pen : Val} (hd : ∀ v, d = some v → Finite v)
    (hg : ∀ v, g = some v → Finite v) (hp : Finite pen) : ∃ d' g' pen', RemainsOpt 6 d d' ∧ RemainsOpt 6 g g' ∧ Remains 6 pen pen' ∧
      PlotSettings.WF { o with dashedLineDashRatio := d', dashedLineGapRatio := g', hpglPenDiameter := pen' } ∧
      ∀ i nl, PlotSettings.toSexpr { o with dashedLineDashRatio := d, dashedLineGapRatio := g, hpglPenDiameter := pen } i nl =
        PlotSettings.toSexpr { o with dashedLineDashRatio := d', dashedLineGapRatio := g', hpglPenDiameter := pen' } i nl := by
  obtain ⟨d', d1, d2, d3⟩ := Finite.opt 6 hd
  obtain ⟨g', g1, g2, g3⟩ := Finite.opt 6 hg
  obtain ⟨p', p1, p2, p3⟩ := hp.remains 6
  refine ⟨d', g', p', d1, g1, p1, { h with dashedLineDashRatio := d2, dashedLineGapRatio := g2, hpglPenDiameter := p3 }, fun i nl => ?_⟩
  have p4 : floatFixed 6 pen = floatFixed 6 p' := by rw [hp.float, p2, p3.formatFixed, p3.floatFixed]
  unfold PlotSettings.toSexpr
  have d4 := d3 fun x => py!"{indents i}  (dashed_line_dash_ratio {x})\n"
  have g4 := g3 fun x => py!"{indents i}  (dashed_line_gap_ratio {x})\n"
  simp only [d4, g4, p4]

/-- Plot settings with any ratios and any pen diameter are saved and loaded as the same settings with these numbers rounded to six
decimals, and after that they do not change any more. (The auxiliary origin is C40.) -/
theorem C78_PlotSettings [TextRule] (o : PlotSettings) (h : o.WF) (d g : Option Val) (pen : Val) (hd : ∀ v, d = some v → Finite v)
    (hg : ∀ v, g = some v → Finite v) (hp : Finite pen) (i i' : Nat) (nl nl' : Bool) :
    ∃ d' g' pen', RemainsOpt 6 d d' ∧ RemainsOpt 6 g g' ∧ Remains 6 pen pen' ∧
      Reloads (({ o with dashedLineDashRatio := d, dashedLineGapRatio := g, hpglPenDiameter := pen } : PlotSettings).toSexpr i nl)
        PlotSettings.fromSexpr
        { o with dashedLineDashRatio := d', dashedLineGapRatio := g', hpglPenDiameter := pen', useAuxOrigin := false } ∧
      Settles (fun o : PlotSettings => o.toSexpr i nl) (fun o => o.toSexpr i' nl') PlotSettings.fromSexpr
        { o with dashedLineDashRatio := d, dashedLineGapRatio := g, hpglPenDiameter := pen } := by
  obtain ⟨d', g', p', h1, h2, h3, hw, ht⟩ := PlotSettings.like h hd hg hp
  refine ⟨d', g', p', h1, h2, h3, ?_, ?_⟩
  · rw [ht]; exact C40_PlotSettings_partial _ hw i nl
  · have := C21_PlotSettings _ hw i nl i' nl'
    unfold Settles at this ⊢
    simp only at this ⊢
    rw [ht]
    exact this
example := C78_PlotSettings samplePlotSettings samplePlotSettings_wf none (some (.flt f12345)) (.flt f12345) nofun
  (fun _ hv => by cases hv; exact .of_numOk ok_f12345) (.of_numOk ok_f12345)

/-- The board with other plot settings. -/
def Board.withPlot (o : Board) (p : PlotSettings) : Board := { o with setup := { o.setup with plotSettings := some p } }

/-- The plot settings with other numbers. -/
def PlotSettings.withNumbers (o : PlotSettings) (d g : Option Val) (pen : Val) : PlotSettings :=
  { o with dashedLineDashRatio := d, dashedLineGapRatio := g, hpglPenDiameter := pen }

/-- The same for boards: the plot settings of a well-formed board may have any numbers. -/
theorem C78_Board [TextRule] (o : Board) (h : o.WF) (q : PlotSettings) (hq : o.setup.plotSettings = some q) (d g : Option Val) (pen : Val)
    (hd : ∀ v, d = some v → Finite v) (hg : ∀ v, g = some v → Finite v) (hp : Finite pen) (tedit : Val) (i i' : Nat) (nl nl' : Bool) :
    ∃ d' g' pen', RemainsOpt 6 d d' ∧ RemainsOpt 6 g g' ∧ Remains 6 pen pen' ∧
      Reloads ((o.withPlot (q.withNumbers d g pen)).toSexpr i nl) (Board.fromSexpr tedit)
        { o.withPlot { q.withNumbers d' g' pen' with useAuxOrigin := false } with
          footprints := o.footprints.map fun f => { f with filePath := none }
          filePath := none } ∧
      Settles (fun o : Board => o.toSexpr i nl) (fun o => o.toSexpr i' nl') (Board.fromSexpr tedit)
        (o.withPlot (q.withNumbers d g pen)) := by
  obtain ⟨d', g', p', h1, h2, h3, hw, ht⟩ := PlotSettings.like (h.setup.plotSettings q hq) hd hg hp
  have hB : (o.withPlot (q.withNumbers d' g' p')).WF :=
    { h with setup := { h.setup with plotSettings := fun v hv => by cases hv; exact hw } }
  have ht : ∀ i nl, (q.withNumbers d g pen).toSexpr i nl = (q.withNumbers d' g' p').toSexpr i nl := ht
  have hT : ∀ i nl, (o.withPlot (q.withNumbers d g pen)).toSexpr i nl = (o.withPlot (q.withNumbers d' g' p')).toSexpr i nl := by
    intro i nl
    have hS : ∀ j, (o.withPlot (q.withNumbers d g pen)).setup.toSexpr j = (o.withPlot (q.withNumbers d' g' p')).setup.toSexpr j := by
      intro j
      unfold SetupData.toSexpr Board.withPlot
      simp only [optSM, ht]
    unfold Board.toSexpr
    rw [hS]
    rfl
  refine ⟨d', g', p', h1, h2, h3, ?_, ?_⟩
  · rw [hT]; exact C19_Board _ hB tedit i nl
  · have := C21_Board _ hB tedit i nl i' nl'
    unfold Settles at this ⊢
    simp only at this ⊢
    rw [hT]
    exact this
example := C78_Board (sampleBoard.withPlot samplePlotSettings)
  { sampleBoard_wf with setup := { sampleBoard_wf.setup with plotSettings := fun v hv => by cases hv; exact samplePlotSettings_wf } }
  samplePlotSettings rfl none (some (.flt f12345)) (.flt f12345) nofun (fun _ hv => by cases hv; exact .of_numOk ok_f12345)
  (.of_numOk ok_f12345)

end Kiutils
