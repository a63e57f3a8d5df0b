import Verif.Proofs.FixedFormat
import Verif.FloatGrammar
import Verif.Props.RoundTrip
/-!
# C50: numbers written with a fixed number of decimals

The plot settings (six decimals) and the fill colours of sheets (four decimals) are written with `f'{x:.6f}'` and `f'{x:.4f}'`.
Here is what this does to a number, in exact arithmetic: the text is the number rounded to that many decimals, the even one of
two equally near; and loading gives the number back exactly if it is itself a number with that many decimals.
-/
namespace Kiutils
open F64

/-- The text written is a plain number with exactly `p` decimals, and its value is the exact value of the double rounded to `p`
decimals, ties to even (`Rounds x r`: `r` is the integer nearest to `x`). -/
theorem C50_rounded (p : Nat) (f : F64) (hf : ∀ b, f ≠ .inf b) :
    ∃ n : NumLit, formatFixed p (.flt f) = .ok n.src ∧ n.Wf ∧ n.sign = (if f.neg? then some '-' else none) ∧
      (n.fp.getD []).length = p ∧ Rounds (f.absVal * 10 ^ p) (digitsVal (n.ip ++ n.fp.getD [])) := by
  cases f with
  | inf b => exact absurd rfl (hf b)
  | fin neg m e =>
    obtain ⟨n, h1, h2, h3, h4, h5⟩ := fmtFixed_spec p neg m e
    exact ⟨n, by rw [h2]; rfl, h1, h3, h4, h5⟩

/-- A text in the place of a number: if it denotes a finite number by the grammar of `float()`, its value is written in the same
way; if it denotes an infinity or not-a-number, this word is written; any other text raises `ValueError`. -/
theorem C50_text (p : Nat) (s : Str) :
    (∀ f, FloatGrammar.FloatText s (some f) → floatFixed p (.str s) = formatFixed p (.flt f)) ∧
    (FloatGrammar.FloatText s none → floatFixed p (.str s) = .ok k!"nan") ∧
    ((∀ x, ¬ FloatGrammar.FloatText s x) → floatFixed p (.str s) = .error .valueError) := by
  refine ⟨fun f h => ?_, fun h => ?_, fun h => ?_⟩
  · rw [floatFixed, (FloatGrammar.floatOfText_iff _ _).mpr h]; rfl
  · rw [floatFixed, (FloatGrammar.floatOfText_iff _ _).mpr h]
  · rw [floatFixed]
    cases hs : floatOfText s with
    | none => rfl
    | some x => exact absurd ((FloatGrammar.floatOfText_iff _ _).mp hs) (h x)

/-- The text ` -1_0.5e-1` denotes the double nearest to `-1.05`. -/
example : FloatGrammar.FloatText k!" -1_0.5e-1" (some (FloatGrammar.value true k!"10" k!"5" (-1))) :=
  .mk (a := [' ']) (b := []) (sg := ['-']) (s := k!"1_0.5e-1") (by simp [FloatGrammar.Space]; decide) (fun _ h => nomatch h) .minus
    (.number (s := k!"1_0.5") (t := k!"e-1")
      (.both (a := k!"1_0") (b := k!"5") (.under (by decide) (.one (by decide))) (.one (by decide)))
      (.some (sg := ['-']) (s := ['1']) (ds := ['1']) (.inl rfl) .minus (.one (by decide))))

/-- A double that stands for a number with `p` decimals, of less than `2^52` units of the last decimal. -/
def F64.IsDecimal (p : Nat) (f : F64) : Prop := ∃ D < 2 ^ 52, f = ofRat f.neg? D (10 ^ p)

/-- Such a number is written as that decimal. -/
theorem C50_digits (p : Nat) (hp : p ≤ 250) (neg : Bool) (D : Nat) (hD : D < 2 ^ 52) :
    ∃ n : NumLit, formatFixed p (.flt (ofRat neg D (10 ^ p))) = .ok n.src ∧ n.Wf ∧ n.sign = (if neg then some '-' else none) ∧
      (n.fp.getD []).length = p ∧ digitsVal (n.ip ++ n.fp.getD []) = D := by
  obtain ⟨m, e, h, hr⟩ := fixed_near (neg := neg) hD hp
  obtain ⟨n, h1, h2, h3, h4, h5⟩ := fmtFixed_spec p neg m e
  exact ⟨n, by rw [h2, h]; rfl, h1, h3, h4, h5.unique hr⟩

theorem fixOk_decimal {p : Nat} (hp : p ≤ 250) {f : F64} (h : f.IsDecimal p) : FixOk p (.flt f) := by
  obtain ⟨D, hD, h⟩ := h
  obtain ⟨n, h1, h2, h3, h4, h5⟩ := C50_digits p hp f.neg? D hD
  rw [← h] at h1
  refine ⟨n, h2, ?_, ?_⟩
  · have : formatFixed p (.flt f) = .ok (F64.fmtFixed p f) := rfl
    rw [this] at h1
    exact (Except.ok.inj h1).symm
  · unfold NumLit.val
    have hs : (n.sign == some '-') = f.neg? := by rw [h3]; cases f.neg? <;> rfl
    rw [hs]
    unfold F64.ofDecimal
    rw [h5, h4, ← h]

/-- Exactly the numbers with at most `p` decimals survive: the text is read as the same number if and only if the double is the
nearest one to a number with `p` decimals. (Of a size below `2^52` units, where the units are wider than the doubles are dense.) -/
theorem C50_survives (p : Nat) (hp : p ≤ 250) (f : F64) (hf : f.Valid) (hsz : f.absVal * 10 ^ p < 2 ^ 52 - 1 / 2)
    (hinf : ∀ b, f ≠ .inf b) :
    (∃ s, formatFixed p (.flt f) = .ok s ∧ ∃ n : NumLit, n.Wf ∧ n.src = s ∧ n.val = Val.canon (.flt f)) ↔ f.IsDecimal p := by
  constructor
  · rintro ⟨s, hs, n, hw, rfl, hv⟩
    obtain ⟨n', h1, h2, h3, h4, h5⟩ := C50_rounded p f hinf
    rw [hs] at h1
    cases hw.src_inj h2 (Except.ok.inj h1)
    cases f with
    | inf b => exact absurd rfl (hinf b)
    | fin neg m e =>
      refine ⟨digitsVal (n.ip ++ n.fp.getD []), ?_, ?_⟩
      · have hb := h5.1
        have : ((digitsVal (n.ip ++ n.fp.getD []) : ℕ) : ℚ) < ((2 ^ 52 : ℕ) : ℚ) := by
          push_cast
          linarith
        exact_mod_cast this
      · symm
        have hsg : (n.sign == some '-') = neg := by
          rw [h3]; change ((if neg then some '-' else none) == some '-') = neg; cases neg <;> rfl
        unfold NumLit.val at hv
        rw [hsg] at hv
        unfold F64.ofDecimal at hv
        rw [h4] at hv
        refine canon_flt_inj hf (ofRat_valid _ (by positivity)) ?_ hv
        rw [ofRat_neg]
        rfl
  · intro h
    obtain ⟨n, h1, h2, h3⟩ := fixOk_decimal hp h
    exact ⟨_, rfl, n, h1, h2, h3⟩

/-! ## The classes concerned -/

/-- A number whose value has at most `p` decimals: an int that is a double, or a float that stands for a number with `p` decimals. -/
def Val.HasDecimals (p : Nat) : Val → Prop
  | .int n => ExactInt n
  | .flt f => f.IsDecimal p
  | _ => False

theorem fixOk_of_decimals {p : Nat} (hp : p ≤ 250) {v : Val} (h : v.HasDecimals p) : FixOk p v := by
  cases v with
  | int n => exact fixOk_int h
  | flt f => exact fixOk_decimal hp h
  | str _ => cases h
  | list _ => cases h

theorem PlotSettings.wf_decimals [TextRule] {o : PlotSettings} (h : o.WF) {d g : Option Val} {pen : Val}
    (hd : ∀ v, d = some v → v.HasDecimals 6) (hg : ∀ v, g = some v → v.HasDecimals 6) (hp : pen.HasDecimals 6) :
    PlotSettings.WF { o with dashedLineDashRatio := d, dashedLineGapRatio := g, hpglPenDiameter := pen } :=
  { h with
    dashedLineDashRatio := fun v hv => fixOk_of_decimals (by norm_num) (hd v hv)
    dashedLineGapRatio := fun v hv => fixOk_of_decimals (by norm_num) (hg v hv)
    hpglPenDiameter := fixOk_of_decimals (by norm_num) hp }

/-- Well-formed plot settings may be given any ratios and any pen diameter with at most six decimals: they are saved and loaded
unchanged. (The auxiliary origin is C40.) -/
theorem C50_PlotSettings [TextRule] (o : PlotSettings) (h : o.WF) (d g : Option Val) (pen : Val)
    (hd : ∀ v, d = some v → v.HasDecimals 6) (hg : ∀ v, g = some v → v.HasDecimals 6) (hp : pen.HasDecimals 6) (i : Nat) (nl : Bool) :
    Reloads (({ o with dashedLineDashRatio := d, dashedLineGapRatio := g, hpglPenDiameter := pen } : PlotSettings).toSexpr i nl)
      PlotSettings.fromSexpr
      { o with dashedLineDashRatio := d, dashedLineGapRatio := g, hpglPenDiameter := pen, useAuxOrigin := false } :=
  C40_PlotSettings_partial _ (PlotSettings.wf_decimals h hd hg hp) i nl

theorem isDecimal_sample (p D : Nat) (neg : Bool) (h : D < 2 ^ 52) : (ofRat neg D (10 ^ p)).IsDecimal p :=
  ⟨D, h, by rw [ofRat_neg]⟩

example := C50_PlotSettings samplePlotSettings samplePlotSettings_wf none (some (.flt (ofRat false 3250000 (10 ^ 6))))
  (.flt (ofRat false 127000 (10 ^ 6))) nofun (fun _ hv => by cases hv; exact isDecimal_sample 6 _ _ (by norm_num))
  (isDecimal_sample 6 127000 false (by norm_num))

theorem HierarchicalSheet.wf_decimals [TextRule] {o : HierarchicalSheet} (h : o.WF) {a : Val} (ha : a.HasDecimals 4) :
    HierarchicalSheet.WF { o with fill := { o.fill with A := a, precision := some 4 } } :=
  { h with fill := ⟨h.fill.R, h.fill.G, h.fill.B, .inr ⟨4, rfl, fixOk_of_decimals (by norm_num) ha⟩⟩ }

/-- A well-formed sheet may be given any opacity with at most four decimals: it is saved and loaded unchanged, and the sheet loaded
can be saved and loaded again. -/
theorem C50_HierarchicalSheet [TextRule] (o : HierarchicalSheet) (h : o.WF) (a : Val) (ha : a.HasDecimals 4) (i : Nat) (nl : Bool) :
    Reloads (({ o with fill := { o.fill with A := a, precision := some 4 } } : HierarchicalSheet).toSexpr i nl)
      HierarchicalSheet.fromSexpr { o with fill := { o.fill with A := a, precision := some 4 } } :=
  C41_HierarchicalSheet _ (HierarchicalSheet.wf_decimals h ha) i nl
example := C50_HierarchicalSheet sampleHierarchicalSheet sampleHierarchicalSheet_wf (.flt (ofRat false 5000 (10 ^ 4)))
  (isDecimal_sample 4 5000 false (by norm_num))

/-! ## Examples -/

/-- 0.625 with two decimals: a tie. -/
example := C50_rounded 2 (.fin false 5 (-3)) nofun
example : formatFixed 2 (.flt (.fin false 5 (-3))) = .ok k!"0.62" := by decide +kernel
example := C50_survives 6 (by norm_num) (.fin false (2 ^ 52) (-53)) ⟨by norm_num, by norm_num, by norm_num, .inl (by norm_num)⟩
  (by norm_num [absVal]) nofun
example := C50_digits 6 (by norm_num) false 127000 (by norm_num)

set_option maxRecDepth 100000 in
/-- A third of a millimetre is not a number with six decimals: it is not kept. -/
example : formatFixed 6 (.flt (ofRat false 1 3)) = .ok k!"0.333333" := by decide +kernel

end Kiutils
