import Verif.Proofs.FixedFormat
/-!
# Fixed number of decimals, twice

Rounding a double to decimals, reading the text and rounding again gives the same decimals.
-/
namespace Kiutils
open F64

/-- The decimals of a double are the decimals of the double they are read as. -/
theorem rounds_again {neg : Bool} {p D m m0 : Nat} {e e0 : Int} (hc : Canonical m0 e0) (hr : Rounds ((m0 : ℚ) * 2 ^ e0 * 10 ^ p) D)
    (h : ofRat neg D (10 ^ p) = .fin neg m e) : Rounds ((m : ℚ) * 2 ^ e * 10 ^ p) D := by
  have hd : 0 < 10 ^ p := by positivity
  have hq : (0 : ℚ) < 10 ^ p := by positivity
  have hn := ofRat_nearest hd h hc
  rw [show (((10 ^ p : ℕ)) : ℚ) = 10 ^ p by push_cast; rfl] at hn
  have hn' := mul_le_mul_of_nonneg_right hn hq.le
  have key : ∀ z : ℚ, |(D / 10 ^ p : ℚ) - z| * 10 ^ p = |D - z * 10 ^ p| := by
    intro z
    rw [← abs_of_pos hq, ← abs_mul, abs_of_pos hq, sub_mul, div_mul_cancel₀ _ hq.ne']
  rw [key, key] at hn'
  generalize (m : ℚ) * 2 ^ e * 10 ^ p = y at *
  generalize (m0 : ℚ) * 2 ^ e0 * 10 ^ p = x at *
  obtain ⟨h1, h2, h3, h4⟩ := hr
  have hx : |(D : ℚ) - x| ≤ 1 / 2 := abs_le.2 ⟨by linarith, by linarith⟩
  have hy := abs_le.1 (hn'.trans hx)
  have tie : |(D : ℚ) - y| = 1 / 2 → D % 2 = 0 := by
    intro ht
    have : |(D : ℚ) - x| = 1 / 2 := le_antisymm hx (ht ▸ hn')
    rcases (abs_eq (by norm_num)).1 this with h | h
    · exact h3 (by linarith)
    · exact h4 (by linarith)
  refine ⟨by linarith [hy.2], by linarith [hy.1], fun ht => tie ?_, fun ht => tie ?_⟩
  · rw [ht]; norm_num
  · rw [ht, show (D : ℚ) - (D + 1 / 2) = -(1 / 2) by ring, abs_neg]; norm_num

/-- The decimals of a finite double are not read as an infinity. -/
theorem decimals_finite (neg : Bool) {p D m0 : Nat} {e0 : Int} (hc : Canonical m0 e0) (hr : Rounds ((m0 : ℚ) * 2 ^ e0 * 10 ^ p) D) :
    ∃ m e, ofRat neg D (10 ^ p) = .fin neg m e := by
  have hd : 0 < 10 ^ p := by positivity
  have hq : (0 : ℚ) < 10 ^ p := by positivity
  have hcast : (((10 ^ p : ℕ)) : ℚ) = 10 ^ p := by push_cast; rfl
  by_cases he : 0 ≤ e0
  · have hD : D = m0 * 2 ^ e0.toNat * 10 ^ p := by
      refine hr.unique ?_
      rw [two_zpow_of_nonneg he]
      push_cast
      exact .of_near (by push_cast; linarith) (by push_cast; linarith)
    refine ⟨m0, e0, ofRat_self (neg := neg) hc hd ?_⟩
    rw [hcast, hD, two_zpow_of_nonneg he]
    push_cast
    field_simp
  · by_cases hn : D = 0
    · exact ⟨0, -1074, by simp [ofRat, hn]⟩
    have e1 := isExp_expOf (Nat.pos_of_ne_zero hn) hd
    have r1 := roundDiv_rounds (n := (scale D (10 ^ p) (expOf D (10 ^ p))).1) (scale_pos (n := D) hd (expOf D (10 ^ p)))
    rw [scale_val hd] at r1
    rw [ofRat_eq (Nat.pos_of_ne_zero hn) hd e1 r1]
    generalize roundDiv _ _ = m at *
    generalize expOf D (10 ^ p) = e at *
    have hle : e ≤ 1 := by
      by_contra hlt
      rcases e1.2.1 with h | h
      · have h2 : (2 : ℚ) ^ (2 : ℤ) ≤ 2 ^ e := zpow_le_zpow_right₀ (by norm_num) (by omega)
        have h4 : (4 : ℚ) ≤ 2 ^ e := by norm_num at h2; exact h2
        have hm : (m0 : ℚ) ≤ 2 ^ 53 := by exact_mod_cast hc.man.le
        have hz : (2 : ℚ) ^ e0 ≤ 1 := zpow_le_one_of_nonpos₀ (by norm_num) (by omega)
        have hz0 : (0 : ℚ) < 2 ^ e0 := by positivity
        have hD : (D : ℚ) ≤ m0 * 2 ^ e0 * 10 ^ p + 1 / 2 := by linarith [hr.1]
        have h1p : (1 : ℚ) ≤ 10 ^ p := one_le_pow₀ (by norm_num)
        have hmz : (m0 : ℚ) * 2 ^ e0 ≤ 2 ^ 53 := by nlinarith
        have : (D : ℚ) ≤ (2 ^ 53 + 1) * 10 ^ p := by nlinarith
        rw [hcast, le_div_iff₀ hq] at h
        have h5 : (2 : ℚ) ^ (52 : ℤ) * 2 ^ e * 10 ^ p ≥ 2 ^ 54 * 10 ^ p := by
          rw [show (2 : ℚ) ^ (52 : ℤ) = 2 ^ 52 by norm_num]
          nlinarith
        nlinarith
      · omega
    refine ⟨_, _, if_neg ?_⟩
    split <;> omega

theorem fmt_rounds (p : Nat) (m : Nat) (e : Int) : Rounds ((m : ℚ) * 2 ^ e * 10 ^ p) (roundDiv (num m e * 10 ^ p) (den e)) := by
  have := roundDiv_rounds (n := num m e * 10 ^ p) (den_pos e)
  rwa [show (((num m e * 10 ^ p : ℕ) : ℚ) / den e) = m * 2 ^ e * 10 ^ p by
    rw [← num_val]; push_cast; rw [mul_div_right_comm]] at this

/-- Doubles with the same decimals are written in the same way. -/
theorem fmtFixed_congr {p D m m' : Nat} {e e' : Int} (neg : Bool) (h : Rounds ((m : ℚ) * 2 ^ e * 10 ^ p) D)
    (h' : Rounds ((m' : ℚ) * 2 ^ e' * 10 ^ p) D) : F64.fmtFixed p (.fin neg m e) = F64.fmtFixed p (.fin neg m' e') := by
  have h1 := (fmt_rounds p m e).unique h
  have h2 := (fmt_rounds p m' e').unique h'
  unfold F64.fmtFixed
  simp only [h1, h2]

/-- Every finite double is written like one that is written without loss: the one its decimals are read as. -/
theorem fix_like (p : Nat) {f : F64} (hf : f.Valid) (hinf : ∀ b, f ≠ .inf b) :
    ∃ D, Rounds (f.absVal * 10 ^ p) D ∧ F64.fmtFixed p (ofRat f.neg? D (10 ^ p)) = F64.fmtFixed p f ∧
      FixOk p (.flt (ofRat f.neg? D (10 ^ p))) := by
  cases f with
  | inf b => exact absurd rfl (hinf b)
  | fin neg m0 e0 =>
    have hc : Canonical m0 e0 := hf
    obtain ⟨n, h1, h2, h3, h4, h5⟩ := fmtFixed_spec p neg m0 e0
    obtain ⟨m, e, hme⟩ := decimals_finite neg hc h5
    have h6 := rounds_again hc h5 hme
    refine ⟨digitsVal (n.ip ++ n.fp.getD []), h5, ?_, ?_⟩
    · show F64.fmtFixed p (ofRat neg _ _) = _
      rw [hme]
      exact fmtFixed_congr neg h6 h5
    · refine ⟨n, h1, ?_, ?_⟩
      · show n.src = F64.fmtFixed p (ofRat neg _ _)
        rw [h2, hme]
        exact fmtFixed_congr neg h5 h6
      · show Val.canon (.flt (ofDecimal (n.sign == some '-') n.ip (n.fp.getD []))) = Val.canon (.flt (ofRat neg _ _))
        have hs : (n.sign == some '-') = neg := by rw [h3]; cases neg <;> rfl
        rw [hs]
        unfold F64.ofDecimal
        rw [h4]

end Kiutils
