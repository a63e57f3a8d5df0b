import Verif.FloatRange
/-!
# Decimals of up to fifteen digits

A decimal of at most fifteen significant digits is determined by the double it is read as, and `repr` of the double is that
decimal again.
-/
namespace Kiutils
namespace F64

/-- The double read for a value in the normal range is off by at most one part in `2^53`. -/
theorem ofRat_close {neg : Bool} {n d m : Nat} {e : Int} (hd : 0 < d) (hlo : (1 / 100000 : ℚ) ≤ n / d)
    (h : ofRat neg n d = .fin neg m e) :
    (m * 2 ^ e : ℚ) - n / d ≤ (n / d) / 2 ^ 53 ∧ (n / d : ℚ) - m * 2 ^ e ≤ (n / d) / 2 ^ 53 := by
  have hn : 0 < n := by
    rcases Nat.eq_zero_or_pos n with h0 | h0
    · subst h0; norm_num at hlo
    · exact h0
  have e1 := isExp_expOf hn hd
  have r1 := roundDiv_rounds (n := (scale n d (expOf n d)).1) (scale_pos (n := n) hd (expOf n d))
  rw [scale_val hd] at r1
  rw [ofRat_eq hn hd e1 r1] at h
  generalize expOf n d = e0 at *
  generalize roundDiv (scale n d e0).1 (scale n d e0).2 = m0 at *
  generalize (n / d : ℚ) = v at *
  obtain ⟨a1, a2, a3⟩ := e1
  obtain ⟨b1, b2, -, -⟩ := r1
  have hpe : (0 : ℚ) < 2 ^ e0 := by positivity
  have hx : (m * 2 ^ e : ℚ) = m0 * 2 ^ e0 := by
    by_cases h53 : m0 = 2 ^ 53
    · simp only [if_pos h53] at h
      split at h
      · cases h
      · cases h
        rw [h53, zpow_add₀ (by norm_num)]; push_cast; norm_num; ring
    · simp only [if_neg h53] at h
      split at h
      · cases h
      · cases h; rfl
  rw [hx]
  have hnorm : 2 ^ (52 : ℤ) * 2 ^ e0 ≤ v := by
    refine a2.resolve_right fun he => ?_
    subst he
    have : (2 : ℚ) ^ (53 : ℤ) * 2 ^ (-1074 : ℤ) ≤ 2 ^ (-20 : ℤ) := by
      rw [← zpow_add₀ (by norm_num)]
      exact zpow_le_zpow_right₀ (by norm_num) (by norm_num)
    have h20 : (2 : ℚ) ^ (-20 : ℤ) < 1 / 100000 := by norm_num
    exact absurd (lt_of_lt_of_le a1 this) (not_lt.2 (h20.le.trans hlo))
  rw [show (2 : ℚ) ^ (52 : ℤ) = 4503599627370496 by norm_num] at hnorm
  rw [le_div_iff₀ hpe] at b1
  rw [div_le_iff₀ hpe] at b2
  norm_num
  constructor <;> linarith

/-- Two close multiples of a unit are equal. -/
theorem multiples_eq {t : ℚ} (ht : 0 < t) {a b : ℕ} (h1 : a * t - b * t < t) (h2 : b * t - a * t < t) : a = b := by
  have h1' : (a : ℚ) < b + 1 := by nlinarith
  have h2' : (b : ℚ) < a + 1 := by nlinarith
  have h1'' : a < b + 1 := by exact_mod_cast h1'
  have h2'' : b < a + 1 := by exact_mod_cast h2'
  omega

/-- The value of a decimal with at most fifteen digits is a multiple of the fifteenth digit of its double. -/
theorem dec15_multiple {D q : Nat} {x : ℚ} {p : Int} (hD : D < 10 ^ 15) (h1 : (10 : ℚ) ^ p ≤ x)
    (hx : x - D / 10 ^ q ≤ (D / 10 ^ q) / 2 ^ 53) :
    ∃ N : ℕ, (D / 10 ^ q : ℚ) = N * 10 ^ (p - 14) := by
  have hpq : p < 15 - q := by
    have hD' : (D : ℚ) ≤ 10 ^ 15 - 1 := by
      have : D + 1 ≤ 10 ^ 15 := hD
      have : ((D + 1 : ℕ) : ℚ) ≤ ((10 ^ 15 : ℕ) : ℚ) := by exact_mod_cast this
      push_cast at this
      linarith
    have hq : (0 : ℚ) < 10 ^ q := by positivity
    have hv : (D / 10 ^ q : ℚ) ≤ (10 ^ 15 - 1) / 10 ^ q := div_le_div_of_nonneg_right hD' hq.le
    have hlt : x < 10 ^ (15 - (q : ℤ)) := by
      rw [zpow_sub₀ (by norm_num), zpow_natCast, show (10 : ℚ) ^ (15 : ℤ) = 10 ^ 15 by norm_num]
      have : (10 : ℚ) ^ 15 / 10 ^ q = 10 ^ 15 * (1 / 10 ^ q) := by ring
      rw [this]
      have h3 : ((10 : ℚ) ^ 15 - 1) / 10 ^ q = (10 ^ 15 - 1) * (1 / 10 ^ q) := by ring
      rw [h3] at hv
      have h4 : (0 : ℚ) < 1 / 10 ^ q := by positivity
      generalize (1 : ℚ) / 10 ^ q = u at *
      generalize (D / 10 ^ q : ℚ) = v at *
      norm_num at *
      linarith
    exact (zpow_lt_zpow_iff_right₀ (by norm_num)).1 (lt_of_le_of_lt h1 hlt)
  refine ⟨D * 10 ^ (14 - p - q).toNat, ?_⟩
  push_cast
  rw [← zpow_natCast (10 : ℚ) (14 - p - q).toNat, Int.toNat_of_nonneg (by omega), mul_assoc, ← zpow_add₀ (by norm_num),
    div_eq_mul_inv, ← zpow_natCast, ← zpow_neg]
  congr 2
  omega

/-- The fifteen digits nearest to the double are the decimal it was read from. -/
theorem nearDec_15 {neg : Bool} {D q m : Nat} {e : Int} (hc : Canonical m e) (hm : m ≠ 0) (hD : D < 10 ^ 15)
    (hlo : (1 / 100000 : ℚ) ≤ D / 10 ^ q) (h : ofRat neg D (10 ^ q) = .fin neg m e) :
    decVal 15 (nearDec (num m e) (den e) (decExp (num m e) (den e)) 15) = D / 10 ^ q := by
  obtain ⟨h1, h2⟩ := decExp_double hc hm
  generalize decExp (num m e) (den e) = p at *
  have hcl := ofRat_close (by positivity) (by push_cast; exact hlo) h
  push_cast at hcl
  obtain ⟨c1, c2⟩ := hcl
  obtain ⟨N, hN⟩ := dec15_multiple hD h1 c1
  obtain ⟨a, b, hb, hab, hr, -⟩ := ten_scale (n := num m e) (den_pos e) (p - (15 : ℕ) + 1)
  have hs : p - ((15 : ℕ) : ℤ) + 1 = p - 14 := by push_cast; ring
  rw [num_val, hs] at hab
  have ht : (0 : ℚ) < 10 ^ (p - 14) := by positivity
  have hp1 : (10 : ℚ) ^ (p + 1) = 10 ^ 15 * 10 ^ (p - 14) := by
    rw [show (10 : ℚ) ^ 15 = 10 ^ (15 : ℤ) by norm_num, ← zpow_add₀ (by norm_num)]; congr 1; ring
  rw [hp1] at h2
  have hround : roundDiv a b = N := by
    refine (roundDiv_rounds hb).unique ?_
    rw [hab]
    rw [hN] at c1 c2
    generalize (10 : ℚ) ^ (p - 14) = t at *
    generalize (m * 2 ^ e : ℚ) = x at *
    refine .of_near ?_ ?_
    · rw [lt_div_iff₀ ht]; norm_num at *; linarith
    · rw [div_lt_iff₀ ht]; norm_num at *; linarith
  have hrange : 10 ^ 14 ≤ N ∧ N ≤ 10 ^ 15 := by
    have := (nearDec_spec (k := 15) (n := num m e) (den_pos e) (by norm_num) (p := p)
      (by rw [num_val]; exact h1) (by rw [num_val, hp1]; exact h2)).1
    unfold nearDec at this
    simp only [hr, hround] at this
    constructor
    · have := this.lo
      split at this
      · rename_i h; rw [h]; norm_num
      · exact this
    · have := this.hi
      split at this
      · rename_i h; rw [h]
      · exact this.le
  unfold nearDec
  simp only [hr, hround]
  rw [(isDec_carry (by norm_num) hrange.1 hrange.2).2, hN, hs]

/-- The search ends at fifteen digits or before. -/
theorem shortest_15 {neg : Bool} {D q m : Nat} {e : Int} (hc : Canonical m e) (hm : m ≠ 0) (hD : D < 10 ^ 15)
    (hlo : (1 / 100000 : ℚ) ≤ D / 10 ^ q) (h : ofRat neg D (10 ^ q) = .fin neg m e) :
    ∀ {fuel k : Nat}, 0 < k → k ≤ 15 → 16 ≤ k + fuel → ∃ k', 0 < k' ∧ k' ≤ 15 ∧
      IsDec k' (decExp (num m e) (den e)) (shortest neg m e fuel k) ∧
      ofDec neg (shortest neg m e fuel k).1 (shortest neg m e fuel k).2 k' = .fin neg m e
  | 0, k, h1, h2, h3 => by omega
  | fuel + 1, k, h1, h2, h3 => by
    obtain ⟨l1, l2⟩ := decExp_double hc hm
    rw [← num_val] at l1 l2
    unfold shortest
    simp only
    split
    · exact ⟨k, h1, h2, (nearDec_spec (den_pos e) h1 l1 l2).1, by assumption⟩
    · rename_i hno
      split
      · exact ⟨k, h1, h2, upDec_spec (den_pos e) h1 l1 l2, by assumption⟩
      · have : k ≠ 15 := by
          rintro rfl
          apply hno
          obtain ⟨a, b, hb, hab, hr⟩ := ofDec_eq neg (nearDec (num m e) (den e) (decExp (num m e) (den e)) 15) 15
          rw [hr, ← h]
          refine ofRat_congr hb (by positivity) ?_
          rw [hab, nearDec_15 hc hm hD hlo h]
          push_cast
          rfl
        exact shortest_15 hc hm hD hlo h (by omega) (by omega) (by omega)

/-- What the search finds is the decimal that the double was read from. -/
theorem shortest_value {neg : Bool} {D q m : Nat} {e : Int} (hc : Canonical m e) (hm : m ≠ 0) (hD : D < 10 ^ 15)
    (hlo : (1 / 10000 : ℚ) ≤ D / 10 ^ q) (h : ofRat neg D (10 ^ q) = .fin neg m e) :
    ∃ k', 0 < k' ∧ IsDec k' (decExp (num m e) (den e)) (shortest neg m e 17 1) ∧
      ofDec neg (shortest neg m e 17 1).1 (shortest neg m e 17 1).2 k' = .fin neg m e ∧
      decVal k' (shortest neg m e 17 1) = D / 10 ^ q := by
  obtain ⟨k, hk, hk15, hd, ho⟩ := shortest_15 hc hm hD (by linarith) h (fuel := 17) (k := 1) (by norm_num) (by norm_num) (by norm_num)
  refine ⟨k, hk, hd, ho, ?_⟩
  generalize shortest neg m e 17 1 = c at *
  obtain ⟨h1, h2⟩ := decExp_double hc hm
  generalize decExp (num m e) (den e) = p at *
  have hcl := ofRat_close (by positivity) (by push_cast; linarith) h
  push_cast at hcl
  obtain ⟨c1, c2⟩ := hcl
  obtain ⟨N, hN⟩ := dec15_multiple hD h1 c1
  obtain ⟨a, b, hb, hab, hr⟩ := ofDec_eq neg c k
  rw [hr] at ho
  have hM : ∃ M : ℕ, decVal k c = M * 10 ^ (p - 14) := by
    have hcp : p ≤ c.2 := by rcases hd.exp with h | h <;> omega
    refine ⟨c.1 * 10 ^ (c.2 - k + 1 - (p - 14)).toNat, ?_⟩
    unfold decVal
    push_cast
    rw [← zpow_natCast (10 : ℚ) (_ : ℤ).toNat, Int.toNat_of_nonneg (by omega), mul_assoc, ← zpow_add₀ (by norm_num)]
    congr 2
    omega
  obtain ⟨M, hM⟩ := hM
  have ht : (0 : ℚ) < 10 ^ (p - 14) := by positivity
  have hp0 : (10 : ℚ) ^ p = 10 ^ 14 * 10 ^ (p - 14) := by
    rw [show (10 : ℚ) ^ 14 = 10 ^ (14 : ℤ) by norm_num, ← zpow_add₀ (by norm_num)]; congr 1; ring
  have hp1 : (10 : ℚ) ^ (p + 1) = 10 ^ 15 * 10 ^ (p - 14) := by
    rw [show (10 : ℚ) ^ 15 = 10 ^ (15 : ℤ) by norm_num, ← zpow_add₀ (by norm_num)]; congr 1; ring
  have hdlo : (10 : ℚ) ^ p ≤ decVal k c := by
    unfold decVal
    have h3 : ((10 ^ (k - 1) : ℕ) : ℚ) ≤ c.1 := by exact_mod_cast hd.lo
    have h4 : (10 : ℚ) ^ c.2 ≤ c.1 * 10 ^ (c.2 - k + 1) := by
      have : (10 : ℚ) ^ c.2 = ((10 ^ (k - 1) : ℕ) : ℚ) * 10 ^ (c.2 - k + 1) := by
        push_cast
        rw [← zpow_natCast, ← zpow_add₀ (by norm_num)]; congr 1; omega
      rw [this]
      exact mul_le_mul_of_nonneg_right h3 (by positivity)
    refine le_trans (zpow_le_zpow_right₀ (by norm_num) ?_) h4
    rcases hd.exp with h | h <;> omega
  have hxlo : (1 / 10000 : ℚ) - 1 / 10000 / 2 ^ 53 ≤ m * 2 ^ e := by
    generalize (D / 10 ^ q : ℚ) = v at *
    norm_num at *
    linarith
  have hw : (1 / 100000 : ℚ) ≤ a / b := by
    rw [hab]
    have : (10 : ℚ) ^ (p + 1) ≤ 10 * decVal k c := by rw [zpow_add₀ (by norm_num)]; norm_num; linarith
    have : (1 / 10000 : ℚ) - 1 / 10000 / 2 ^ 53 < 10 * decVal k c := by linarith
    norm_num at this
    have hpp : (-5 : ℤ) ≤ p := by
      have : (10 : ℚ) ^ (-5 : ℤ) < 10 ^ (p + 1) := by
        refine lt_of_lt_of_le ?_ h2.le
        refine lt_of_lt_of_le ?_ hxlo
        norm_num
      have := (zpow_lt_zpow_iff_right₀ (by norm_num)).1 this
      omega
    have : (10 : ℚ) ^ (-5 : ℤ) ≤ 10 ^ p := zpow_le_zpow_right₀ (by norm_num) hpp
    norm_num at this
    linarith
  obtain ⟨d1, d2⟩ := ofRat_close hb hw ho
  rw [hab, hM] at d1 d2
  rw [hN] at c1 c2
  rw [hp1] at h2
  have : M = N := by
    refine multiples_eq ht ?_ ?_
    all_goals
      generalize (10 : ℚ) ^ (p - 14) = t at *
      generalize (m * 2 ^ e : ℚ) = x at *
      generalize (M * t : ℚ) = M' at *
      generalize (N * t : ℚ) = N' at *
      norm_num at *
      linarith
  rw [hM, hN, this]

end F64
end Kiutils
