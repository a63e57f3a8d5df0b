import Verif.Numbers
import Mathlib.Algebra.Order.Field.Power
import Mathlib.Data.Rat.Cast.Order
import Mathlib.Tactic.Linarith
import Mathlib.Tactic.Positivity
import Mathlib.Tactic.FieldSimp
import Mathlib.Tactic.Ring
/-!
# Doubles as rational numbers

What the conversion from a literal does, in terms of rational numbers: the exponent and the mantissa of the nearest double are
determined by the value, a double is the nearest double of itself, and 17 decimal digits determine a double. Hence `repr` of
every double is read back as that double, and is in plain decimal notation for zero and for absolute values from 0.0001 up to
(but not including) 1e16.
-/
namespace Kiutils
namespace F64

/-! ## Rounding to an integer -/

theorem scale_pos {n d : Nat} (hd : 0 < d) (e : Int) : 0 < (scale n d e).2 := by
  unfold scale
  split
  · exact hd
  · exact Nat.mul_pos hd (Nat.two_pow_pos _)

theorem two_zpow_of_nonneg {e : Int} (h : 0 ≤ e) : (2 : ℚ) ^ e = ((2 ^ e.toNat : ℕ) : ℚ) := by
  conv_lhs => rw [← Int.toNat_of_nonneg h]
  rw [zpow_natCast]; push_cast; rfl

theorem ten_zpow_of_nonneg {e : Int} (h : 0 ≤ e) : (10 : ℚ) ^ e = ((10 ^ e.toNat : ℕ) : ℚ) := by
  conv_lhs => rw [← Int.toNat_of_nonneg h]
  rw [zpow_natCast]; push_cast; rfl

theorem two_zpow_of_neg {e : Int} (h : e < 0) : (2 : ℚ) ^ e = 1 / ((2 ^ (-e).toNat : ℕ) : ℚ) := by
  rw [← two_zpow_of_nonneg (by omega), zpow_neg]; simp

theorem ten_zpow_of_neg {e : Int} (h : e < 0) : (10 : ℚ) ^ e = 1 / ((10 ^ (-e).toNat : ℕ) : ℚ) := by
  rw [← ten_zpow_of_nonneg (by omega), zpow_neg]; simp

theorem scale_val {n d : Nat} (hd : 0 < d) (e : Int) :
    ((scale n d e).1 : ℚ) / (scale n d e).2 = (n / d : ℚ) / 2 ^ e := by
  have hd' : (d : ℚ) ≠ 0 := by exact_mod_cast hd.ne'
  unfold scale
  split
  · rw [two_zpow_of_neg (by assumption)]
    push_cast
    field_simp
  · rw [two_zpow_of_nonneg (by omega)]
    push_cast
    field_simp

/-- `r` is the integer nearest to `x`, the even one if there are two. -/
def Rounds (x : ℚ) (r : ℕ) : Prop :=
  (r : ℚ) - 1 / 2 ≤ x ∧ x ≤ r + 1 / 2 ∧ (x = r - 1 / 2 → r % 2 = 0) ∧ (x = r + 1 / 2 → r % 2 = 0)

theorem Rounds.unique {x : ℚ} {r s : ℕ} (h1 : Rounds x r) (h2 : Rounds x s) : r = s := by
  obtain ⟨a1, a2, a3, a4⟩ := h1
  obtain ⟨b1, b2, b3, b4⟩ := h2
  have h1 : (r : ℚ) ≤ s + 1 := by linarith
  have h2 : (s : ℚ) ≤ r + 1 := by linarith
  have h1' : r ≤ s + 1 := by exact_mod_cast h1
  have h2' : s ≤ r + 1 := by exact_mod_cast h2
  rcases Nat.lt_trichotomy r s with h | h | h
  · exfalso
    have hs : s = r + 1 := by omega
    subst hs
    push_cast at *
    have e : x = r + 1 / 2 := by linarith
    have := a4 e
    have := b3 (by linarith)
    omega
  · exact h
  · exfalso
    have hs : r = s + 1 := by omega
    subst hs
    push_cast at *
    have e : x = s + 1 / 2 := by linarith
    have := b4 e
    have := a3 (by linarith)
    omega

theorem Rounds.of_near {x : ℚ} {r : ℕ} (h1 : (r : ℚ) - 1 / 2 < x) (h2 : x < r + 1 / 2) : Rounds x r :=
  ⟨h1.le, h2.le, fun e => absurd e h1.ne', fun e => absurd e h2.ne⟩

theorem roundDiv_rounds {n d : Nat} (hd : 0 < d) : Rounds (n / d : ℚ) (roundDiv n d) := by
  have hd' : (0 : ℚ) < d := by exact_mod_cast hd
  have hn : (n : ℚ) = d * (n / d : ℕ) + (n % d : ℕ) := by exact_mod_cast (Nat.div_add_mod n d).symm
  have hr : n % d < d := Nat.mod_lt _ hd
  unfold roundDiv
  simp only
  generalize n / d = q at *
  generalize n % d = r at *
  have hx : (n / d : ℚ) = q + r / d := by rw [hn]; field_simp
  rw [hx]
  have hr0 : (0 : ℚ) ≤ r / d := by positivity
  split
  · rename_i h
    have h' : (2 : ℚ) * r < d := by exact_mod_cast h
    have : (r : ℚ) / d < 1 / 2 := by rw [div_lt_div_iff₀ hd' (by norm_num)]; linarith
    exact .of_near (by linarith) (by linarith)
  · split
    · rename_i h
      have h' : (d : ℚ) < 2 * r := by exact_mod_cast h
      have h1 : 1 / 2 < (r : ℚ) / d := by rw [div_lt_div_iff₀ (by norm_num) hd']; linarith
      have h2 : (r : ℚ) / d < 1 := by rw [div_lt_one hd']; exact_mod_cast hr
      exact .of_near (by push_cast; linarith) (by push_cast; linarith)
    · have h' : (2 : ℚ) * r = d := by
        have : 2 * r = d := by omega
        exact_mod_cast this
      have h1 : (r : ℚ) / d = 1 / 2 := by rw [div_eq_div_iff hd'.ne' (by norm_num)]; linarith
      rw [h1]
      split
      · rename_i h
        exact ⟨by linarith, by linarith, fun _ => h, fun _ => h⟩
      · exact ⟨by push_cast; linarith, by push_cast; linarith, fun _ => by omega, fun _ => by omega⟩

/-! ## The exponent -/

/-- `e` is the exponent of the doubles around `v`. -/
def IsExp (v : ℚ) (e : Int) : Prop := v < 2 ^ (53 : ℤ) * 2 ^ e ∧ (2 ^ (52 : ℤ) * 2 ^ e ≤ v ∨ e = -1074) ∧ -1074 ≤ e

theorem IsExp.unique {v : ℚ} {e f : Int} (h1 : IsExp v e) (h2 : IsExp v f) : e = f := by
  have key : ∀ {e f : Int}, IsExp v e → IsExp v f → ¬ e < f := by
    intro e f h1 h2 h
    obtain ⟨a1, a2, a3⟩ := h1
    obtain ⟨b1, b2, b3⟩ := h2
    rcases b2 with b2 | b2
    · rw [← zpow_add₀ (by norm_num)] at a1 b2
      have := lt_of_le_of_lt b2 a1
      rw [zpow_lt_zpow_iff_right₀ (by norm_num)] at this
      omega
    · omega
  have := key h1 h2
  have := key h2 h1
  omega

theorem isExp_expOf {n d : Nat} (hn : 0 < n) (hd : 0 < d) : IsExp (n / d : ℚ) (expOf n d) := by
  have hd' : (0 : ℚ) < d := by exact_mod_cast hd
  have hn' : (0 : ℚ) < n := by exact_mod_cast hn
  have n1 : (2 : ℚ) ^ (n.log2 : ℤ) ≤ n := by rw [zpow_natCast]; exact_mod_cast Nat.log2_self_le hn.ne'
  have n2 : (n : ℚ) < 2 ^ ((n.log2 : ℤ) + 1) := by
    rw [show (n.log2 : ℤ) + 1 = ((n.log2 + 1 : ℕ) : ℤ) by push_cast; rfl, zpow_natCast]; exact_mod_cast Nat.lt_log2_self
  have d1 : (2 : ℚ) ^ (d.log2 : ℤ) ≤ d := by rw [zpow_natCast]; exact_mod_cast Nat.log2_self_le hd.ne'
  have d2 : (d : ℚ) < 2 ^ ((d.log2 : ℤ) + 1) := by
    rw [show (d.log2 : ℤ) + 1 = ((d.log2 + 1 : ℕ) : ℤ) by push_cast; rfl, zpow_natCast]; exact_mod_cast Nat.lt_log2_self
  unfold expOf
  simp only
  generalize (n.log2 : ℤ) = ln at *
  generalize (d.log2 : ℤ) = ld at *
  set e0 : ℤ := ln - ld - 52 with he0
  have hp : ∀ z : ℤ, (0 : ℚ) < 2 ^ z := fun z => by positivity
  have lo : 2 ^ (51 : ℤ) * 2 ^ e0 < (n / d : ℚ) := by
    rw [lt_div_iff₀ hd', ← zpow_add₀ (by norm_num)]
    calc (2 : ℚ) ^ (51 + e0) * d < 2 ^ (51 + e0) * 2 ^ (ld + 1) := by exact mul_lt_mul_of_pos_left d2 (hp _)
      _ = 2 ^ ln := by rw [← zpow_add₀ (by norm_num)]; congr 1; omega
      _ ≤ n := n1
  have hi : (n / d : ℚ) < 2 ^ (53 : ℤ) * 2 ^ e0 := by
    rw [div_lt_iff₀ hd', ← zpow_add₀ (by norm_num)]
    calc (n : ℚ) < 2 ^ (ln + 1) := n2
      _ = 2 ^ (53 + e0) * 2 ^ ld := by rw [← zpow_add₀ (by norm_num)]; congr 1; omega
      _ ≤ 2 ^ (53 + e0) * d := by exact mul_le_mul_of_nonneg_left d1 (hp _).le
  have hs := scale_val (n := n) hd e0
  have hsp := scale_pos (n := n) hd e0
  generalize scale n d e0 = ab at *
  have hsp' : (0 : ℚ) < ab.2 := by exact_mod_cast hsp
  have hcmp : ab.1 / ab.2 < 2 ^ 52 ↔ (n / d : ℚ) < 2 ^ (52 : ℤ) * 2 ^ e0 := by
    rw [Nat.div_lt_iff_lt_mul hsp, ← div_lt_iff₀ (hp e0), ← hs, div_lt_iff₀ hsp']
    rw [show (2 : ℚ) ^ (52 : ℤ) = ((2 ^ 52 : ℕ) : ℚ) by norm_num]
    exact_mod_cast Iff.rfl
  have hmain : ∀ e1 : ℤ, 2 ^ (52 : ℤ) * 2 ^ e1 ≤ (n / d : ℚ) → (n / d : ℚ) < 2 ^ (53 : ℤ) * 2 ^ e1 →
      IsExp (n / d : ℚ) (max e1 (-1074)) := by
    intro e1 h1 h2
    rcases le_total (-1074) e1 with h | h
    · rw [max_eq_left h]; exact ⟨h2, .inl h1, h⟩
    · rw [max_eq_right h]
      refine ⟨lt_of_lt_of_le h2 ?_, .inr rfl, le_refl _⟩
      exact mul_le_mul_of_nonneg_left (zpow_le_zpow_right₀ (by norm_num) h) (hp _).le
  split
  · rename_i h
    refine hmain _ ?_ ?_
    · refine le_of_eq_of_le ?_ lo.le
      rw [← zpow_add₀ (by norm_num), ← zpow_add₀ (by norm_num)]; congr 1; omega
    · refine lt_of_lt_of_eq (hcmp.1 h) ?_
      rw [← zpow_add₀ (by norm_num), ← zpow_add₀ (by norm_num)]; congr 1; omega
  · rename_i h
    exact hmain _ (not_lt.1 fun hc => h (hcmp.2 hc)) hi

/-! ## The nearest double -/

/-- The mantissa and exponent are those of a double (other than an infinity). -/
structure Canonical (m : Nat) (e : Int) : Prop where
  man : m < 2 ^ 53
  lo : -1074 ≤ e
  hi : e ≤ 971
  norm : 2 ^ 52 ≤ m ∨ e = -1074

/-- The doubles: infinities and canonical pairs. -/
def Valid : F64 → Prop
  | .fin _ m e => Canonical m e
  | .inf _ => True

theorem canonical_zero : Canonical 0 (-1074) := ⟨by norm_num, by norm_num, by norm_num, .inr rfl⟩

/-- `ofRat` in terms of the exponent and the rounded mantissa. -/
theorem ofRat_eq {neg : Bool} {n d : Nat} {e : Int} {m : Nat} (hn : 0 < n) (hd : 0 < d) (he : IsExp (n / d : ℚ) e)
    (hm : Rounds ((n / d : ℚ) / 2 ^ e) m) : ofRat neg n d =
      (if (if m = 2 ^ 53 then e + 1 else e) > 971 then .inf neg
       else .fin neg (if m = 2 ^ 53 then 2 ^ 52 else m) (if m = 2 ^ 53 then e + 1 else e)) := by
  unfold ofRat
  rw [if_neg hn.ne']
  simp only
  have he' : expOf n d = e := (isExp_expOf hn hd).unique he
  rw [he']
  have hm' : roundDiv (scale n d e).1 (scale n d e).2 = m := by
    refine Rounds.unique ?_ hm
    rw [← scale_val hd]
    exact roundDiv_rounds (scale_pos hd e)
  rw [hm']
  by_cases h : m = 2 ^ 53 <;> simp only [h, if_true, if_false]

/-- The value alone decides. -/
theorem ofRat_congr {neg : Bool} {n d n' d' : Nat} (hd : 0 < d) (hd' : 0 < d') (h : (n / d : ℚ) = n' / d') :
    ofRat neg n d = ofRat neg n' d' := by
  have hdq : (d : ℚ) ≠ 0 := by exact_mod_cast hd.ne'
  have hdq' : (d' : ℚ) ≠ 0 := by exact_mod_cast hd'.ne'
  by_cases hn : n = 0
  · subst hn
    have : n' = 0 := by
      simp only [Nat.cast_zero, zero_div] at h
      have := h.symm
      rw [div_eq_zero_iff] at this
      rcases this with h | h
      · exact_mod_cast h
      · exact absurd h hdq'
    subst this
    simp [ofRat]
  have hn' : n' ≠ 0 := by
    rintro rfl
    simp only [Nat.cast_zero, zero_div] at h
    rw [div_eq_zero_iff] at h
    rcases h with h | h
    · exact hn (by exact_mod_cast h)
    · exact hdq h
  have e1 := isExp_expOf (Nat.pos_of_ne_zero hn) hd
  have r1 := roundDiv_rounds (n := (scale n d (expOf n d)).1) (scale_pos (n := n) hd (expOf n d))
  rw [scale_val hd] at r1
  rw [ofRat_eq (Nat.pos_of_ne_zero hn) hd e1 r1]
  rw [h] at e1 r1
  rw [ofRat_eq (Nat.pos_of_ne_zero hn') hd' e1 r1]

/-- Reading a literal gives a double. -/
theorem ofRat_valid (neg : Bool) {n d : Nat} (hd : 0 < d) : (ofRat neg n d).Valid := by
  by_cases hn : n = 0
  · subst hn; simp only [ofRat, if_true]; exact canonical_zero
  have e1 := isExp_expOf (Nat.pos_of_ne_zero hn) hd
  have r1 := roundDiv_rounds (n := (scale n d (expOf n d)).1) (scale_pos (n := n) hd (expOf n d))
  rw [scale_val hd] at r1
  rw [ofRat_eq (Nat.pos_of_ne_zero hn) hd e1 r1]
  generalize expOf n d = e at *
  generalize roundDiv (scale n d e).1 (scale n d e).2 = m at *
  obtain ⟨a1, a2, a3⟩ := e1
  obtain ⟨b1, b2, b3, b4⟩ := r1
  have hp : (0 : ℚ) < 2 ^ e := by positivity
  rw [← div_lt_iff₀ hp] at a1
  rw [← le_div_iff₀ hp] at a2
  generalize (n / d : ℚ) / 2 ^ e = x at *
  by_cases hm : m = 2 ^ 53
  · simp only [hm, if_true]
    split
    · trivial
    exact ⟨by norm_num, by omega, by omega, .inl (by norm_num)⟩
  · simp only [hm, if_false]
    split
    · trivial
    refine ⟨?_, a3, by omega, ?_⟩
    · have : (m : ℚ) < 9007199254740993 := by norm_num only at a1; linarith
      have : m < 9007199254740993 := by exact_mod_cast this
      omega
    · rcases a2 with a2 | a2
      · left
        by_contra hc
        have hm2 : m + 1 ≤ 2 ^ 52 := by omega
        have hm3 : (m : ℚ) + 1 ≤ 2 ^ 52 := by exact_mod_cast hm2
        norm_num at a2
        linarith
      · exact .inr a2

theorem num_val (m : Nat) (e : Int) : (num m e / den e : ℚ) = m * 2 ^ e := by
  unfold num den
  split
  · rw [two_zpow_of_nonneg (by assumption)]; push_cast; simp
  · rw [two_zpow_of_neg (by omega)]; push_cast; field_simp

theorem den_pos (e : Int) : 0 < den e := by
  unfold den; split
  · norm_num
  · exact Nat.two_pow_pos _

/-- A value close to a double is read as that double: closer than half a unit in the last place, and closer than a quarter
below a power of two. -/
theorem ofRat_near {neg : Bool} {n d m : Nat} {e : Int} (hc : Canonical m e) (hm : m ≠ 0) (hd : 0 < d)
    (h1 : (n / d : ℚ) < (m + 1 / 2) * 2 ^ e) (h2 : (m - 1 / 2) * 2 ^ e < (n / d : ℚ))
    (h3 : m = 2 ^ 52 → (m - 1 / 4) * 2 ^ e < (n / d : ℚ)) : ofRat neg n d = .fin neg m e := by
  have hp : (0 : ℚ) < 2 ^ e := by positivity
  have hm1 : (1 : ℚ) ≤ m := by exact_mod_cast Nat.one_le_iff_ne_zero.2 hm
  have hd' : (0 : ℚ) < d := by exact_mod_cast hd
  have hm53 : (m : ℚ) + 1 ≤ 2 ^ 53 := by exact_mod_cast hc.man
  have hv : (0 : ℚ) < n / d := lt_trans (by have : (0 : ℚ) < m - 1 / 2 := by linarith
                                            positivity) h2
  have hn : 0 < n := by
    rcases Nat.eq_zero_or_pos n with h | h
    · subst h; simp at hv
    · exact h
  by_cases hb : m = 2 ^ 52 ∧ e ≠ -1074 ∧ (n / d : ℚ) < m * 2 ^ e
  · obtain ⟨hb1, hb2, hb3⟩ := hb
    have hlo := hc.lo
    have hhi := hc.hi
    have he : (2 : ℚ) ^ e = 2 * 2 ^ (e - 1) := by rw [zpow_sub₀ (by norm_num)]; norm_num; ring
    have hp' : (0 : ℚ) < 2 ^ (e - 1) := by positivity
    have h3 := h3 hb1
    have hmq : (m : ℚ) = 2 ^ 52 := by rw [hb1]; norm_num
    have hx1 : (n / d : ℚ) / 2 ^ (e - 1) < 2 ^ 53 := by
      rw [div_lt_iff₀ hp']; rw [he, hmq] at hb3; linarith
    have hx2 : 2 ^ 53 - 1 / 2 < (n / d : ℚ) / 2 ^ (e - 1) := by
      rw [lt_div_iff₀ hp']; rw [he, hmq] at h3; linarith
    have hE : IsExp (n / d : ℚ) (e - 1) := by
      refine ⟨?_, .inl ?_, by omega⟩
      · rw [← div_lt_iff₀ hp']; norm_num at hx1 ⊢; exact hx1
      · rw [← le_div_iff₀ hp']; norm_num at hx2 ⊢; linarith
    have hR : Rounds ((n / d : ℚ) / 2 ^ (e - 1)) (2 ^ 53) := .of_near (by push_cast; exact hx2) (by push_cast; linarith)
    rw [ofRat_eq hn hd hE hR]
    have h971 : ¬ (e - 1 + 1 > 971) := by omega
    simp only [if_true, if_neg h971, hb1]
    congr 1; omega
  · have hx1 : (n / d : ℚ) / 2 ^ e < m + 1 / 2 := by rw [div_lt_iff₀ hp]; exact h1
    have hx2 : (m : ℚ) - 1 / 2 < (n / d : ℚ) / 2 ^ e := by rw [lt_div_iff₀ hp]; exact h2
    have hE : IsExp (n / d : ℚ) e := by
      refine ⟨?_, ?_, hc.lo⟩
      · rw [← div_lt_iff₀ hp]; norm_num at hm53 ⊢; linarith
      · by_cases he : e = -1074
        · exact .inr he
        · left
          rw [← le_div_iff₀ hp]
          have hnorm : 2 ^ 52 ≤ m := hc.norm.resolve_right he
          rcases Nat.eq_or_lt_of_le hnorm with h | h
          · have hge : m * 2 ^ e ≤ (n / d : ℚ) := not_lt.1 fun hlt => hb ⟨h.symm, he, hlt⟩
            rw [le_div_iff₀ hp]
            refine le_trans ?_ hge
            rw [← h]; norm_num
          · have : (4503599627370497 : ℚ) ≤ m := by exact_mod_cast h
            norm_num only
            linarith
    have hne : m ≠ 2 ^ 53 := by have := hc.man; omega
    rw [ofRat_eq hn hd hE (.of_near hx2 hx1)]
    have := hc.hi
    simp only [hne, if_false]
    rw [if_neg (by omega)]

/-- A double is the double nearest to its own value. -/
theorem ofRat_exact {neg : Bool} {n d m : Nat} {e : Int} (hc : Canonical m e) (hm : m ≠ 0) (hd : 0 < d)
    (h : (n / d : ℚ) = m * 2 ^ e) : ofRat neg n d = .fin neg m e := by
  have hp : (0 : ℚ) < 2 ^ e := by positivity
  refine ofRat_near hc hm hd ?_ ?_ fun _ => ?_ <;> rw [h] <;> nlinarith

/-- Correct rounding: no double is nearer to the value than the one that is read. -/
theorem ofRat_nearest {neg : Bool} {n d m : Nat} {e : Int} (hd : 0 < d) (h : ofRat neg n d = .fin neg m e) {m' : Nat} {e' : Int}
    (hc : Canonical m' e') : |(n / d : ℚ) - m * 2 ^ e| ≤ |(n / d : ℚ) - m' * 2 ^ e'| := by
  by_cases hn : n = 0
  · subst hn
    simp only [ofRat, if_true] at h
    cases h
    simp
    positivity
  have e1 := isExp_expOf (Nat.pos_of_ne_zero hn) hd
  have r1 := roundDiv_rounds (n := (scale n d (expOf n d)).1) (scale_pos (n := n) hd (expOf n d))
  rw [scale_val hd] at r1
  rw [ofRat_eq (Nat.pos_of_ne_zero hn) hd e1 r1] at h
  generalize expOf n d = x at *
  generalize roundDiv (scale n d x).1 (scale n d x).2 = r at *
  -- the value of the result is `r * 2^x`, carry or not
  have hv : (m * 2 ^ e : ℚ) = r * 2 ^ x := by
    by_cases hr : r = 2 ^ 53
    · simp only [hr, if_true] at h
      split at h
      · cases h
      · cases h
        rw [hr, zpow_add₀ (by norm_num)]
        norm_num
        ring
    · simp only [hr, if_false] at h
      split at h
      · cases h
      · cases h; rfl
  rw [hv]
  obtain ⟨a1, a2, a3⟩ := e1
  obtain ⟨b1, b2, -, -⟩ := r1
  have hp : (0 : ℚ) < 2 ^ x := by positivity
  have hx : (n / d : ℚ) = (n / d : ℚ) / 2 ^ x * 2 ^ x := by field_simp
  rw [← div_lt_iff₀ hp] at a1
  rw [← le_div_iff₀ hp] at a2
  generalize (n / d : ℚ) / 2 ^ x = v at *
  rw [hx, ← sub_mul, abs_mul, abs_of_pos hp]
  -- an integral multiple of `2^x` is not nearer
  have key : ∀ i : ℕ, |v - r| ≤ |v - i| := by
    intro i
    rcases Nat.lt_trichotomy i r with hi | hi | hi
    · have : (i : ℚ) + 1 ≤ r := by exact_mod_cast hi
      rw [abs_le]
      have : v - i ≤ |v - i| := le_abs_self _
      constructor <;> linarith
    · rw [hi]
    · have : (r : ℚ) + 1 ≤ i := by exact_mod_cast hi
      rw [abs_le]
      have : -(v - i) ≤ |v - i| := neg_le_abs _
      constructor <;> linarith
  by_cases he : x ≤ e'
  · have hi : (m' * 2 ^ e' : ℚ) = ((m' * 2 ^ (e' - x).toNat : ℕ) : ℚ) * 2 ^ x := by
      push_cast
      rw [mul_assoc, ← zpow_natCast, ← zpow_add₀ (by norm_num)]
      congr 2
      omega
    rw [hi, ← sub_mul, abs_mul, abs_of_pos hp]
    exact mul_le_mul_of_nonneg_right (key _) hp.le
  · have hlo := hc.lo
    have h52 : 2 ^ (52 : ℤ) ≤ v := a2.resolve_right (by omega)
    have hm' : (m' : ℚ) ≤ 2 ^ (53 : ℤ) := by
      have := hc.man
      norm_num only
      exact_mod_cast this.le
    have hg : (m' * 2 ^ e' : ℚ) ≤ 2 ^ (52 : ℤ) * 2 ^ x := by
      calc (m' * 2 ^ e' : ℚ) ≤ 2 ^ (53 : ℤ) * 2 ^ (x - 1) := by
            exact mul_le_mul hm' (zpow_le_zpow_right₀ (by norm_num) (by omega)) (by positivity) (by positivity)
        _ = 2 ^ (52 : ℤ) * 2 ^ x := by rw [← zpow_add₀ (by norm_num), ← zpow_add₀ (by norm_num)]; congr 1; omega
    have h1 := key (2 ^ 52)
    rw [abs_of_nonneg (a := v - ((2 ^ 52 : ℕ) : ℚ)) (by push_cast; norm_num at h52 ⊢; linarith)] at h1
    refine le_trans (mul_le_mul_of_nonneg_right h1 hp.le) (le_trans ?_ (le_abs_self _))
    have : ((2 ^ 52 : ℕ) : ℚ) = 2 ^ (52 : ℤ) := by norm_num
    rw [this]
    nlinarith

/-- The sign of a double. -/
def neg? : F64 → Bool
  | .fin neg _ _ => neg
  | .inf neg => neg

theorem ofRat_neg (neg : Bool) (n d : Nat) : (ofRat neg n d).neg? = neg := by
  unfold ofRat
  split
  · rfl
  · simp only
    split <;> (split <;> rfl)

/-- Reading is monotonic. -/
theorem ofRat_mono {neg : Bool} {n d n' d' m m' : Nat} {e e' : Int} (hd : 0 < d) (hd' : 0 < d') (h : (n / d : ℚ) ≤ n' / d')
    (h1 : ofRat neg n d = .fin neg m e) (h2 : ofRat neg n' d' = .fin neg m' e') : (m * 2 ^ e : ℚ) ≤ m' * 2 ^ e' := by
  have v1 : Canonical m e := by have := ofRat_valid neg (n := n) hd; rw [h1] at this; exact this
  have v2 : Canonical m' e' := by have := ofRat_valid neg (n := n') hd'; rw [h2] at this; exact this
  have a1 := ofRat_nearest hd h1 v2
  have a2 := ofRat_nearest hd' h2 v1
  by_contra hlt
  have hlt := not_le.1 hlt
  have heq : (n / d : ℚ) = n' / d' := by
    generalize (n / d : ℚ) = v at *
    generalize (n' / d' : ℚ) = w at *
    generalize (m * 2 ^ e : ℚ) = f at *
    generalize (m' * 2 ^ e' : ℚ) = g at *
    have s1 := sq_le_sq.2 a1
    have s2 := sq_le_sq.2 a2
    nlinarith
  have := ofRat_congr (neg := neg) hd hd' heq
  rw [h1, h2] at this
  cases this
  exact lt_irrefl _ hlt

/-! ## Decimal digits -/

theorem natStrAux_length (f n : Nat) (h : n < f) :
    n < 10 ^ (natStrAux f n).length ∧ (0 < n → 10 ^ ((natStrAux f n).length - 1) ≤ n) := by
  induction f generalizing n with
  | zero => omega
  | succ f ih =>
    unfold natStrAux
    split
    · rename_i h; simp; omega
    · rename_i h10
      obtain ⟨h1, h2⟩ := ih (n / 10) (by omega)
      have h2 := h2 (by omega)
      rw [List.length_append, List.length_singleton, Nat.add_sub_cancel]
      have hl : (natStrAux f (n / 10)).length ≠ 0 := by
        intro h0; rw [h0] at h1; simp at h1; omega
      obtain ⟨l, hl⟩ := Nat.exists_eq_succ_of_ne_zero hl
      rw [hl] at h1 h2 ⊢
      simp only [Nat.succ_eq_add_one, Nat.add_sub_cancel, Nat.pow_succ] at *
      constructor
      · omega
      · intro _; omega

theorem natStr_length (n : Nat) : n < 10 ^ (natStr n).length := (natStrAux_length _ _ (Nat.lt_succ_self n)).1
theorem natStr_length_le {n : Nat} (h : 0 < n) : 10 ^ ((natStr n).length - 1) ≤ n :=
  (natStrAux_length _ _ (Nat.lt_succ_self n)).2 h

theorem natStr_length_eq {n k : Nat} (hk : 0 < k) (h1 : 10 ^ (k - 1) ≤ n) (h2 : n < 10 ^ k) : (natStr n).length = k := by
  have hn : 0 < n := lt_of_lt_of_le (by positivity) h1
  have h3 := natStr_length n
  have h4 := natStr_length_le hn
  have h5 : 10 ^ (k - 1) < 10 ^ (natStr n).length := by omega
  have h6 : 10 ^ ((natStr n).length - 1) < 10 ^ k := by omega
  rw [Nat.pow_lt_pow_iff_right (by norm_num)] at h5 h6
  omega

theorem decExpNeg_spec {n d : Nat} : ∀ {fuel j : Nat}, 0 < j → n * 10 ^ (j - 1) < d → d ≤ n * 10 ^ (j + fuel - 1) →
    ∃ i : ℕ, decExpNeg fuel n d j = -(i : ℤ) ∧ 0 < i ∧ n * 10 ^ (i - 1) < d ∧ d ≤ n * 10 ^ i
  | 0, j, hj, h1, h2 => by simp at h2; omega
  | fuel + 1, j, hj, h1, h2 => by
    unfold decExpNeg
    split
    · exact ⟨j, rfl, hj, h1, by assumption⟩
    · rename_i h
      exact decExpNeg_spec (by omega) (by simpa using h) (by rw [show j + 1 + fuel - 1 = j + (fuel + 1) - 1 by omega]; exact h2)

/-- `decExp` is the decimal exponent. -/
theorem decExp_spec {n d : Nat} (hd : 0 < d) (hlo : d ≤ n * 10 ^ 400) :
    (10 : ℚ) ^ decExp n d ≤ n / d ∧ (n / d : ℚ) < 10 ^ (decExp n d + 1) := by
  have hd' : (0 : ℚ) < d := by exact_mod_cast hd
  unfold decExp
  split
  · rename_i h
    have hq : 0 < n / d := Nat.div_pos h hd
    have h1 := natStr_length (n / d)
    have h2 := natStr_length_le hq
    have hl : 0 < (natStr (n / d)).length := List.length_pos_of_ne_nil (natStr_ne_nil _)
    generalize (natStr (n / d)).length = l at *
    rw [Nat.le_div_iff_mul_le hd] at h2
    rw [Nat.div_lt_iff_lt_mul hd] at h1
    rw [le_div_iff₀ hd', div_lt_iff₀ hd', show (l : ℤ) - 1 = ((l - 1 : ℕ) : ℤ) by omega,
      show ((l - 1 : ℕ) : ℤ) + 1 = (l : ℤ) by omega, zpow_natCast, zpow_natCast]
    exact ⟨by exact_mod_cast h2, by exact_mod_cast h1⟩
  · rename_i h
    obtain ⟨i, h0, h1, h2, h3⟩ := decExpNeg_spec (n := n) (d := d) (fuel := 400) (j := 1) (by norm_num) (by simp; omega)
      (by simpa using hlo)
    rw [h0, show -(i : ℤ) + 1 = -((i - 1 : ℕ) : ℤ) by omega, zpow_neg, zpow_neg, zpow_natCast, zpow_natCast,
      le_div_iff₀ hd', div_lt_iff₀ hd', inv_mul_le_iff₀ (by positivity), lt_inv_mul_iff₀ (by positivity)]
    constructor
    · rw [mul_comm]; exact_mod_cast h3
    · rw [mul_comm]; exact_mod_cast h2

/-- A rounded `k`-digit decimal: its digits, and the exponent of the leading digit. -/
structure IsDec (k : Nat) (p : Int) (c : Nat × Int) : Prop where
  lo : 10 ^ (k - 1) ≤ c.1
  hi : c.1 < 10 ^ k
  exp : c.2 = p ∨ c.2 = p + 1 ∧ c.1 = 10 ^ (k - 1)

/-- The value of a decimal. -/
def decVal (k : Nat) (c : Nat × Int) : ℚ := c.1 * 10 ^ (c.2 - k + 1)

theorem isDec_carry {k : Nat} {p : Int} {D : Nat} (hk : 0 < k) (h1 : 10 ^ (k - 1) ≤ D) (h2 : D ≤ 10 ^ k) :
    IsDec k p (if D = 10 ^ k then (10 ^ (k - 1), p + 1) else (D, p)) ∧
      decVal k (if D = 10 ^ k then (10 ^ (k - 1), p + 1) else (D, p)) = D * 10 ^ (p - k + 1) := by
  split
  · rename_i h
    refine ⟨⟨le_refl _, Nat.pow_lt_pow_right (by norm_num) (by omega), .inr ⟨rfl, rfl⟩⟩, ?_⟩
    unfold decVal
    rw [h]
    push_cast
    rw [← zpow_natCast, ← zpow_natCast, ← zpow_add₀ (by norm_num), ← zpow_add₀ (by norm_num)]
    congr 1
    omega
  · exact ⟨⟨h1, by omega, .inl rfl⟩, rfl⟩

theorem ten_scale {n d : Nat} (hd : 0 < d) (s : Int) :
    ∃ a b : Nat, 0 < b ∧ (a / b : ℚ) = (n / d : ℚ) / 10 ^ s ∧
      (if s < 0 then roundDiv (n * 10 ^ (-s).toNat) d else roundDiv n (d * 10 ^ s.toNat)) = roundDiv a b ∧
      (if s < 0 then n * 10 ^ (-s).toNat / d else n / (d * 10 ^ s.toNat)) = a / b := by
  have hd' : (d : ℚ) ≠ 0 := by exact_mod_cast hd.ne'
  split
  · refine ⟨_, _, hd, ?_, rfl, rfl⟩
    rw [ten_zpow_of_neg (by assumption)]
    push_cast
    field_simp
  · refine ⟨n, d * 10 ^ s.toNat, by positivity, ?_, rfl, rfl⟩
    rw [ten_zpow_of_nonneg (by omega)]
    push_cast
    field_simp

theorem dec_range {v : ℚ} {p : Int} {k : Nat} (hk : 0 < k) (h1 : (10 : ℚ) ^ p ≤ v) (h2 : v < 10 ^ (p + 1)) :
    ((10 ^ (k - 1) : ℕ) : ℚ) ≤ v / 10 ^ (p - k + 1) ∧ v / 10 ^ (p - k + 1) < ((10 ^ k : ℕ) : ℚ) := by
  rw [le_div_iff₀ (by positivity), div_lt_iff₀ (by positivity)]
  push_cast
  rw [← zpow_natCast, ← zpow_natCast, ← zpow_add₀ (by norm_num), ← zpow_add₀ (by norm_num)]
  rw [show ((k - 1 : ℕ) : ℤ) + (p - k + 1) = p by omega, show (k : ℤ) + (p - k + 1) = p + 1 by omega]
  exact ⟨h1, h2⟩

theorem nearDec_spec {n d : Nat} {p : Int} {k : Nat} (hd : 0 < d) (hk : 0 < k) (h1 : (10 : ℚ) ^ p ≤ n / d)
    (h2 : (n / d : ℚ) < 10 ^ (p + 1)) :
    IsDec k p (nearDec n d p k) ∧ (n / d : ℚ) - 10 ^ (p - k + 1) / 2 ≤ decVal k (nearDec n d p k) ∧
      decVal k (nearDec n d p k) ≤ (n / d : ℚ) + 10 ^ (p - k + 1) / 2 := by
  obtain ⟨a, b, hb, hab, hr, _⟩ := ten_scale (n := n) hd (p - k + 1)
  unfold nearDec
  simp only [hr]
  obtain ⟨g1, g2, g3, g4⟩ := roundDiv_rounds (n := a) hb
  obtain ⟨l1, l2⟩ := dec_range hk h1 h2
  rw [hab] at g1 g2
  generalize roundDiv a b = D at *
  have hp : (0 : ℚ) < 10 ^ (p - k + 1) := by positivity
  have hx : (n / d : ℚ) = (n / d : ℚ) / 10 ^ (p - k + 1) * 10 ^ (p - k + 1) := by field_simp
  generalize (n / d : ℚ) / 10 ^ (p - k + 1) = x at *
  have m1 : 10 ^ (k - 1) ≤ D := by
    have : ((10 ^ (k - 1) : ℕ) : ℚ) < ((D + 1 : ℕ) : ℚ) := by push_cast at *; linarith
    have : 10 ^ (k - 1) < D + 1 := by exact_mod_cast this
    omega
  have m2 : D ≤ 10 ^ k := by
    have : (D : ℚ) < ((10 ^ k + 1 : ℕ) : ℚ) := by push_cast at *; linarith
    have : D < 10 ^ k + 1 := by exact_mod_cast this
    omega
  obtain ⟨r1, r2⟩ := isDec_carry (p := p) hk m1 m2
  refine ⟨r1, ?_, ?_⟩ <;> rw [r2, hx] <;> nlinarith

theorem upDec_spec {n d : Nat} {p : Int} {k : Nat} (hd : 0 < d) (hk : 0 < k) (h1 : (10 : ℚ) ^ p ≤ n / d)
    (h2 : (n / d : ℚ) < 10 ^ (p + 1)) : IsDec k p (upDec n d p k) := by
  obtain ⟨a, b, hb, hab, _, hr⟩ := ten_scale (n := n) hd (p - k + 1)
  unfold upDec
  simp only [hr]
  obtain ⟨l1, l2⟩ := dec_range hk h1 h2
  rw [← hab] at l1 l2
  have hb' : (0 : ℚ) < b := by exact_mod_cast hb
  rw [le_div_iff₀ hb'] at l1
  rw [div_lt_iff₀ hb'] at l2
  have l1' : 10 ^ (k - 1) * b ≤ a := by exact_mod_cast l1
  have l2' : a < 10 ^ k * b := by exact_mod_cast l2
  rw [← Nat.le_div_iff_mul_le hb] at l1'
  rw [← Nat.div_lt_iff_lt_mul hb] at l2'
  exact (isDec_carry hk (by omega) (by omega)).1

theorem ofDec_eq (neg : Bool) (c : Nat × Int) (k : Nat) :
    ∃ a b : Nat, 0 < b ∧ (a / b : ℚ) = decVal k c ∧ ofDec neg c.1 c.2 k = ofRat neg a b := by
  unfold ofDec decVal
  simp only
  split
  · refine ⟨_, _, by positivity, ?_, rfl⟩
    rw [ten_zpow_of_neg (by assumption)]
    push_cast
    field_simp
  · refine ⟨_, _, Nat.one_pos, ?_, rfl⟩
    rw [ten_zpow_of_nonneg (by omega)]
    push_cast
    field_simp

/-- The value of a double lies in the range of `decExp`. -/
theorem decExp_double {m : Nat} {e : Int} (hc : Canonical m e) (hm : m ≠ 0) :
    (10 : ℚ) ^ decExp (num m e) (den e) ≤ m * 2 ^ e ∧ (m * 2 ^ e : ℚ) < 10 ^ (decExp (num m e) (den e) + 1) := by
  rw [← num_val]
  refine decExp_spec (den_pos e) ?_
  · unfold num den
    have := hc.lo
    split
    · have : 0 < m * 2 ^ e.toNat := by positivity
      calc 1 ≤ m * 2 ^ e.toNat * 1 := by omega
        _ ≤ _ := Nat.mul_le_mul_left _ (Nat.one_le_pow _ _ (by norm_num))
    · have h1 : 2 ^ (-e).toNat ≤ 2 ^ 1074 := Nat.pow_le_pow_right (by norm_num) (by omega)
      have h2 : (2 : ℕ) ^ 1074 ≤ 10 ^ 400 := by
        rw [show 1074 = 3 * 358 from rfl, Nat.pow_mul]
        exact (Nat.pow_le_pow_left (by norm_num) 358).trans (Nat.pow_le_pow_right (by norm_num) (by norm_num))
      calc 2 ^ (-e).toNat ≤ 1 * 10 ^ 400 := by omega
        _ ≤ _ := Nat.mul_le_mul_right _ (by omega)

/-- Seventeen digits determine a double. -/
theorem ofDec_17 (neg : Bool) {m : Nat} {e : Int} (hc : Canonical m e) (hm : m ≠ 0) :
    ofDec neg (nearDec (num m e) (den e) (decExp (num m e) (den e)) 17).1
      (nearDec (num m e) (den e) (decExp (num m e) (den e)) 17).2 17 = .fin neg m e := by
  obtain ⟨h1, h2⟩ := decExp_double hc hm
  generalize decExp (num m e) (den e) = p at *
  rw [← num_val] at h1 h2
  obtain ⟨g1, g2, g3⟩ := nearDec_spec (den_pos e) (k := 17) (by norm_num) h1 h2
  rw [num_val] at *
  generalize nearDec (num m e) (den e) p 17 = c at *
  obtain ⟨a, b, hb, hab, hr⟩ := ofDec_eq neg c 17
  rw [hr]
  rw [← hab] at g2 g3
  have hp : (0 : ℚ) < 2 ^ e := by positivity
  have hs : (0 : ℚ) < 10 ^ (p - (17 : ℕ) + 1) := by positivity
  have h16 : (10 : ℚ) ^ p = 10000000000000000 * 10 ^ (p - (17 : ℕ) + 1) := by
    rw [show (10000000000000000 : ℚ) = 10 ^ (16 : ℤ) by norm_num, ← zpow_add₀ (by norm_num)]; congr 1; push_cast; omega
  rw [h16] at h1
  generalize (10 : ℚ) ^ (p - (17 : ℕ) + 1) = s at *
  have hm53 : (m : ℚ) ≤ 9007199254740991 := by
    have := hc.man
    exact_mod_cast (by omega : m ≤ 9007199254740991)
  have hs1 : s < 2 ^ e := by nlinarith
  refine ofRat_near hc hm hb ?_ ?_ fun h52 => ?_
  · linarith
  · linarith
  · have : (m : ℚ) = 4503599627370496 := by rw [h52]; norm_num
    rw [this] at h1 g2 ⊢
    linarith

/-- `shortest` finds a decimal that reads back as the double. -/
theorem shortest_spec {neg : Bool} {m : Nat} {e : Int} (hc : Canonical m e) (hm : m ≠ 0) :
    ∀ {fuel k : Nat}, 0 < k → k ≤ 17 → 18 ≤ k + fuel → ∃ k', 0 < k' ∧ k' ≤ 17 ∧
      IsDec k' (decExp (num m e) (den e)) (shortest neg m e fuel k) ∧
      ofDec neg (shortest neg m e fuel k).1 (shortest neg m e fuel k).2 k' = .fin neg m e
  | 0, k, h1, h2, h3 => by omega
  | fuel + 1, k, h1, h2, h3 => by
    obtain ⟨l1, l2⟩ := decExp_double hc hm
    rw [← num_val] at l1 l2
    unfold shortest
    simp only
    split
    · exact ⟨k, h1, h2, (nearDec_spec (den_pos e) h1 l1 l2).1, by assumption⟩
    · rename_i hno
      split
      · exact ⟨k, h1, h2, upDec_spec (den_pos e) h1 l1 l2, by assumption⟩
      · have : k ≠ 17 := by
          rintro rfl
          exact hno (ofDec_17 neg hc hm)
        exact shortest_spec hc hm (by omega) (by omega) (by omega)

/-! ## The text of a double -/

theorem digitsVal_append (a b : Str) : digitsVal (a ++ b) = digitsVal a * 10 ^ b.length + digitsVal b := by
  induction b using List.reverseRecOn with
  | nil => simp [digitsVal]
  | append_singleton b c ih =>
    rw [← List.append_assoc, digitsVal_snoc, digitsVal_snoc, ih, List.length_append, List.length_singleton, Nat.pow_succ]
    ring

theorem digitsVal_zeros (z : Nat) : digitsVal (List.replicate z '0') = 0 := by
  induction z with
  | zero => rfl
  | succ z ih => rw [List.replicate_succ', digitsVal_snoc, ih]; rfl

theorem stripZeros_eq (s : Str) : ∃ z, s = stripZeros s ++ List.replicate z '0' := by
  unfold stripZeros
  induction s using List.reverseRecOn with
  | nil => exact ⟨0, rfl⟩
  | append_singleton s c ih =>
    rw [List.reverse_append, List.reverse_singleton, List.singleton_append]
    by_cases hc : c = '0'
    · subst hc
      obtain ⟨z, hz⟩ := ih
      refine ⟨z + 1, ?_⟩
      rw [List.dropWhile_cons_of_pos (by rfl), List.replicate_succ', ← List.append_assoc, ← hz]
    · exact ⟨0, by rw [List.dropWhile_cons_of_neg (by simpa using hc)]; simp⟩

/-- The absolute value of a finite double. -/
def absVal : F64 → ℚ
  | .fin _ m e => m * 2 ^ e
  | .inf _ => 0

/-- Zero, or from 0.0001 up to 1e16: the doubles that Python writes without an exponent. -/
def InRange (f : F64) : Prop := (∃ neg m e, f = .fin neg m e) ∧ (f.absVal = 0 ∨ (1 / 10000 ≤ f.absVal ∧ f.absVal < 10000000000000000))

/-- The decimal exponent that `repr` looks at. -/
theorem decpt_range {neg : Bool} {m k : Nat} {e : Int} {c : Nat × Int} (hc : Canonical m e) (hm : m ≠ 0) (hk : 0 < k)
    (hd : IsDec k (decExp (num m e) (den e)) c) (ho : ofDec neg c.1 c.2 k = .fin neg m e) :
    ¬ (c.2 + 1 ≤ -4 ∨ c.2 + 1 > 16) ↔ 1 / 10000 ≤ (m * 2 ^ e : ℚ) ∧ (m * 2 ^ e : ℚ) < 10000000000000000 := by
  obtain ⟨h1, h2⟩ := decExp_double hc hm
  generalize decExp (num m e) (den e) = p at *
  obtain ⟨a, b, hb, hab, hr⟩ := ofDec_eq neg c k
  rw [hr] at ho
  have hcarry : c.2 = p + 1 → decVal k c = 10 ^ (p + 1) := by
    intro h
    have h' : c.1 = 10 ^ (k - 1) := by
      rcases hd.exp with h' | h'
      · omega
      · exact h'.2
    unfold decVal
    rw [h', h]
    push_cast
    rw [← zpow_natCast, ← zpow_add₀ (by norm_num)]
    congr 1
    omega
  have e16 : (10000000000000000 : ℚ) = 10 ^ (16 : ℤ) := by norm_num
  have e4 : (1 / 10000 : ℚ) = 10 ^ (-4 : ℤ) := by norm_num
  have hcp : c.2 = p ∨ c.2 = p + 1 := hd.exp.imp id And.left
  constructor
  · intro h
    have hlo : -4 ≤ c.2 := by omega
    have hhi : c.2 ≤ 15 := by omega
    constructor
    · by_cases hp : -4 ≤ p
      · rw [e4]; exact le_trans (zpow_le_zpow_right₀ (by norm_num) hp) h1
      · have hp5 : p = -5 := by omega
        have hv := hcarry (by omega)
        rw [hp5] at hv
        have hx : ofRat neg a b = ofRat neg 1 10000 := ofRat_congr hb (by norm_num) (by rw [hab, hv]; norm_num)
        have hy : ofRat neg 1 10000 = .fin neg 7378697629483821 (-66) := by cases neg <;> rfl
        rw [hx, hy] at ho
        cases ho
        norm_num
    · rw [e16]; exact lt_of_lt_of_le h2 (zpow_le_zpow_right₀ (by norm_num) (by omega))
  · rintro ⟨g1, g2⟩
    rw [e16] at g2
    rw [e4] at g1
    have p1 := (zpow_lt_zpow_iff_right₀ (by norm_num)).1 (lt_of_le_of_lt h1 g2)
    have p2 := (zpow_lt_zpow_iff_right₀ (by norm_num)).1 (lt_of_le_of_lt g1 h2)
    rintro (h | h)
    · omega
    · have hp : p = 15 := by omega
      have hv := hcarry (by omega)
      rw [hp] at hv
      have hx : ofRat neg a b = .fin neg 5000000000000000 1 :=
        ofRat_exact ⟨by norm_num, by norm_num, by norm_num, .inl (by norm_num)⟩ (by norm_num) hb (by rw [hab, hv]; norm_num)
      rw [hx] at ho
      cases ho
      norm_num at g2

theorem digits_val {k : Nat} {p : Int} {c : Nat × Int} (hk : 0 < k) (hd : IsDec k p c) :
    stripZeros (natStr c.1) ≠ [] ∧ (∀ x ∈ stripZeros (natStr c.1), isDigit x = true) ∧
      (digitsVal (stripZeros (natStr c.1)) : ℚ) * 10 ^ (c.2 + 1 - (stripZeros (natStr c.1)).length) = decVal k c := by
  obtain ⟨z, hz⟩ := stripZeros_eq (natStr c.1)
  have hv := digitsVal_natStr c.1
  have hl := natStr_length_eq hk hd.lo hd.hi
  have hdig := natStr_digits c.1
  generalize stripZeros (natStr c.1) = ds at *
  rw [hz] at hv hl hdig
  rw [digitsVal_append, digitsVal_zeros, List.length_replicate, Nat.add_zero] at hv
  rw [List.length_append, List.length_replicate] at hl
  have hpos : 0 < c.1 := lt_of_lt_of_le (by positivity) hd.lo
  refine ⟨?_, fun x hx => hdig x (List.mem_append_left _ hx), ?_⟩
  · rintro rfl
    simp [digitsVal] at hv
    omega
  · unfold decVal
    rw [← hv, ← hl]
    push_cast
    rw [mul_assoc, ← zpow_natCast (10 : ℚ) z, ← zpow_add₀ (by norm_num)]
    congr 2
    omega

/-- The text of every double in the range is plain decimal notation, and is read back as that double. -/
theorem plain_of_range {f : F64} (hf : f.Valid) (h : f.InRange) : f.Plain := by
  obtain ⟨⟨neg, m, e, rfl⟩, h⟩ := h
  have hc : Canonical m e := hf
  have hp2 : (0 : ℚ) < 2 ^ e := by positivity
  by_cases hm : m = 0
  · subst hm
    have he : e = -1074 := hc.norm.resolve_left (by norm_num)
    subst he
    refine ⟨neg, k!"0", k!"0", by decide, by decide, by decide, by decide, ?_, ?_⟩
    · cases neg <;> rfl
    · cases neg <;> rfl
  have hmq : (m : ℚ) ≠ 0 := by exact_mod_cast hm
  have hr : 1 / 10000 ≤ (m * 2 ^ e : ℚ) ∧ (m * 2 ^ e : ℚ) < 10000000000000000 := by
    refine h.resolve_left fun h0 => ?_
    have h0 : (m : ℚ) * 2 ^ e = 0 := h0
    rcases mul_eq_zero.1 h0 with h0 | h0
    · exact hmq h0
    · exact hp2.ne' h0
  obtain ⟨k, hk, hk17, hd, ho⟩ := shortest_spec (neg := neg) hc hm (fuel := 17) (k := 1) (by norm_num) (by norm_num) (by norm_num)
  have hn := (decpt_range hc hm hk hd ho).2 hr
  obtain ⟨hne, hdig, hval⟩ := digits_val hk hd
  obtain ⟨a, b, hb, hab, hob⟩ := ofDec_eq neg (shortest neg m e 17 1) k
  rw [hob] at ho
  rw [← hab] at hval
  unfold Plain repr
  simp only [if_neg hm, if_neg hn]
  generalize hcc : shortest neg m e 17 1 = c at *
  generalize stripZeros (natStr c.1) = ds at *
  have hl : 0 < ds.length := List.length_pos_of_ne_nil hne
  have fin : ∀ ip fp : Str, (digitsVal (ip ++ fp) : ℚ) / ((10 ^ fp.length : ℕ) : ℚ) = digitsVal ds * 10 ^ (c.2 + 1 - ds.length) →
      ofDecimal neg ip fp = .fin neg m e := by
    intro ip fp hh
    rw [← ho]
    exact ofRat_congr (by positivity) hb (by rw [hh, hval])
  by_cases h0 : c.2 + 1 ≤ 0
  · simp only [if_pos h0]
    refine ⟨neg, k!"0", List.replicate (-(c.2 + 1)).toNat '0' ++ ds, by decide, by simp [hne], by decide, ?_, ?_, ?_⟩
    · intro x hx
      simp only [List.mem_append, List.mem_replicate] at hx
      rcases hx with ⟨_, rfl⟩ | hx
      · rfl
      · exact hdig x hx
    · cases neg <;> simp
    · refine fin _ _ ?_
      rw [digitsVal_append, digitsVal_append, digitsVal_zeros, List.length_append, List.length_replicate]
      rw [show digitsVal k!"0" = 0 from rfl]
      push_cast
      rw [← zpow_natCast, div_eq_mul_inv, ← zpow_neg]
      simp only [zero_mul, zero_add]
      congr 2
      push_cast
      omega
  · simp only [if_neg h0]
    have hnn : ((c.2 + 1).toNat : ℤ) = c.2 + 1 := Int.toNat_of_nonneg (by omega)
    generalize (c.2 + 1).toNat = n at *
    by_cases hle : ds.length ≤ n
    · simp only [if_pos hle]
      refine ⟨neg, ds ++ List.replicate (n - ds.length) '0', k!"0", by simp [hne], by decide, ?_, by decide, ?_, ?_⟩
      · intro x hx
        simp only [List.mem_append, List.mem_replicate] at hx
        rcases hx with hx | ⟨_, rfl⟩
        · exact hdig x hx
        · rfl
      · cases neg <;> simp
      · refine fin _ _ ?_
        rw [digitsVal_append, digitsVal_append, digitsVal_zeros, List.length_replicate]
        rw [show digitsVal k!"0" = 0 from rfl, show (k!"0").length = 1 from rfl, ← hnn]
        push_cast
        rw [show (n : ℤ) - ds.length = ((n - ds.length : ℕ) : ℤ) by omega, zpow_natCast]
        field_simp
        ring
    · simp only [if_neg hle]
      refine ⟨neg, ds.take n, ds.drop n, ?_, ?_, fun x hx => hdig x (List.mem_of_mem_take hx),
        fun x hx => hdig x (List.mem_of_mem_drop hx), ?_, ?_⟩
      · intro h
        have := congrArg List.length h
        simp only [List.length_take, List.length_nil] at this
        omega
      · intro h
        have := congrArg List.length h
        simp only [List.length_drop, List.length_nil] at this
        omega
      · rfl
      · refine fin _ _ ?_
        rw [List.take_append_drop, List.length_drop, ← hnn]
        push_cast
        rw [← zpow_natCast, div_eq_mul_inv, ← zpow_neg]
        congr 2
        omega

end F64
end Kiutils
