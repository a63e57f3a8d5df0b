import Verif.FloatRange
import Verif.FloatText
/-!
# The range of doubles
-/
namespace Kiutils
open F64

/-- `2^k` for a large exponent, kept as a symbol. -/
def pow2 (k : ℤ) : ℚ := (2 : ℚ) ^ k

theorem pow2_pos (k : ℤ) : 0 < pow2 k := zpow_pos (by norm_num) k
theorem pow2_lt {a b : ℤ} (h : a < b) : pow2 a < pow2 b := (zpow_lt_zpow_iff_right₀ (by norm_num)).mpr h
theorem pow2_le {a b : ℤ} (h : a ≤ b) : pow2 a ≤ pow2 b := (zpow_le_zpow_iff_right₀ (by norm_num)).mpr h
theorem pow2_add (a b : ℤ) : pow2 (a + b) = pow2 a * pow2 b := zpow_add₀ (by norm_num) a b
theorem pow2_one : pow2 1 = 2 := by norm_num [pow2]
theorem pow2_53 : pow2 53 = 2 ^ 53 := by norm_num [pow2]

/-- Only values from `2^1024 - 2^970` on are too large for a double. -/
theorem ofRat_inf_iff {neg : Bool} {n d : Nat} (hd : 0 < d) :
    (∃ b, ofRat neg n d = .inf b) ↔ pow2 1024 - pow2 970 ≤ n / d := by
  have hb : pow2 970 < pow2 1024 := pow2_lt (by omega)
  by_cases hn : n = 0
  · subst hn
    simp only [ofRat, if_true, Nat.cast_zero, zero_div]
    exact ⟨fun ⟨_, h⟩ => (F64.noConfusion h), fun h => absurd h (by linarith)⟩
  have e1 := isExp_expOf (Nat.pos_of_ne_zero hn) hd
  have r1 := roundDiv_rounds (n := (scale n d (expOf n d)).1) (scale_pos (n := n) hd (expOf n d))
  rw [scale_val hd] at r1
  rw [ofRat_eq (Nat.pos_of_ne_zero hn) hd e1 r1]
  generalize expOf n d = e at *
  generalize roundDiv (scale n d e).1 (scale n d e).2 = m at *
  generalize (n / d : ℚ) = v at *
  obtain ⟨a1, a2, a3⟩ := e1
  obtain ⟨b1, b2, b3, b4⟩ := r1
  have key : (∃ b, (if (if m = 2 ^ 53 then e + 1 else e) > 971 then .inf neg
       else .fin neg (if m = 2 ^ 53 then 2 ^ 52 else m) (if m = 2 ^ 53 then e + 1 else e) : F64) = .inf b) ↔
      (if m = 2 ^ 53 then e + 1 else e) > 971 := by
    by_cases h : (if m = 2 ^ 53 then e + 1 else e) > 971
    · rw [if_pos h]; exact ⟨fun _ => h, fun _ => ⟨_, rfl⟩⟩
    · rw [if_neg h]; exact ⟨fun ⟨_, h⟩ => (F64.noConfusion h), fun h' => absurd h' h⟩
  rw [key]
  have a1' : v < pow2 (53 + e) := by rw [pow2_add]; exact a1
  have a2' : pow2 (52 + e) ≤ v ∨ e = -1074 := by rw [pow2_add]; exact a2
  have hp : (0 : ℚ) < pow2 e := pow2_pos e
  rw [show (2 : ℚ) ^ e = pow2 e from rfl] at b1 b2 b3 b4
  clear a1 a2 key
  rcases lt_trichotomy e 971 with he | he | he
  · have h1 : ¬ (if m = 2 ^ 53 then e + 1 else e) > 971 := by split <;> omega
    refine ⟨fun h => absurd h h1, fun h => ?_⟩
    have h2 : pow2 (53 + e) ≤ pow2 1023 := pow2_le (by omega)
    have h3 : pow2 1024 = pow2 1023 * 2 := by
      rw [show (1024 : ℤ) = 1023 + 1 from rfl, pow2_add, pow2_one]
    have h4 : pow2 970 < pow2 1023 := pow2_lt (by omega)
    exact absurd h (by linarith)
  · subst he
    have h3 : pow2 1024 = 2 ^ 53 * pow2 971 := by
      rw [show (1024 : ℤ) = 53 + 971 from rfl, pow2_add, pow2_53]
    have h4 : pow2 971 = pow2 970 * 2 := by
      rw [show (971 : ℤ) = 970 + 1 from rfl, pow2_add, pow2_one]
    rw [show (53 : ℤ) + 971 = 1024 from rfl, h3] at a1'
    have h5 : pow2 1024 - pow2 970 = (2 ^ 53 - 1 / 2) * pow2 971 := by
      rw [h3, h4]; ring
    rw [h5, ← le_div_iff₀ hp]
    have a1'' : v / pow2 971 < 2 ^ 53 := by
      rw [div_lt_iff₀ hp]; exact a1'
    generalize v / pow2 971 = x at *
    constructor
    · intro h
      have hm : m = 2 ^ 53 := by
        by_contra hm
        rw [if_neg hm] at h
        omega
      subst hm
      push_cast at b1
      linarith
    · intro h
      have hm : m = 2 ^ 53 := by
        have u1 : (m : ℚ) < 2 ^ 53 + 1 := by linarith
        have u3 : m < 2 ^ 53 + 1 := by exact_mod_cast u1
        have u4 : 2 ^ 53 ≤ m + 1 := by
          have : (2 : ℚ) ^ 53 ≤ m + 1 := by linarith
          exact_mod_cast this
        by_contra hne
        have hm : m = 2 ^ 53 - 1 := by omega
        have : x = m + 1 / 2 := by
          have : (m : ℚ) + 1 = 2 ^ 53 := by
            have : m + 1 = 2 ^ 53 := by omega
            exact_mod_cast this
          linarith
        have := b4 this
        omega
      rw [if_pos hm]
      omega
  · have h1 : (if m = 2 ^ 53 then e + 1 else e) > 971 := by split <;> omega
    refine ⟨fun _ => ?_, fun _ => h1⟩
    rcases a2' with a2 | a2
    · have h2 : pow2 1024 ≤ pow2 (52 + e) := pow2_le (by omega)
      have h3 := pow2_pos 970
      linarith
    · omega

/-- `float(n)` raises `OverflowError` exactly from `2^1024 - 2^970` on. -/
theorem floatOfInt_error_iff (n : Int) : floatOfInt n = .error .overflowError ↔ 2 ^ 1024 - 2 ^ 970 ≤ n.natAbs := by
  have h := ofRat_inf_iff (neg := decide (n < 0)) (n := n.natAbs) (d := 1) one_pos
  have h2 : pow2 1024 - pow2 970 ≤ (n.natAbs : ℚ) / ((1 : ℕ) : ℚ) ↔ 2 ^ 1024 - 2 ^ 970 ≤ n.natAbs := by
    rw [Nat.cast_one, div_one]
    have h3 : pow2 1024 - pow2 970 = ((2 ^ 1024 - 2 ^ 970 : ℕ) : ℚ) := by
      rw [Nat.cast_sub (Nat.pow_le_pow_right (by omega) (by omega)), Nat.cast_pow, Nat.cast_pow]; rfl
    rw [h3]
    exact Nat.cast_le
  rw [h2] at h
  rw [← h]
  unfold floatOfInt
  cases hf : F64.ofRat (decide (n < 0)) n.natAbs 1 with
  | inf b => simp
  | fin _ _ _ => simp

end Kiutils
