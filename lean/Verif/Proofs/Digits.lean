import Verif.Proofs.Shortest
import Verif.Stable
import Verif.Proofs.FloatInt
/-!
# The digits of decimals
-/
namespace Kiutils

/-- Digits 0 to 9. (`\d` matches the digits of other scripts, too.) -/
def AsciiDigits (s : Str) : Prop := ∀ c ∈ s, ∃ d < 10, c = digitChar d

/-- The last character is not `0`. -/
def LastNonzero (s : Str) : Prop := ∃ a c, s = a ++ [c] ∧ c ≠ '0'

theorem AsciiDigits.digits {s : Str} (h : AsciiDigits s) : ∀ c ∈ s, isDigit c = true := by
  intro c hc
  obtain ⟨d, hd, rfl⟩ := h c hc
  exact isDigit_digitChar hd

theorem AsciiDigits.append {s t : Str} (h : AsciiDigits s) (h' : AsciiDigits t) : AsciiDigits (s ++ t) := by
  intro c hc
  rcases List.mem_append.1 hc with hc | hc
  · exact h c hc
  · exact h' c hc

theorem ascii_zeros (n : Nat) : AsciiDigits (List.replicate n '0') := by
  intro c hc
  obtain ⟨_, rfl⟩ := List.mem_replicate.1 hc
  exact ⟨0, by omega, rfl⟩

theorem ascii_natStrAux (f n : Nat) : AsciiDigits (natStrAux f n) := by
  induction f generalizing n with
  | zero => intro c hc; cases hc
  | succ f ih =>
    intro c hc
    unfold natStrAux at hc
    split at hc
    · rename_i h; simp at hc; exact ⟨n, h, hc⟩
    · simp only [List.mem_append, List.mem_singleton] at hc
      rcases hc with hc | hc
      · exact ih _ c hc
      · exact ⟨_, Nat.mod_lt _ (by omega), hc⟩

theorem ascii_natStr (n : Nat) : AsciiDigits (natStr n) := ascii_natStrAux _ _

theorem digitsVal_lt {s : Str} (h : AsciiDigits s) : digitsVal s < 10 ^ s.length := by
  induction s using List.reverseRecOn with
  | nil => simp [digitsVal]
  | append_singleton s c ih =>
    obtain ⟨d, hd, rfl⟩ := h c (by simp)
    have := ih fun x hx => h x (List.mem_append_left _ hx)
    rw [digitsVal_snoc, digitVal_digitChar hd, List.length_append, List.length_singleton, Nat.pow_succ]
    simp only [Option.getD_some]
    omega

theorem digitsVal_inj {s t : Str} (hs : AsciiDigits s) (ht : AsciiDigits t) (hl : s.length = t.length)
    (hv : digitsVal s = digitsVal t) : s = t := by
  induction s using List.reverseRecOn generalizing t with
  | nil => exact (List.length_eq_zero_iff.1 hl.symm).symm
  | append_singleton s c ih =>
    rcases List.eq_nil_or_concat t with rfl | ⟨t, c', rfl⟩
    · simp at hl
    · rw [List.concat_eq_append] at *
      obtain ⟨d, hd, rfl⟩ := hs c (by simp)
      obtain ⟨d', hd', rfl⟩ := ht c' (by simp)
      rw [digitsVal_snoc, digitsVal_snoc, digitVal_digitChar hd, digitVal_digitChar hd'] at hv
      simp only [Option.getD_some] at hv
      rw [ih (fun x hx => hs x (List.mem_append_left _ hx)) (fun x hx => ht x (List.mem_append_left _ hx))
        (by simpa using hl) (by omega), show d = d' by omega]

theorem digitChar_inj {d d' : Nat} (h : d < 10) (h' : d' < 10) (he : digitChar d = digitChar d') : d = d' := by
  have := digitVal_digitChar h
  rw [he, digitVal_digitChar h'] at this
  exact (Option.some.inj this).symm

theorem digitsVal_head {c : Char} {r : Str} (h : AsciiDigits (c :: r)) (hc : c ≠ '0') : 10 ^ r.length ≤ digitsVal (c :: r) := by
  obtain ⟨d, hd, rfl⟩ := h c List.mem_cons_self
  have hd0 : d ≠ 0 := by rintro rfl; exact hc rfl
  rw [show digitChar d :: r = [digitChar d] ++ r from rfl, F64.digitsVal_append]
  have : digitsVal [digitChar d] = d := by simp [digitsVal, digitVal_digitChar hd]
  rw [this]
  have : 1 * 10 ^ r.length ≤ d * 10 ^ r.length := Nat.mul_le_mul_right _ (by omega)
  omega

/-- A text of digits without leading zeros is the text of its value. -/
theorem natStr_digitsVal {s : Str} (h : AsciiDigits s) (hs : s = k!"0" ∨ s ≠ [] ∧ ∀ r, s ≠ '0' :: r) : natStr (digitsVal s) = s := by
  rcases hs with rfl | ⟨hne, h0⟩
  · rfl
  · cases s with
    | nil => exact absurd rfl hne
    | cons c r =>
      refine digitsVal_inj (ascii_natStr _) h ?_ (digitsVal_natStr _)
      refine F64.natStr_length_eq (by simp) ?_ (digitsVal_lt h)
      exact digitsVal_head h (fun hc => h0 r (by rw [hc]))

theorem last_mod {s t : Str} (h : AsciiDigits t) (hl : LastNonzero t) : digitsVal (s ++ t) % 10 ≠ 0 := by
  obtain ⟨a, c, rfl, hc⟩ := hl
  obtain ⟨d, hd, rfl⟩ := h c (by simp)
  have hd0 : d ≠ 0 := by rintro rfl; exact hc rfl
  rw [← List.append_assoc, digitsVal_snoc, digitVal_digitChar hd]
  simp only [Option.getD_some]
  omega

/-- Decimals in normal form of the same value are the same text. -/
theorem decimal_unique {ip fp ip' fp' : Str} (h1 : AsciiDigits ip) (h2 : AsciiDigits fp) (h3 : ip = k!"0" ∨ ip ≠ [] ∧ ∀ r, ip ≠ '0' :: r)
    (h4 : LastNonzero fp) (h1' : AsciiDigits ip') (h2' : AsciiDigits fp') (h3' : ip' = k!"0" ∨ ip' ≠ [] ∧ ∀ r, ip' ≠ '0' :: r)
    (h4' : LastNonzero fp')
    (hv : digitsVal (ip ++ fp) * 10 ^ fp'.length = digitsVal (ip' ++ fp') * 10 ^ fp.length) : ip = ip' ∧ fp = fp' := by
  have hm := last_mod (s := ip) h2 h4
  have hm' := last_mod (s := ip') h2' h4'
  have hlen : fp.length = fp'.length := by
    rcases Nat.lt_trichotomy fp.length fp'.length with h | h | h
    · exfalso
      obtain ⟨k, hk⟩ := Nat.exists_eq_add_of_lt h
      rw [hk, show fp.length + k + 1 = (k + 1) + fp.length by omega, Nat.pow_add, ← Nat.mul_assoc] at hv
      have := Nat.eq_of_mul_eq_mul_right (by positivity) hv
      rw [← this, Nat.pow_succ, ← Nat.mul_assoc] at hm'
      exact hm' (Nat.mul_mod_left _ _)
    · exact h
    · exfalso
      obtain ⟨k, hk⟩ := Nat.exists_eq_add_of_lt h
      rw [hk, show fp'.length + k + 1 = (k + 1) + fp'.length by omega, Nat.pow_add, ← Nat.mul_assoc] at hv
      have := Nat.eq_of_mul_eq_mul_right (by positivity) hv
      rw [this, Nat.pow_succ, ← Nat.mul_assoc] at hm
      exact hm (Nat.mul_mod_left _ _)
  rw [hlen] at hv
  have hv := Nat.eq_of_mul_eq_mul_right (by positivity) hv
  rw [F64.digitsVal_append, F64.digitsVal_append, hlen] at hv
  have l1 := digitsVal_lt h2
  have l2 := digitsVal_lt h2'
  rw [hlen] at l1
  have hpos : 0 < 10 ^ fp'.length := by positivity
  have e1 : digitsVal ip = digitsVal ip' := by
    have a1 : (digitsVal ip * 10 ^ fp'.length + digitsVal fp) / 10 ^ fp'.length = digitsVal ip := by
      rw [Nat.add_comm, Nat.add_mul_div_right _ _ hpos, Nat.div_eq_of_lt l1, Nat.zero_add]
    have a2 : (digitsVal ip' * 10 ^ fp'.length + digitsVal fp') / 10 ^ fp'.length = digitsVal ip' := by
      rw [Nat.add_comm, Nat.add_mul_div_right _ _ hpos, Nat.div_eq_of_lt l2, Nat.zero_add]
    rw [← a1, ← a2, hv]
  constructor
  · rw [← natStr_digitsVal h1 h3, ← natStr_digitsVal h1' h3', e1]
  · refine digitsVal_inj h2 h2' hlen ?_
    rw [e1] at hv
    omega

theorem stripZeros_last {s : Str} (h : F64.stripZeros s ≠ []) : LastNonzero (F64.stripZeros s) := by
  unfold F64.stripZeros at *
  have := List.head?_dropWhile_not (· == '0') s.reverse
  generalize s.reverse.dropWhile (· == '0') = l at *
  cases l with
  | nil => simp at h
  | cons c r =>
    simp at this
    exact ⟨r.reverse, c, by simp, this⟩

theorem natStr_head {n : Nat} (hn : 0 < n) : ∀ r, natStr n ≠ '0' :: r := by
  intro r hr
  have h1 := F64.natStr_length_le hn
  have h2 := digitsVal_natStr n
  have h3 := ascii_natStr n
  rw [hr] at h1 h2 h3
  rw [show '0' :: r = k!"0" ++ r from rfl, F64.digitsVal_append, show digitsVal k!"0" = 0 from rfl] at h2
  have h4 := digitsVal_lt (s := r) fun c hc => h3 c (List.mem_cons_of_mem _ hc)
  simp only [List.length_cons, Nat.add_sub_cancel] at h1
  omega

namespace F64

/-- `repr` of the double read for a decimal of at most fifteen digits is that decimal. -/
theorem repr_ofDecimal (neg : Bool) {ip fp : Str} (h1 : AsciiDigits ip) (h2 : AsciiDigits fp)
    (h3 : ip = k!"0" ∨ ip ≠ [] ∧ ∀ r, ip ≠ '0' :: r) (h4 : LastNonzero fp) (hD : digitsVal (ip ++ fp) < 10 ^ 15)
    (hlo : 10 ^ fp.length ≤ 10000 * digitsVal (ip ++ fp)) :
    (ofDecimal neg ip fp).isInteger = false ∧ (ofDecimal neg ip fp).repr = (if neg then ['-'] else []) ++ ip ++ '.' :: fp := by
  have hmod := last_mod (s := ip) h2 h4
  have hq : 0 < fp.length := by
    obtain ⟨a, c, rfl, _⟩ := h4; simp
  have hpq : (0 : ℚ) < 10 ^ fp.length := by positivity
  have hlo' : (1 / 10000 : ℚ) ≤ digitsVal (ip ++ fp) / 10 ^ fp.length := by
    rw [div_le_div_iff₀ (by norm_num) hpq]
    have : ((10 ^ fp.length : ℕ) : ℚ) ≤ ((10000 * digitsVal (ip ++ fp) : ℕ) : ℚ) := by exact_mod_cast hlo
    push_cast at this
    linarith
  have hval := ofRat_valid neg (n := digitsVal (ip ++ fp)) (d := 10 ^ fp.length) (by positivity)
  have hneg := ofRat_neg neg (digitsVal (ip ++ fp)) (10 ^ fp.length)
  unfold ofDecimal
  have hni : ∀ A : ℕ, digitsVal (ip ++ fp) ≠ A * 10 ^ fp.length := by
    intro A hA
    obtain ⟨k, hk⟩ := Nat.exists_eq_add_of_lt hq
    rw [hA, hk, Nat.pow_succ, ← Nat.mul_assoc] at hmod
    exact hmod (Nat.mul_mod_left _ _)
  generalize hf : ofRat neg (digitsVal (ip ++ fp)) (10 ^ fp.length) = f at *
  cases f with
  | inf b =>
    exfalso
    have h := (ofRat_inf_iff (neg := neg) (n := digitsVal (ip ++ fp)) (d := 10 ^ fp.length) (by positivity)).1 ⟨b, hf⟩
    push_cast at h
    have hv : (digitsVal (ip ++ fp) / 10 ^ fp.length : ℚ) ≤ 10 ^ 15 := by
      rw [div_le_iff₀ hpq]
      have a1 : (digitsVal (ip ++ fp) : ℚ) ≤ ((10 ^ 15 : ℕ) : ℚ) := by exact_mod_cast hD.le
      have a2 : (1 : ℚ) ≤ 10 ^ fp.length := one_le_pow₀ (by norm_num)
      push_cast at a1
      nlinarith
    have b1 : pow2 1024 = pow2 1023 * 2 := by rw [show (1024 : ℤ) = 1023 + 1 from rfl, pow2_add, pow2_one]
    have b2 : pow2 970 < pow2 1023 := pow2_lt (by omega)
    have b3 : pow2 53 < pow2 1023 := pow2_lt (by omega)
    rw [pow2_53] at b3
    norm_num at b3 hv
    linarith
  | fin s m e =>
    have hs : s = neg := hneg
    subst hs
    have hc : Canonical m e := hval
    have hm : m ≠ 0 := by
      rintro rfl
      have := (ofRat_close (by positivity) (by push_cast; linarith) hf).2
      push_cast at this
      rw [zero_mul] at this
      generalize (digitsVal (ip ++ fp) / 10 ^ fp.length : ℚ) = v at *
      norm_num at this
      linarith
    obtain ⟨k, hk, hd, ho, hv⟩ := shortest_value hc hm hD hlo' hf
    have hD' : (digitsVal (ip ++ fp) : ℚ) < 10 ^ 15 := by
      have : (digitsVal (ip ++ fp) : ℚ) < ((10 ^ 15 : ℕ) : ℚ) := by exact_mod_cast hD
      push_cast at this
      exact this
    obtain ⟨c1, c2⟩ := ofRat_close (by positivity) (by push_cast; linarith) hf
    push_cast at c1 c2
    have hn := (decpt_range hc hm hk hd ho).2 ⟨by
      have hy : ofRat s 1 10000 = .fin s 7378697629483821 (-66) := by cases s <;> rfl
      have := ofRat_mono (by norm_num) (by positivity) (by push_cast; exact hlo') hy hf
      refine le_trans ?_ this
      norm_num, by
      have hv : (digitsVal (ip ++ fp) / 10 ^ fp.length : ℚ) ≤ 10 ^ 15 := by
        rw [div_le_iff₀ hpq]
        have a2 : (1 : ℚ) ≤ 10 ^ fp.length := one_le_pow₀ (by norm_num)
        nlinarith
      generalize (digitsVal (ip ++ fp) / 10 ^ fp.length : ℚ) = v at *
      norm_num at *
      linarith⟩
    refine ⟨by
      by_contra hi
      obtain ⟨a, ha, -⟩ := integral_abs (by simpa using hi)
      rw [← ha] at c1 c2
      refine hni a ?_
      have m1 := mul_le_mul_of_nonneg_right c1 hpq.le
      have m2 := mul_le_mul_of_nonneg_right c2 hpq.le
      rw [sub_mul, div_mul_cancel₀ _ hpq.ne', div_mul_eq_mul_div, div_mul_cancel₀ _ hpq.ne'] at m1 m2
      symm
      refine multiples_eq (t := 1) (by norm_num) ?_ ?_
      all_goals
        push_cast
        generalize ((digitsVal (ip ++ fp) : ℕ) : ℚ) = X at m1 m2 hD' ⊢
        norm_num at m1 m2 hD' ⊢
        linarith, ?_⟩
    obtain ⟨hne, hdig, hdv⟩ := digits_val hk hd
    rw [hv] at hdv
    have hc1 : 0 < (shortest s m e 17 1).1 := lt_of_lt_of_le (by positivity) hd.lo
    have hhead := natStr_head hc1
    have hlast := stripZeros_last hne
    obtain ⟨z, hz⟩ := stripZeros_eq (natStr (shortest s m e 17 1).1)
    have hasc := ascii_natStr (shortest s m e 17 1).1
    unfold repr
    simp only [if_neg hm, if_neg hn]
    generalize hcc : shortest s m e 17 1 = c at *
    generalize stripZeros (natStr c.1) = ds at *
    rw [hz] at hhead hasc
    replace hasc : AsciiDigits ds := fun x hx => hasc x (List.mem_append_left _ hx)
    replace hhead : ∀ r, ds ≠ '0' :: r := by
      rintro r rfl
      exact hhead _ (List.cons_append)
    have hl : 0 < ds.length := List.length_pos_of_ne_nil hne
    -- the text is the decimal in normal form
    have fin : ∀ ip' fp' : Str, AsciiDigits ip' → AsciiDigits fp' → (ip' = k!"0" ∨ ip' ≠ [] ∧ ∀ r, ip' ≠ '0' :: r) → LastNonzero fp' →
        (digitsVal (ip' ++ fp') : ℚ) / 10 ^ fp'.length = digitsVal ds * 10 ^ (c.2 + 1 - ds.length) →
        (if s = true then ['-'] else []) ++ ip' ++ '.' :: fp' = (if s = true then ['-'] else []) ++ ip ++ '.' :: fp := by
      intro ip' fp' g1 g2 g3 g4 g5
      rw [hdv, div_eq_div_iff (by positivity) (by positivity)] at g5
      obtain ⟨rfl, rfl⟩ := decimal_unique g1 g2 g3 g4 h1 h2 h3 h4 (by exact_mod_cast g5)
      rfl
    by_cases h0 : c.2 + 1 ≤ 0
    · simp only [if_pos h0]
      have := fin k!"0" (List.replicate (-(c.2 + 1)).toNat '0' ++ ds) (by intro x hx; cases hx with | head => exact ⟨0, by omega, rfl⟩ | tail _ h => cases h)
        ((ascii_zeros _).append hasc) (.inl rfl) (by
          obtain ⟨a, x, hx, hx0⟩ := hlast
          exact ⟨List.replicate (-(c.2 + 1)).toNat '0' ++ a, x, by rw [hx, List.append_assoc], hx0⟩) (by
          rw [digitsVal_append, digitsVal_append, digitsVal_zeros, List.length_append, List.length_replicate]
          rw [show digitsVal k!"0" = 0 from rfl]
          rw [← zpow_natCast, div_eq_mul_inv, ← zpow_neg]
          simp only [zero_mul, zero_add]
          congr 2
          push_cast
          omega)
      rw [← this]
      simp
    · simp only [if_neg h0]
      have hnn : ((c.2 + 1).toNat : ℤ) = c.2 + 1 := Int.toNat_of_nonneg (by omega)
      generalize (c.2 + 1).toNat = n at *
      by_cases hle : ds.length ≤ n
      · exfalso
        rw [← hnn, show (n : ℤ) - ds.length = ((n - ds.length : ℕ) : ℤ) by omega, zpow_natCast, eq_div_iff hpq.ne'] at hdv
        refine hni (digitsVal ds * 10 ^ (n - ds.length)) ?_
        have : ((digitsVal ds * 10 ^ (n - ds.length) * 10 ^ fp.length : ℕ) : ℚ) = digitsVal (ip ++ fp) := by push_cast; exact hdv
        exact_mod_cast this.symm
      · simp only [if_neg hle]
        refine fin _ _ (fun x hx => hasc x (List.mem_of_mem_take hx)) (fun x hx => hasc x (List.mem_of_mem_drop hx)) (.inr ⟨?_, ?_⟩) ?_ ?_
        · intro h
          have := congrArg List.length h
          simp only [List.length_take, List.length_nil] at this
          omega
        · intro r hr
          refine hhead (r ++ ds.drop n) ?_
          rw [← List.cons_append, ← hr, List.take_append_drop]
        · obtain ⟨a, x, hx, hx0⟩ := hlast
          have hna : n ≤ a.length := by
            have := congrArg List.length hx
            simp at this
            omega
          exact ⟨a.drop n, x, by rw [hx, List.drop_append_of_le_length hna], hx0⟩
        · rw [List.take_append_drop, List.length_drop, ← hnn]
          rw [← zpow_natCast, div_eq_mul_inv, ← zpow_neg]
          congr 2
          omega

end F64
end Kiutils
