import Verif.Stable
/-!
# Fixed number of decimals

`F64.fmtFixed` against exact arithmetic.
-/
namespace Kiutils
open F64

/-- The digits of a number with `p` decimals. -/
theorem fixed_digits (p N : Nat) (ds : Str) (h : ds = List.replicate (p + 1 - (natStr N).length) '0' ++ natStr N) :
    (∀ c ∈ ds, isDigit c = true) ∧ digitsVal ds = N ∧ p + 1 ≤ ds.length := by
  subst h
  refine ⟨?_, ?_, ?_⟩
  · intro c hc
    simp only [List.mem_append, List.mem_replicate] at hc
    rcases hc with ⟨_, rfl⟩ | hc
    · rfl
    · exact natStr_digits _ _ hc
  · rw [digitsVal_append, digitsVal_zeros, digitsVal_natStr]; simp
  · rw [List.length_append, List.length_replicate]; omega

/-- What `fmtFixed` writes for a finite double: sign, digits, point and exactly `p` digits whose value is the double rounded to
`p` decimals. -/
theorem fmtFixed_spec (p : Nat) (neg : Bool) (m : Nat) (e : Int) :
    ∃ n : NumLit, n.Wf ∧ n.src = F64.fmtFixed p (.fin neg m e) ∧ n.sign = (if neg then some '-' else none) ∧
      (n.fp.getD []).length = p ∧ Rounds (m * 2 ^ e * 10 ^ p) (digitsVal (n.ip ++ n.fp.getD [])) := by
  have hr : Rounds ((m : ℚ) * 2 ^ e * 10 ^ p) (roundDiv (num m e * 10 ^ p) (den e)) := by
    have := roundDiv_rounds (n := num m e * 10 ^ p) (den_pos e)
    rwa [show (((num m e * 10 ^ p : ℕ) : ℚ) / den e) = m * 2 ^ e * 10 ^ p by
      rw [← num_val]; push_cast; rw [mul_div_right_comm]] at this
  unfold F64.fmtFixed
  simp only
  generalize roundDiv (num m e * 10 ^ p) (den e) = N at *
  obtain ⟨hdig, hdv, hlen⟩ := fixed_digits p N _ rfl
  generalize List.replicate (p + 1 - (natStr N).length) '0' ++ natStr N = ds at *
  by_cases hp : p = 0
  · subst hp
    refine ⟨⟨if neg then some '-' else none, ds, none⟩, ⟨?_, hdig, nofun, nofun, ?_⟩, ?_, rfl, rfl, ?_⟩
    · rintro rfl; simp at hlen
    · cases neg <;> simp
    · cases neg <;> simp [NumLit.src]
    · simpa [hdv] using hr
  · refine ⟨⟨if neg then some '-' else none, ds.take (ds.length - p), some (ds.drop (ds.length - p))⟩,
      ⟨?_, fun c hc => hdig c (List.mem_of_mem_take hc), ?_, ?_, ?_⟩, ?_, rfl, ?_, ?_⟩
    · intro h
      have := congrArg List.length h
      simp only [List.length_take, List.length_nil] at this
      omega
    · intro f hf h
      cases hf
      have := congrArg List.length h
      simp only [List.length_drop, List.length_nil] at this
      omega
    · intro f hf c hc
      cases hf
      exact hdig c (List.mem_of_mem_drop hc)
    · cases neg <;> simp
    · rw [if_neg hp]
      cases neg <;> simp [NumLit.src]
    · simp only [Option.getD_some, List.length_drop]; omega
    · simp only [Option.getD_some, List.take_append_drop, hdv]; exact hr

/-- Two plain numbers of the same text are the same. -/
theorem NumLit.Wf.src_inj {n n' : NumLit} (h : n.Wf) (h' : n'.Wf) (he : n.src = n'.src) : n = n' := by
  have key : ∀ n : NumLit, n.Wf → n.sign = (match n.src with | '-' :: _ => some '-' | '+' :: _ => some '+' | _ => none) := by
    intro n h
    obtain ⟨s, ip, fp⟩ := n
    have h1 := h.ip_ne; have h2 := h.ip_digits; have h5 := h.sign_ok
    simp only at h1 h2 h5
    cases ip with
    | nil => exact absurd rfl h1
    | cons a r =>
      have := h2 a List.mem_cons_self
      rcases h5 with rfl | rfl | ⟨rfl, _⟩
      · simp only [NumLit.src, Option.toList, List.nil_append, List.cons_append]
        split
        · rename_i heq; cases heq; exact absurd this (by decide)
        · rename_i heq; cases heq; exact absurd this (by decide)
        · rfl
      · rfl
      · rfl
  have hs : n.sign = n'.sign := by rw [key n h, key n' h', he]
  obtain ⟨s, ip, fp⟩ := n
  obtain ⟨s', ip', fp'⟩ := n'
  simp only at hs
  subst hs
  simp only [NumLit.src, List.append_assoc] at he
  have he := List.append_cancel_left he
  have hpt : ∀ {ip : Str} {fp : Option Str}, (∀ c ∈ ip, isDigit c = true) →
      (ip ++ (match fp with | none => [] | some f => '.' :: f)).takeWhile isDigit = ip := by
    intro ip fp hd
    rw [List.takeWhile_append_of_pos hd]
    cases fp with
    | none => simp
    | some f => rw [List.takeWhile_cons_of_neg (by decide)]; simp
  have hip : ip = ip' := by
    have h1 := hpt (fp := fp) h.ip_digits
    have h2 := hpt (fp := fp') h'.ip_digits
    simp only at h1 h2
    exact h1.symm.trans ((congrArg (List.takeWhile isDigit) he).trans h2)
  subst hip
  have he := List.append_cancel_left he
  cases fp <;> cases fp' <;> simp_all

/-- Rounding a decimal of at most `2^52` units to a double and back to the decimals gives the decimal. -/
theorem fixed_near {neg : Bool} {p D : Nat} (hD : D < 2 ^ 52) (hp : p ≤ 250) :
    ∃ m e, ofRat neg D (10 ^ p) = .fin neg m e ∧ Rounds ((m : ℚ) * 2 ^ e * 10 ^ p) D := by
  have hd : 0 < 10 ^ p := by positivity
  by_cases hn : D = 0
  · subst hn
    refine ⟨0, -1074, by simp [ofRat], ?_⟩
    rw [Nat.cast_zero, zero_mul, zero_mul]
    exact .of_near (by norm_num) (by norm_num)
  have e1 := isExp_expOf (Nat.pos_of_ne_zero hn) hd
  have r1 := roundDiv_rounds (n := (scale D (10 ^ p) (expOf D (10 ^ p))).1) (scale_pos (n := D) hd (expOf D (10 ^ p)))
  rw [scale_val hd] at r1
  rw [ofRat_eq (Nat.pos_of_ne_zero hn) hd e1 r1]
  generalize expOf D (10 ^ p) = e at *
  generalize roundDiv (scale D (10 ^ p) e).1 (scale D (10 ^ p) e).2 = m at *
  have hq : (0 : ℚ) < ((10 ^ p : ℕ) : ℚ) := by exact_mod_cast hd
  have hq1 : (1 : ℚ) ≤ ((10 ^ p : ℕ) : ℚ) := by exact_mod_cast hd
  have hDq : (D : ℚ) ≤ 2 ^ 52 - 1 := by
    have : D + 1 ≤ 2 ^ 52 := hD
    have : ((D + 1 : ℕ) : ℚ) ≤ ((2 ^ 52 : ℕ) : ℚ) := by exact_mod_cast this
    push_cast at this
    linarith
  have hbig : ((10 ^ p : ℕ) : ℚ) * 2 ^ (-1074 : ℤ) < 1 := by
    have h1 : (10 : ℕ) ^ p ≤ 16 ^ p := Nat.pow_le_pow_left (by norm_num) p
    have h2 : ((10 ^ p : ℕ) : ℚ) ≤ 2 ^ ((4 * p : ℕ) : ℤ) := by
      have : (10 : ℕ) ^ p ≤ 2 ^ (4 * p) := by rw [pow_mul]; exact h1
      rw [zpow_natCast]
      exact_mod_cast this
    have h3 : (0 : ℚ) < 2 ^ (-1074 : ℤ) := by positivity
    have h4 : (2 : ℚ) ^ ((4 * p : ℕ) : ℤ) * 2 ^ (-1074 : ℤ) < 1 := by
      rw [← zpow_add₀ (by norm_num)]
      exact zpow_lt_one_of_neg₀ (by norm_num) (by omega)
    exact lt_of_le_of_lt (mul_le_mul_of_nonneg_right h2 h3.le) h4
  obtain ⟨a1, a2, a3⟩ := e1
  obtain ⟨b1, b2, -, -⟩ := r1
  have hpe : (0 : ℚ) < 2 ^ e := by positivity
  have hval : ∀ m' e', m' = (if m = 2 ^ 53 then 2 ^ 52 else m) → e' = (if m = 2 ^ 53 then e + 1 else e) →
      ((m' : ℕ) : ℚ) * 2 ^ (e' : ℤ) = m * 2 ^ e := by
    rintro _ _ rfl rfl
    split
    · rename_i h; subst h
      rw [zpow_add₀ (by norm_num)]; push_cast; norm_num; ring
    · rfl
  -- the exponent is small
  have hle : e ≤ 0 := by
    by_contra h
    have h2 : (1 : ℚ) ≤ 2 ^ e := one_le_zpow₀ (by norm_num) (by omega)
    rcases a2 with a2 | a2
    · have : (D : ℚ) / ((10 ^ p : ℕ) : ℚ) ≤ D := div_le_self (by positivity) hq1
      have : (2 : ℚ) ^ (52 : ℤ) = 2 ^ 52 := by norm_num
      rw [this] at a2
      nlinarith
    · omega
  have hnot : ¬ (if m = 2 ^ 53 then e + 1 else e) > 971 := by split <;> omega
  rw [if_neg hnot]
  refine ⟨_, _, rfl, ?_⟩
  rw [hval _ _ rfl rfl]
  rw [show ((10 : ℚ) ^ p) = ((10 ^ p : ℕ) : ℚ) by push_cast; rfl]
  -- the distance
  have c1 : (m : ℚ) * 2 ^ e - 1 / 2 * 2 ^ e ≤ D / ((10 ^ p : ℕ) : ℚ) := by
    have := mul_le_mul_of_nonneg_right b1 hpe.le
    rwa [div_mul_cancel₀ _ hpe.ne', sub_mul] at this
  have c2 : D / ((10 ^ p : ℕ) : ℚ) ≤ (m : ℚ) * 2 ^ e + 1 / 2 * 2 ^ e := by
    have := mul_le_mul_of_nonneg_right b2 hpe.le
    rwa [div_mul_cancel₀ _ hpe.ne', add_mul] at this
  have d1 := mul_le_mul_of_nonneg_right c1 hq.le
  have d2 := mul_le_mul_of_nonneg_right c2 hq.le
  rw [div_mul_cancel₀ _ hq.ne'] at d1 d2
  have hsmall : 2 ^ e * ((10 ^ p : ℕ) : ℚ) < 1 := by
    rcases a2 with a2 | a2
    · have := mul_le_mul_of_nonneg_right a2 hq.le
      rw [div_mul_cancel₀ _ hq.ne', show (2 : ℚ) ^ (52 : ℤ) = 2 ^ 52 by norm_num] at this
      by_contra hc
      push Not at hc
      have : (2 : ℚ) ^ 52 * 1 ≤ 2 ^ 52 * (2 ^ e * ((10 ^ p : ℕ) : ℚ)) := by
        exact mul_le_mul_of_nonneg_left hc (by positivity)
      linarith
    · rw [a2, mul_comm]; exact hbig
  generalize ((10 ^ p : ℕ) : ℚ) = a at *
  exact .of_near (by nlinarith) (by nlinarith)

/-- A double is the one nearest to itself. -/
theorem ofRat_self {neg : Bool} {m : Nat} {e : Int} (h : (F64.fin neg m e).Valid) {n d : Nat} (hd : 0 < d)
    (hv : (n / d : ℚ) = m * 2 ^ e) : ofRat neg n d = .fin neg m e := by
  have hc : Canonical m e := h
  by_cases hm : m = 0
  · subst hm
    have he : e = -1074 := hc.norm.resolve_left (by norm_num)
    subst he
    rw [Nat.cast_zero, zero_mul] at hv
    have hd' : (d : ℚ) ≠ 0 := by exact_mod_cast hd.ne'
    have : n = 0 := by
      rcases div_eq_zero_iff.1 hv with h | h
      · exact_mod_cast h
      · exact absurd h hd'
    subst this
    simp [ofRat]
  · exact ofRat_exact hc hm hd hv

/-- A double of the same sign that counts as the same number is the same double. -/
theorem canon_flt_inj {neg : Bool} {m : Nat} {e : Int} {g : F64} (h : (F64.fin neg m e).Valid) (hg : g.Valid)
    (hn : g.neg? = neg) (hc : Val.canon (.flt g) = Val.canon (.flt (.fin neg m e))) : g = .fin neg m e := by
  cases g with
  | inf b =>
    exfalso
    have : Val.canon (.flt (.inf b)) = .flt (.inf b) := rfl
    rw [this] at hc
    simp only [Val.canon] at hc
    split at hc <;> cases hc
  | fin n2 m2 e2 =>
    have hn : n2 = neg := hn
    subst hn
    simp only [Val.canon] at hc
    split at hc
    · rename_i h1
      split at hc
      · rename_i h2
        obtain ⟨a, ha, hta⟩ := integral_abs h1
        obtain ⟨b, hb, htb⟩ := integral_abs h2
        have hab : a = b := by
          have := Val.int.inj hc
          rw [hta, htb] at this
          cases n2 <;> simp_all
        subst hab
        rw [← ofRat_self (n := a) (d := 1) h Nat.one_pos (by simpa using hb),
          ← ofRat_self (n := a) (d := 1) hg Nat.one_pos (by simpa using ha)]
      · cases hc
    · split at hc
      · cases hc
      · cases hc; rfl

end Kiutils
