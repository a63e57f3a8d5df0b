import Verif.FloatRange
import Verif.Fmt
import Verif.Props.Text
/-!
# C05, C45: numbers

Which numbers survive saving and loading: exactly the ints that are doubles, zero, and the floats from 0.0001 up to 1e16 (the
range in which Python writes a float without an exponent). All other floats come back as text.
-/
namespace Kiutils
open F64

/-! ## Integral doubles are ints that survive -/

theorem exactInt_of_integral {f : F64} (hf : f.Valid) (hi : f.isInteger = true) : ExactInt f.toInt := by
  cases f with
  | inf _ => cases hi
  | fin neg m e =>
    have hc : Canonical m e := hf
    by_cases hm : m = 0
    · subst hm
      have : (F64.fin neg 0 e).toInt = 0 := by
        unfold F64.toInt; simp
      rw [this]
      exact exactInt_of_le (by decide)
    have hval : ∃ a : Nat, 0 < a ∧ (a : ℚ) = m * 2 ^ e ∧ (F64.fin neg m e).toInt = if neg then -(a : Int) else a := by
      by_cases he : 0 ≤ e
      · refine ⟨m * 2 ^ e.toNat, by positivity, ?_, ?_⟩
        · rw [two_zpow_of_nonneg he]; push_cast; rfl
        · simp only [F64.toInt, if_pos he]
      · have hmod : m % 2 ^ (-e).toNat = 0 := by
          unfold F64.isInteger at hi
          simpa [he] using hi
        obtain ⟨a, ha⟩ := Nat.dvd_of_mod_eq_zero hmod
        have hpos : 0 < 2 ^ (-e).toNat := by positivity
        refine ⟨a, Nat.pos_of_ne_zero (by rintro rfl; simp at ha; omega), ?_, ?_⟩
        · rw [two_zpow_of_neg (by omega), ha]; push_cast; field_simp
        · simp only [F64.toInt, if_neg he]; rw [ha, Nat.mul_div_cancel_left _ hpos]
    obtain ⟨a, ha, hv, ht⟩ := hval
    have hneg : decide ((F64.fin neg m e).toInt < 0) = neg := by
      rw [ht]; cases neg <;> (simp; try omega)
    have habs : (F64.fin neg m e).toInt.natAbs = a := by
      rw [ht]; cases neg <;> simp
    unfold ExactInt
    rw [hneg, habs, ofRat_exact hc hm Nat.one_pos (by push_cast; rw [hv]; simp)]
    simp only [Val.canon, hi, if_true]

theorem F64.Plain.valid {f : F64} (h : f.Plain) : f.Valid := by
  obtain ⟨neg, ip, fp, _, _, _, _, _, h⟩ := h
  rw [← h]
  exact ofRat_valid _ (by positivity)

/-- What a number is after loading can be saved and loaded again. -/
theorem NumOk.canon {v : Val} (h : NumOk v) : NumOk v.canon := by
  cases v with
  | int n => exact h
  | flt f =>
    have hf : f.Plain := h
    simp only [Val.canon]
    split
    · exact exactInt_of_integral hf.valid (by assumption)
    · exact hf
  | str _ => exact h.elim
  | list _ => exact h.elim

/-! ## Scientific notation is text -/

theorem e_not_src {n : NumLit} (h : n.Wf) : ('e' : Char) ∉ n.src ∧ 'n' ∉ n.src := by
  obtain ⟨sign, ip, fp⟩ := n
  obtain ⟨h1, h2, h3, h4, h5⟩ := h
  simp only at h1 h2 h3 h4 h5
  have key : ∀ c : Char, c = 'e' ∨ c = 'n' → c ∉ NumLit.src ⟨sign, ip, fp⟩ := by
    intro c hce hc
    have hnd : isDigit c = false := by rcases hce with rfl | rfl <;> decide
    simp only [NumLit.src, List.mem_append] at hc
    rcases hc with (hc | hc) | hc
    · rcases h5 with rfl | rfl | ⟨rfl, _⟩ <;> simp at hc <;> subst hc <;> rcases hce with h | h <;> cases h
    · rw [h2 c hc] at hnd; cases hnd
    · cases fp with
      | none => simp at hc
      | some f =>
        simp only [List.mem_cons] at hc
        rcases hc with rfl | hc
        · rcases hce with h | h <;> cases h
        · rw [h4 f rfl c hc] at hnd; cases hnd
  exact ⟨key _ (.inl rfl), key _ (.inr rfl)⟩

theorem not_numeric {w : Str} (hw : ∀ c ∈ w, isBare c = true) (h : 'e' ∈ w ∨ 'n' ∈ w) : looksNumeric w = false := by
  unfold looksNumeric
  rcases hm : matchNum (w ++ [' ']) with _ | ⟨n, rest⟩
  · rfl
  · exfalso
    have h1 := matchNum_spec hm
    have h2 := matchNum_wf hm
    have := bare_cut h1.1 (NumLit.src_bare h2) hw (bareEnd_of_numEnd h1.2.2) rfl
    have h3 := e_not_src h2
    rw [this.1] at h3
    exact h.elim h3.1 h3.2

theorem sci_word (neg : Bool) (mant : Str) (x : Int) (hne : mant ≠ []) (hb : ∀ c ∈ mant, isBare c = true)
    (hq : mant.head? ≠ some '"') :
    TokOk (.str ((if neg = true then ['-'] else []) ++ mant ++ 'e' :: (if x < 0 then '-' else '+') ::
      (if (natStr x.natAbs).length < 2 then '0' :: natStr x.natAbs else natStr x.natAbs))) := by
  have hall : ∀ y ∈ (if neg = true then ['-'] else []) ++ mant ++ 'e' :: (if x < 0 then '-' else '+') ::
      (if (natStr x.natAbs).length < 2 then '0' :: natStr x.natAbs else natStr x.natAbs), isBare y = true := by
    intro y hy
    simp only [List.mem_append, List.mem_cons] at hy
    rcases hy with (hy | hy) | rfl | rfl | hy
    · cases neg <;> simp at hy; subst hy; rfl
    · exact hb y hy
    · rfl
    · split <;> rfl
    · split at hy
      · rw [List.mem_cons] at hy
        rcases hy with rfl | hy
        · rfl
        · exact isBare_of_digit (natStr_digits _ _ hy)
      · exact isBare_of_digit (natStr_digits _ _ hy)
  refine ⟨by simp, hall, ?_, not_numeric hall (.inl (by simp))⟩
  cases neg
  · cases mant with
    | nil => exact absurd rfl hne
    | cons a r => show List.head? _ ≠ _; simpa using hq
  · show List.head? _ ≠ _; simp

/-- The text of a double outside the range is one word without the shape of a number. -/
theorem repr_word {f : F64} (hf : f.Valid) (h : ¬ f.InRange) : TokOk (.str f.repr) := by
  cases f with
  | inf neg => cases neg <;> exact ⟨by decide, by decide, TextRule.word_noQuote (by decide), by decide⟩
  | fin neg m e =>
    have hc : Canonical m e := hf
    have hm : m ≠ 0 := by
      rintro rfl
      exact h ⟨⟨_, _, _, rfl⟩, .inl (by simp [absVal])⟩
    obtain ⟨k, hk, hk17, hd, ho⟩ := shortest_spec (neg := neg) hc hm (fuel := 17) (k := 1) (by norm_num) (by norm_num) (by norm_num)
    have hn : (shortest neg m e 17 1).2 + 1 ≤ -4 ∨ (shortest neg m e 17 1).2 + 1 > 16 := by
      by_contra hn
      exact h ⟨⟨_, _, _, rfl⟩, .inr ((decpt_range hc hm hk hd ho).1 hn)⟩
    obtain ⟨hne, hdig, _⟩ := digits_val hk hd
    unfold F64.repr
    simp only [if_neg hm, if_pos hn]
    generalize shortest neg m e 17 1 = c at *
    generalize stripZeros (natStr c.1) = ds at *
    match ds, hne, hdig with
    | [a], _, hdig =>
      refine sci_word neg [a] c.2 (by simp) ?_ ?_
      · intro c hc; simp at hc; subst hc; exact isBare_of_digit (hdig _ (by simp))
      · simp only [List.head?_cons, ne_eq, Option.some.injEq]
        rintro rfl; exact absurd (hdig '"' (List.mem_singleton.2 rfl)) (by decide)
    | a :: b :: r, _, hdig =>
      refine sci_word neg (a :: '.' :: b :: r) c.2 (by simp) ?_ ?_
      · intro c hc
        rw [List.mem_cons, List.mem_cons] at hc
        rcases hc with rfl | rfl | hc
        · exact isBare_of_digit (hdig _ (by simp))
        · rfl
        · exact isBare_of_digit (hdig _ (List.mem_cons_of_mem _ hc))
      · simp only [List.head?_cons, ne_eq, Option.some.injEq]
        rintro rfl; exact absurd (hdig '"' (by simp)) (by decide)

/-! ## C05, C45 -/

/-- C05: the text of every float that is zero or from 0.0001 up to 1e16, followed by a blank or `)`, is read as that float, or as
the equal int if it is integral. -/
theorem C05_float_range (f : F64) (r : Str) (c : Char) (hv : f.Valid) (hr : f.InRange) (hc : c = ' ' ∨ c = ')') :
    lex (f.repr ++ c :: r) = .atom (if f.isInteger then .int f.toInt else .flt f) :: lex (c :: r) :=
  C05_float f r c (plain_of_range hv hr) hc

/-- C05: outside the range the float comes back as text. -/
theorem C05_float_outside (f : F64) (r : Str) (c : Char) (hv : f.Valid) (hr : ¬ f.InRange) (hc : c = ' ' ∨ c = ')') :
    lex (f.repr ++ c :: r) = .atom (.str f.repr) :: lex (c :: r) := by
  obtain ⟨h1, h2, h3, h4⟩ := repr_word hv hr
  exact lex_word f.repr (c :: r) h1 h2 h3 h4 (by rcases hc with rfl | rfl <;> rfl)

example := C05_float_range (.fin false 5764607523034235 (-51)) k!"0)" ' ' ⟨by decide, by decide, by decide, .inl (by decide)⟩
  ⟨⟨_, _, _, rfl⟩, .inr (by norm_num [absVal])⟩ (.inl rfl)
example := C05_float_outside (.fin false 5902958103587057 (-67)) k!"" ')' ⟨by decide, by decide, by decide, .inl (by decide)⟩
  (by rintro ⟨_, h | h⟩ <;> norm_num [absVal] at h) (.inr rfl)

/-- The float that Python computes for a number literal of a file. -/
def NumLit.float (n : NumLit) : F64 := F64.ofDecimal (n.sign == some '-') n.ip (n.fp.getD [])

theorem NumLit.float_valid (n : NumLit) : n.float.Valid := ofRat_valid _ (by positivity)

theorem inRange_of_fraction {f : F64} (hv : f.Valid) (hi : f.isInteger = false) (hf : ∃ neg m e, f = .fin neg m e)
    (h : 1 / 10000 ≤ f.absVal) : f.InRange := by
  refine ⟨hf, .inr ⟨h, ?_⟩⟩
  obtain ⟨neg, m, e, rfl⟩ := hf
  have hc : Canonical m e := hv
  simp only [F64.isInteger, Bool.or_eq_false_iff, decide_eq_false_iff_not] at hi
  have he : e ≤ 0 := by omega
  have h1 : (2 : ℚ) ^ e ≤ 1 := by
    rw [show (1 : ℚ) = 2 ^ (0 : ℤ) by norm_num]; exact zpow_le_zpow_right₀ (by norm_num) he
  have hm : (m : ℚ) < 9007199254740992 := by exact_mod_cast hc.man
  have hp : (0 : ℚ) < 2 ^ e := by positivity
  show (m : ℚ) * 2 ^ e < _
  nlinarith

/-- C45: a number that was read from a file is written so that the same number is read again, unless its absolute value is
between 0 and 0.0001 (or too large for a float). -/
theorem C45_partial (n : NumLit) (r : Str) (c : Char) (hfin : ∃ neg m e, n.float = .fin neg m e)
    (h : n.float.absVal = 0 ∨ 1 / 10000 ≤ n.float.absVal) (hc : c = ' ' ∨ c = ')') :
    lex (n.val.pyStr ++ c :: r) = .atom n.val :: lex (c :: r) := by
  have hv := n.float_valid
  have hok : NumOk n.val := by
    show NumOk (Val.canon (.flt n.float))
    simp only [Val.canon]
    split
    · exact exactInt_of_integral hv (by assumption)
    · rename_i hi
      refine plain_of_range hv ?_
      rcases h with h | h
      · exact ⟨hfin, .inl h⟩
      · exact inRange_of_fraction hv (by simpa using hi) hfin h
  have := lx_num (s := c :: r) hok (by simpa [numEnd] using hc) ⟨rfl, trivial⟩
  rw [this.lex]
  have hcc : n.val.canon = n.val := canon_canon _
  rw [hcc]
  revert hok
  cases n.val with
  | int _ => intro _; rfl
  | flt _ => intro _; rfl
  | str _ => exact fun h => h.elim
  | list _ => exact fun h => h.elim

/-- C45, in terms of the decimal value of the literal. -/
theorem C45_decimal_partial (n : NumLit) (r : Str) (c : Char) (hfin : ∃ neg m e, n.float = .fin neg m e)
    (h : 1 / 10000 ≤ (digitsVal (n.ip ++ n.fp.getD []) / 10 ^ (n.fp.getD []).length : ℚ)) (hc : c = ' ' ∨ c = ')') :
    lex (n.val.pyStr ++ c :: r) = .atom n.val :: lex (c :: r) := by
  refine C45_partial n r c hfin (.inr ?_) hc
  obtain ⟨neg, m, e, hf⟩ := hfin
  have hs : (n.sign == some '-') = neg := by
    have : (n.float.neg?) = (n.sign == some '-') := ofRat_neg _ _ _
    rw [hf] at this
    exact this.symm
  have h4 : ofRat neg 1 10000 = .fin neg 7378697629483821 (-66) := by cases neg <;> rfl
  have hf' : ofRat neg (digitsVal (n.ip ++ n.fp.getD [])) (10 ^ (n.fp.getD []).length) = .fin neg m e := by
    subst hs; exact hf
  have := ofRat_mono (n := 1) (d := 10000) (by norm_num) (by positivity) (by push_cast; exact_mod_cast h) h4 hf'
  rw [hf]
  refine le_trans ?_ this
  norm_num
example := C45_decimal_partial ⟨some '-', k!"127", some k!"3325"⟩ k!"" ')' ⟨_, _, _, rfl⟩
  (by rw [show digitsVal (k!"127" ++ (some k!"3325").getD []) = 1273325 from rfl]; norm_num) (.inr rfl)

/-- C45: a small number is written with an exponent, and comes back as text. -/
theorem C45_violated (n : NumLit) (r : Str) (c : Char) (h0 : 0 < n.float.absVal) (h1 : n.float.absVal < 1 / 10000)
    (hc : c = ' ' ∨ c = ')') : ∃ t, lex (n.val.pyStr ++ c :: r) = .atom (.str t) :: lex (c :: r) := by
  have hv := n.float_valid
  have hr : ¬ n.float.InRange := by
    rintro ⟨_, h | h⟩
    · exact h0.ne' h
    · linarith [h.1]
  have hi : n.float.isInteger = false := by
    rw [Bool.eq_false_iff]
    intro hi
    revert h0 h1 hi
    cases hf : n.float with
    | inf _ => intro _ _ h; cases h
    | fin neg m e =>
      intro h0 h1 hi
      have h0 : (0 : ℚ) < m * 2 ^ e := h0
      have h1 : (m : ℚ) * 2 ^ e < 1 / 10000 := h1
      have hm : m ≠ 0 := by rintro rfl; simp at h0
      have : ∃ a : Nat, 0 < a ∧ (a : ℚ) = m * 2 ^ e := by
        by_cases he : 0 ≤ e
        · exact ⟨m * 2 ^ e.toNat, by positivity, by rw [two_zpow_of_nonneg he]; push_cast; rfl⟩
        · have hmod : m % 2 ^ (-e).toNat = 0 := by simpa [F64.isInteger, he] using hi
          obtain ⟨a, ha⟩ := Nat.dvd_of_mod_eq_zero hmod
          refine ⟨a, Nat.pos_of_ne_zero (by rintro rfl; simp at ha; omega), ?_⟩
          rw [two_zpow_of_neg (by omega), ha]; push_cast; field_simp
      obtain ⟨a, ha, hav⟩ := this
      have : (1 : ℚ) ≤ a := by exact_mod_cast ha
      linarith
  have hval : n.val = .flt n.float := by
    show Val.canon (.flt n.float) = _
    simp [Val.canon, hi]
  rw [hval]
  exact ⟨_, C05_float_outside _ r c hv hr hc⟩

/-- `0.00005` of a file is saved as `5e-05`, and loaded as the text `5e-05`. -/
example : parseSexp k!"(width 0.00005)" = .ok (.list [.str k!"width", .flt (F64.ofDecimal false k!"0" k!"00005")]) ∧
    (Val.flt (F64.ofDecimal false k!"0" k!"00005")).pyStr = k!"5e-05" ∧
    parseSexp k!"(width 5e-05)" = .ok (.list [.str k!"width", .str k!"5e-05"]) := ⟨rfl, rfl, rfl⟩
example := C45_violated ⟨none, k!"0", some k!"00005"⟩ k!"" ')'
  (by rw [show NumLit.float ⟨none, k!"0", some k!"00005"⟩ = .fin false 7378697629483821 (-67) from rfl]; norm_num [absVal])
  (by rw [show NumLit.float ⟨none, k!"0", some k!"00005"⟩ = .fin false 7378697629483821 (-67) from rfl]; norm_num [absVal]) (.inr rfl)
example := C45_partial ⟨some '-', k!"127", some k!"3325"⟩ k!"" ')' ⟨_, _, _, rfl⟩
  (.inr (by rw [show NumLit.float ⟨some '-', k!"127", some k!"3325"⟩ = .fin true 8960228118002401 (-46) from rfl]; norm_num [absVal]))
  (.inr rfl)

end Kiutils
