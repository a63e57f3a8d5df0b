import Verif.SexprLemmas
/-!
# Numbers: digits, literals, exactness of integer conversion
-/
namespace Kiutils

/-! ## Digits -/

theorem digitVal_digitChar {d : Nat} (h : d < 10) : digitVal (digitChar d) = some d := by
  match d, h with
  | 0, _ => rfl | 1, _ => rfl | 2, _ => rfl | 3, _ => rfl | 4, _ => rfl
  | 5, _ => rfl | 6, _ => rfl | 7, _ => rfl | 8, _ => rfl | 9, _ => rfl

theorem isDigit_digitChar {d : Nat} (h : d < 10) : isDigit (digitChar d) = true := by
  simp [isDigit, digitVal_digitChar h]

theorem natStrAux_digits (f n : Nat) : ∀ c ∈ natStrAux f n, isDigit c = true := by
  induction f generalizing n with
  | zero => simp [natStrAux]
  | succ f ih =>
    intro c hc
    unfold natStrAux at hc
    split at hc
    · simp at hc; subst hc; exact isDigit_digitChar (by assumption)
    · simp only [List.mem_append, List.mem_singleton] at hc
      rcases hc with hc | hc
      · exact ih _ c hc
      · subst hc; exact isDigit_digitChar (Nat.mod_lt _ (by omega))

theorem natStr_digits (n : Nat) : ∀ c ∈ natStr n, isDigit c = true := natStrAux_digits _ _

theorem natStr_ne_nil (n : Nat) : natStr n ≠ [] := by
  unfold natStr natStrAux
  split <;> simp

theorem digitsVal_snoc (s : Str) (c : Char) : digitsVal (s ++ [c]) = 10 * digitsVal s + (digitVal c).getD 0 := by
  simp [digitsVal]

theorem digitsVal_natStrAux (f n : Nat) (h : n < f) : digitsVal (natStrAux f n) = n := by
  induction f generalizing n with
  | zero => omega
  | succ f ih =>
    unfold natStrAux
    split
    · simp [digitsVal, digitVal_digitChar (by assumption : n < 10)]
    · rw [digitsVal_snoc, ih (n / 10) (by omega), digitVal_digitChar (Nat.mod_lt _ (by omega))]
      simp; omega

/-- Reading the decimal digits of `n` gives `n`. -/
theorem digitsVal_natStr (n : Nat) : digitsVal (natStr n) = n := digitsVal_natStrAux _ _ (Nat.lt_succ_self n)

theorem isSpace_cases {c : Char} (h : isSpace c = true) :
    c.toNat ∈ [0x20, 9, 10, 11, 12, 13, 0x1c, 0x1d, 0x1e, 0x1f, 0x85, 0xa0, 0x1680, 0x2000, 0x2001, 0x2002, 0x2003, 0x2004,
      0x2005, 0x2006, 0x2007, 0x2008, 0x2009, 0x200a, 0x2028, 0x2029, 0x202f, 0x205f, 0x3000] := by
  simp only [isSpace, Bool.or_eq_true, Bool.and_eq_true, beq_iff_eq, decide_eq_true_eq] at h
  simp only [List.mem_cons, List.not_mem_nil, or_false]
  omega

theorem digitVal_eq (c : Char) : digitVal c =
    if 0x30 ≤ c.toNat && c.toNat ≤ 0x39 then some (c.toNat - 0x30)
    else if c.toNat < 0x660 then none
    else match digitZeros.find? (fun z => decide (z ≤ c.toNat) && decide (c.toNat < z + 10)) with
      | some z => some (c.toNat - z)
      | none => none := rfl

theorem isDigit_of_space {c : Char} (h : isSpace c = true) : isDigit c = false := by
  have h := isSpace_cases h
  rw [isDigit, digitVal_eq]
  generalize c.toNat = n at h
  revert n
  decide

theorem isBare_of_digit {c : Char} (h : isDigit c = true) : isBare c = true := by
  have h1 : isSpace c = false := by
    rcases hs : isSpace c with _ | _
    · rfl
    · rw [isDigit_of_space hs] at h; exact absurd h (by simp)
  have h2 : c ≠ '(' := by rintro rfl; exact absurd h (by decide)
  have h3 : c ≠ ')' := by rintro rfl; exact absurd h (by decide)
  have h4 : c ≠ '^' := by rintro rfl; exact absurd h (by decide)
  simp [isBare, h1, h2, h3, h4]

theorem isDigit_of_notBare {c : Char} (h : isBare c = false) : isDigit c = false := by
  rcases hd : isDigit c with _ | _
  · rfl
  · rw [isBare_of_digit hd] at h; exact absurd h (by simp)

theorem isDigit_of_numEnd {r : Str} (h : numEnd r = true) : ∀ c, r.head? = some c → isDigit c = false := by
  intro c hc
  cases r with
  | nil => simp at hc
  | cons d r =>
    simp at hc; subst hc
    simp [numEnd] at h
    rcases h with rfl | rfl <;> rfl

theorem bareEnd_of_numEnd {r : Str} (h : numEnd r = true) : bareEnd r = true := by
  cases r with
  | nil => rfl
  | cons d r =>
    simp [numEnd] at h
    rcases h with rfl | rfl <;> rfl

theorem bareEnd_of_sqEnd {r : Str} (h : sqEnd r = true) : bareEnd r = true := by
  cases r with
  | nil => rfl
  | cons d r =>
    simp [sqEnd] at h
    rcases h with rfl | h
    · rfl
    · simp [bareEnd, isBare, h]

/-! ## Number literals -/

/-- The shape of a number literal: `[+-]?\d+\.\d+` or `-?\d+`. -/
structure NumLit.Wf (n : NumLit) : Prop where
  ip_ne : n.ip ≠ []
  ip_digits : ∀ c ∈ n.ip, isDigit c = true
  fp_ne : ∀ f, n.fp = some f → f ≠ []
  fp_digits : ∀ f, n.fp = some f → ∀ c ∈ f, isDigit c = true
  sign_ok : n.sign = none ∨ n.sign = some '-' ∨ (n.sign = some '+' ∧ n.fp.isSome = true)

theorem mem_takeWhile {p : Char → Bool} {s : Str} : ∀ c ∈ s.takeWhile p, p c = true := by
  induction s with
  | nil => simp
  | cons a s ih =>
    intro c hc
    rw [List.takeWhile_cons] at hc
    split at hc
    · simp only [List.mem_cons] at hc
      rcases hc with rfl | hc
      · assumption
      · exact ih c hc
    · simp at hc

theorem splitSign_sign (p : Char → Bool) (s : Str) : (splitSign p s).1 = none ∨ ∃ c, (splitSign p s).1 = some c ∧ p c = true := by
  cases s with
  | nil => left; rfl
  | cons a s =>
    simp only [splitSign]
    split
    · right; exact ⟨a, rfl, by assumption⟩
    · left; rfl

theorem matchNum_wf {s rest : Str} {n : NumLit} (h : matchNum s = some (n, rest)) : n.Wf := by
  have hs := matchNum_spec h
  unfold matchNum at h
  rcases hf : matchFloat s with _ | ⟨n', rest'⟩
  · rw [hf] at h
    simp at h
    unfold matchInt at h
    simp only at h
    split at h
    · simp only [Option.some.injEq, Prod.mk.injEq] at h
      obtain ⟨rfl, rfl⟩ := h
      refine ⟨hs.2.1, mem_takeWhile, by simp, by simp, ?_⟩
      rcases splitSign_sign (fun c => c == '-') s with h1 | ⟨c, h1, h2⟩
      · exact .inl h1
      · have : c = '-' := by simpa using h2
        subst this
        exact .inr (.inl h1)
    · simp at h
  · rw [hf] at h
    simp at h
    obtain ⟨rfl, rfl⟩ := h
    unfold matchFloat at hf
    simp only at hf
    split at hf
    · split at hf
      · rename_i hc
        simp only [Option.some.injEq, Prod.mk.injEq] at hf
        obtain ⟨rfl, rfl⟩ := hf
        simp only [Bool.and_eq_true] at hc
        refine ⟨hs.2.1, mem_takeWhile, ?_, ?_, ?_⟩
        · intro f hf; simp at hf; subst hf; exact isEmpty_not hc.1.2
        · intro f hf; simp at hf; subst hf; exact mem_takeWhile
        · rcases splitSign_sign (fun c => c == '+' || c == '-') s with h1 | ⟨c, h1, h2⟩
          · exact .inl h1
          · simp at h2
            rcases h2 with rfl | rfl
            · exact .inr (.inr ⟨h1, rfl⟩)
            · exact .inr (.inl h1)
      · simp at hf
    · simp at hf

theorem splitSign_some {p : Char → Bool} {c : Char} {r : Str} (h : p c = true) : splitSign p (c :: r) = (some c, r) := by
  simp [splitSign, h]

theorem isDigit_ne_sign {c : Char} (h : isDigit c = true) : (c == '+' || c == '-') = false ∧ (c == '-') = false := by
  have h1 : c ≠ '+' := by rintro rfl; exact absurd h (by decide)
  have h2 : c ≠ '-' := by rintro rfl; exact absurd h (by decide)
  simp [h1, h2]

theorem splitSign_digits {p : Char → Bool} {ip r : Str} (hne : ip ≠ []) (hd : ∀ c ∈ ip, isDigit c = true)
    (hp : ∀ c, isDigit c = true → p c = false) : splitSign p (ip ++ r) = (none, ip ++ r) := by
  cases ip with
  | nil => simp at hne
  | cons c ip => exact splitSign_none (hp c (hd c (by simp)))

/-- The number alternatives match exactly the literals of the right shape that are followed by a blank or a closing bracket. -/
theorem matchNum_src {n : NumLit} {r : Str} (h : n.Wf) (hr : numEnd r = true) : matchNum (n.src ++ r) = some (n, r) := by
  obtain ⟨sign, ip, fp⟩ := n
  obtain ⟨h1, h2, h3, h4, h5⟩ := h
  simp only at h1 h2 h3 h4 h5
  have hrd := isDigit_of_numEnd hr
  cases fp with
  | none =>
    have htd := takeWhile_append_stop h2 hrd
    -- the float alternative fails: after the digits there is no point
    have key : ∀ (s : Str), (splitSign (fun c => c == '+' || c == '-') s).2 = ip ++ r → matchFloat s = none := by
      intro s hs
      unfold matchFloat
      simp only [hs, htd]
      cases r with
      | nil => rfl
      | cons c r =>
        simp [numEnd] at hr
        rcases hr with rfl | rfl <;> simp
    have key2 : ∀ (s : Str) (sg : Option Char), splitSign (fun c => c == '-') s = (sg, ip ++ r) →
        matchInt s = some (⟨sg, ip, none⟩, r) := by
      intro s sg hs
      unfold matchInt
      simp only [hs, htd]
      simp [h1, hr]
    have hsd := splitSign_digits (p := fun c => c == '+' || c == '-') (r := r) h1 h2 (fun c hc => (isDigit_ne_sign hc).1)
    have hsd2 := splitSign_digits (p := fun c => c == '-') (r := r) h1 h2 (fun c hc => (isDigit_ne_sign hc).2)
    simp only [NumLit.src, List.append_nil]
    rcases h5 with rfl | rfl | ⟨_, h5⟩
    · simp only [Option.toList, List.nil_append]
      rw [matchNum, key _ (by rw [hsd]), key2 _ none (by rw [hsd2])]
      rfl
    · simp only [Option.toList, List.cons_append, List.nil_append]
      rw [matchNum, key _ (by rw [splitSign_some (by rfl)]), key2 _ (some '-') (by rw [splitSign_some (by rfl)])]
      rfl
    · simp at h5
  | some f =>
    have h3 := h3 f rfl
    have h4 := h4 f rfl
    have htd := takeWhile_append_stop (r := '.' :: (f ++ r)) h2 (by intro c hc; simp at hc; subst hc; rfl)
    have htd2 := takeWhile_append_stop h4 hrd
    have key : ∀ (s : Str) (sg : Option Char), splitSign (fun c => c == '+' || c == '-') s = (sg, ip ++ '.' :: (f ++ r)) →
        matchFloat s = some (⟨sg, ip, some f⟩, r) := by
      intro s sg hs
      unfold matchFloat
      simp only [hs, htd, htd2]
      simp [h1, h3, hr]
    have hsd := splitSign_digits (p := fun c => c == '+' || c == '-') (r := '.' :: (f ++ r)) h1 h2
      (fun c hc => (isDigit_ne_sign hc).1)
    simp only [NumLit.src]
    rcases h5 with rfl | rfl | ⟨rfl, _⟩
    · simp only [Option.toList, List.nil_append, List.append_assoc, List.cons_append]
      rw [matchNum, key _ none (by rw [hsd])]
      rfl
    · simp only [Option.toList, List.cons_append, List.nil_append, List.append_assoc]
      rw [matchNum, key _ (some '-') (by rw [splitSign_some (by rfl)])]
      rfl
    · simp only [Option.toList, List.cons_append, List.nil_append, List.append_assoc]
      rw [matchNum, key _ (some '+') (by rw [splitSign_some (by rfl)])]
      rfl

theorem NumLit.src_bare {n : NumLit} (h : n.Wf) : ∀ c ∈ n.src, isBare c = true := by
  obtain ⟨sign, ip, fp⟩ := n
  obtain ⟨h1, h2, h3, h4, h5⟩ := h
  simp only at h1 h2 h3 h4 h5
  intro c hc
  simp only [NumLit.src, List.mem_append] at hc
  rcases hc with (hc | hc) | hc
  · rcases h5 with rfl | rfl | ⟨rfl, _⟩ <;> simp at hc <;> subst hc <;> rfl
  · exact isBare_of_digit (h2 c hc)
  · cases fp with
    | none => simp at hc
    | some f =>
      simp only [List.mem_cons] at hc
      rcases hc with rfl | hc
      · rfl
      · exact isBare_of_digit (h4 f rfl c hc)

theorem NumLit.src_noQuote {n : NumLit} (h : n.Wf) : '"' ∉ n.src := by
  obtain ⟨sign, ip, fp⟩ := n
  obtain ⟨h1, h2, h3, h4, h5⟩ := h
  simp only at h1 h2 h3 h4 h5
  intro hc
  simp only [NumLit.src, List.mem_append] at hc
  rcases hc with (hc | hc) | hc
  · rcases h5 with rfl | rfl | ⟨rfl, _⟩ <;> simp at hc
  · exact absurd (h2 _ hc) (by decide)
  · cases fp with
    | none => simp at hc
    | some f =>
      simp only [List.mem_cons] at hc
      rcases hc with hc | hc
      · exact absurd hc (by decide)
      · exact absurd (h4 f rfl _ hc) (by decide)

theorem NumLit.src_head {n : NumLit} (h : n.Wf) : ∃ c r, n.src = c :: r ∧ isSpace c = false ∧ c ≠ '(' ∧ c ≠ ')' := by
  have hne := NumLit.src_ne_nil_of h.ip_ne
  have hb := NumLit.src_bare h
  cases hs : n.src with
  | nil => exact absurd hs hne
  | cons c r =>
    have := hb c (by simp [hs])
    simp only [isBare, Bool.and_eq_true, bne_iff_ne, ne_eq, Bool.not_eq_true'] at this
    exact ⟨c, r, rfl, this.2, this.1.1.1, this.1.2⟩

theorem lex_num {n : NumLit} {r : Str} (h : n.Wf) (hr : numEnd r = true) : lex (n.src ++ r) = .atom n.val :: lex r := by
  have hm := matchNum_src h hr
  obtain ⟨c, t, hs, h1, h2, h3⟩ := NumLit.src_head h
  have hs' := hs
  rw [hs, List.cons_append] at hm ⊢
  refine lex_tok (src := n.src) h1 ?_
  simp [tokenAt, h2, h3, hm]

/-- Two ways to cut a text into a bare word and a rest that does not start with a bare character agree. -/
theorem bare_cut {a b r s : Str} (h : a ++ r = b ++ s) (ha : ∀ c ∈ a, isBare c = true) (hb : ∀ c ∈ b, isBare c = true)
    (hr : bareEnd r = true) (hs : bareEnd s = true) : a = b ∧ r = s := by
  have h1 := takeWhile_append_stop ha (bareEnd_head hr)
  have h2 := takeWhile_append_stop hb (bareEnd_head hs)
  rw [h] at h1
  exact ⟨h1.1.symm.trans h2.1, h1.2.symm.trans h2.2⟩

/-- The reader takes the word for a number (when a blank or closing bracket follows). -/
def looksNumeric (w : Str) : Bool := (matchNum (w ++ [' '])).isSome

theorem matchNum_word {w r : Str} (hw : ∀ c ∈ w, isBare c = true) (hn : looksNumeric w = false) (hr : bareEnd r = true) :
    matchNum (w ++ r) = none := by
  rcases hm : matchNum (w ++ r) with _ | ⟨n, rest⟩
  · rfl
  · exfalso
    have h1 := matchNum_spec hm
    have h2 := matchNum_wf hm
    have := bare_cut h1.1 (NumLit.src_bare h2) hw (bareEnd_of_numEnd h1.2.2) hr
    have h3 := matchNum_src h2 (r := [' ']) rfl
    rw [this.1] at h3
    simp [looksNumeric, h3] at hn

theorem lex_word (w r : Str) (hne : w ≠ []) (hw : ∀ c ∈ w, isBare c = true) (hq : w.head? ≠ some '"')
    (hn : looksNumeric w = false) (hr : bareEnd r = true) : lex (w ++ r) = .atom (.str w) :: lex r :=
  lex_bare_of_noNum w r hne hw hq (matchNum_word hw hn hr) hr

/-- Before a line break (or any other white space that is not a blank) every bare word is a string, numbers included. -/
theorem lex_word_of_not_numEnd (w r : Str) (hne : w ≠ []) (hw : ∀ c ∈ w, isBare c = true) (hq : w.head? ≠ some '"')
    (hr : bareEnd r = true) (hr' : numEnd r = false) : lex (w ++ r) = .atom (.str w) :: lex r := by
  refine lex_bare_of_noNum w r hne hw hq ?_ hr
  rcases hm : matchNum (w ++ r) with _ | ⟨n, rest⟩
  · rfl
  · exfalso
    have h1 := matchNum_spec hm
    have h2 := matchNum_wf hm
    have := bare_cut h1.1 (NumLit.src_bare h2) hw (bareEnd_of_numEnd h1.2.2) hr
    rw [← this.2, h1.2.2] at hr'
    exact absurd hr' (by simp)

/-! ## Integers up to 2^53 are exact doubles -/

theorem roundDiv_one (n : Nat) : F64.roundDiv n 1 = n := by
  simp [F64.roundDiv, Nat.mod_one]

theorem canon_ofRat_exact (neg : Bool) (m : Nat) (h : m ≤ 2 ^ 53) :
    Val.canon (.flt (F64.ofRat neg m 1)) = .int (if neg then -(m : Int) else m) := by
  by_cases h0 : m = 0
  · subst h0
    simp [F64.ofRat, Val.canon, F64.isInteger, F64.toInt]
  by_cases h53 : m = 2 ^ 53
  · subst h53
    cases neg <;> rfl
  have hlt : m < 2 ^ 53 := by omega
  have hL1 : 2 ^ m.log2 ≤ m := Nat.log2_self_le h0
  have hL2 : m < 2 ^ (m.log2 + 1) := Nat.lt_log2_self
  have hL : m.log2 ≤ 52 := by
    have : 2 ^ m.log2 < 2 ^ 53 := Nat.lt_of_le_of_lt hL1 hlt
    have := (Nat.pow_lt_pow_iff_right (by omega : 1 < 2)).mp this
    omega
  obtain ⟨k, hk⟩ : ∃ k, m.log2 + k = 52 := ⟨52 - m.log2, by omega⟩
  have hlog1 : (Nat.log2 1 : Nat) = 0 := by decide
  have hscale : F64.scale m 1 (-(k : Int)) = (m * 2 ^ k, 1) := by
    unfold F64.scale
    by_cases hk0 : k = 0
    · subst hk0; simp
    · rw [if_pos (by omega)]; simp
  have hge : 2 ^ 52 ≤ m * 2 ^ k := by
    calc 2 ^ 52 = 2 ^ m.log2 * 2 ^ k := by rw [← Nat.pow_add, hk]
      _ ≤ m * 2 ^ k := Nat.mul_le_mul_right _ hL1
  have hlt2 : m * 2 ^ k < 2 ^ 53 := by
    calc m * 2 ^ k < 2 ^ (m.log2 + 1) * 2 ^ k := Nat.mul_lt_mul_of_pos_right hL2 (Nat.two_pow_pos k)
      _ = 2 ^ 53 := by rw [← Nat.pow_add]; congr 1; omega
  have he : F64.expOf m 1 = -(k : Int) := by
    unfold F64.expOf
    simp only [hlog1]
    have e0 : ((m.log2 : Nat) : Int) - ((0 : Nat) : Int) - 52 = -(k : Int) := by omega
    rw [e0, hscale]
    simp only [Nat.div_one]
    rw [if_neg (by omega)]
    omega
  have hof : F64.ofRat neg m 1 = .fin neg (m * 2 ^ k) (-(k : Int)) := by
    unfold F64.ofRat
    rw [if_neg h0]
    have hne : m * 2 ^ k ≠ 2 ^ 53 := by omega
    have hk' : ¬ (-(k : Int) > 971) := by omega
    simp only [he, hscale, roundDiv_one, hne, if_false, hk']
  rw [hof]
  have hint : (F64.fin neg (m * 2 ^ k) (-(k : Int))).isInteger = true := by
    simp [F64.isInteger]
  have hto : (F64.fin neg (m * 2 ^ k) (-(k : Int))).toInt = if neg then -(m : Int) else m := by
    unfold F64.toInt
    by_cases hk0 : k = 0
    · subst hk0; simp
    · have hk' : ¬ (0 ≤ -(k : Int)) := by omega
      simp only [hk', if_false, Int.neg_neg, Int.toNat_natCast]
      rw [Nat.mul_div_cancel _ (Nat.two_pow_pos k)]
  simp [Val.canon, hint, hto]

/-- The literal that `str(n)` writes. -/
def intLit (n : Int) : NumLit := ⟨if n < 0 then some '-' else none, natStr n.natAbs, none⟩

theorem intLit_wf (n : Int) : (intLit n).Wf := by
  refine ⟨natStr_ne_nil _, natStr_digits _, by simp [intLit], by simp [intLit], ?_⟩
  unfold intLit
  by_cases h : n < 0 <;> simp [h]

theorem intLit_src (n : Int) : (intLit n).src = intStr n := by
  unfold intLit intStr NumLit.src
  by_cases h : n < 0 <;> simp [h]

/-- The int `n` is a double: `int(float(n)) == n`. -/
def ExactInt (n : Int) : Prop := Val.canon (.flt (F64.ofRat (decide (n < 0)) n.natAbs 1)) = .int n

/-- Every int of at most 2^53 in absolute value is a double. -/
theorem exactInt_of_le {n : Int} (h : n.natAbs ≤ 2 ^ 53) : ExactInt n := by
  unfold ExactInt
  rw [canon_ofRat_exact _ _ h]
  by_cases hn : n < 0
  · simp [hn]; omega
  · simp [hn]; omega

theorem intLit_val (n : Int) (h : ExactInt n) : (intLit n).val = .int n := by
  unfold NumLit.val intLit F64.ofDecimal
  simp only [Option.getD_none, List.append_nil, List.length_nil, Nat.pow_zero, digitsVal_natStr]
  rw [← h]
  by_cases hn : n < 0 <;> simp [hn]

/-! ## Floats with plain decimal notation -/

/-- `repr(f)` is plain decimal notation and `float()` of that text is `f` again. CPython guarantees the second part for every
finite float; the first part holds for `1e-4 ≤ |f| < 1e16` and for zero. -/
def F64.Plain (f : F64) : Prop :=
  ∃ (neg : Bool) (ip fp : Str), ip ≠ [] ∧ fp ≠ [] ∧ (∀ c ∈ ip, isDigit c = true) ∧ (∀ c ∈ fp, isDigit c = true) ∧
    f.repr = (if neg then ['-'] else []) ++ ip ++ '.' :: fp ∧ F64.ofDecimal neg ip fp = f

theorem F64.Plain.lit {f : F64} (h : f.Plain) : ∃ n : NumLit, n.Wf ∧ n.src = f.repr ∧ n.val = Val.canon (.flt f) := by
  obtain ⟨neg, ip, fp, h1, h2, h3, h4, h5, h6⟩ := h
  refine ⟨⟨if neg then some '-' else none, ip, some fp⟩, ⟨h1, h3, ?_, ?_, ?_⟩, ?_, ?_⟩
  · intro f hf; simp at hf; subst hf; exact h2
  · intro f hf; simp at hf; subst hf; exact h4
  · cases neg <;> simp
  · rw [h5]; cases neg <;> simp [NumLit.src]
  · unfold NumLit.val
    simp only [Option.getD_some]
    have : ((if neg = true then some '-' else none) == some '-') = neg := by cases neg <;> rfl
    rw [this, h6]

end Kiutils
