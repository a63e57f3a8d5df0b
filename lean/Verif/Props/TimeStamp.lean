import Verif.Model.Clock
import Verif.Proofs.Digits
import Verif.Proofs.FixedFormat
import Verif.Props.Numbers
import Verif.Props.RoundTrip
/-!
# C52: the time stamp of footprints; C53: identifiers made of digits

A time stamp is written without quotes. If all of its hexadecimal digits are decimal digits, the reader takes it for a number.
-/
namespace Kiutils

/-! ## The default time stamp -/

/-- The sixteen digits. -/
def hexDigits : Str := k!"0123456789abcdef"

/-- The number with these hexadecimal digits. -/
def HexOf (s : Str) (n : Nat) : Prop :=
  ∃ ds : List Nat, (∀ d ∈ ds, d < 16) ∧ s = ds.map (fun d => hexDigits.getD d ' ') ∧ n = ds.foldl (fun a d => 16 * a + d) 0

theorem hexChar_eq {d : Nat} (h : d < 16) : hexChar d = hexDigits.getD d ' ' := by
  revert d; decide

theorem hexAux_of (f n : Nat) (h : n < f) : HexOf (hexAux f n) n ∧ (∀ r, hexAux f n = '0' :: r → n = 0) ∧ hexAux f n ≠ [] := by
  induction f generalizing n with
  | zero => omega
  | succ f ih =>
    rw [hexAux]
    split
    · next hn =>
      refine ⟨⟨[n], by simpa using hn, by rw [hexChar_eq hn]; rfl, by simp⟩, ?_, by simp⟩
      intro r e
      have h0 : hexChar n = '0' := List.head_eq_of_cons_eq e
      have : ∀ n < 16, hexChar n = '0' → n = 0 := by decide
      exact this n hn h0
    · next hn =>
      obtain ⟨⟨ds, h1, h2, h3⟩, h4, h5⟩ := ih (n / 16) (by omega)
      have hm : n % 16 < 16 := Nat.mod_lt _ (by omega)
      refine ⟨⟨ds ++ [n % 16], ?_, ?_, ?_⟩, ?_, by simp⟩
      · intro d hd
        rcases List.mem_append.mp hd with hd | hd
        · exact h1 d hd
        · exact (List.mem_singleton.mp hd) ▸ hm
      · rw [h2, hexChar_eq hm, List.map_append]; rfl
      · rw [List.foldl_append, ← h3]
        show n = 16 * (n / 16) + n % 16
        omega
      · intro r e
        cases hx : hexAux f (n / 16) with
        | nil => exact absurd hx h5
        | cons c s =>
          rw [hx] at e
          cases e
          have := h4 s hx
          omega

/-- The default time stamp is the time in hexadecimal digits, small letters, without a prefix and without leading zeros. -/
theorem C52_default (now : Nat) : ∃ s, Footprint.defaultTedit now = .str s ∧ HexOf s now ∧ s ≠ [] ∧ (∀ r, s = '0' :: r → now = 0) := by
  obtain ⟨h1, h2, h3⟩ := hexAux_of (now + 1) now (Nat.lt_succ_self _)
  exact ⟨hexAux (now + 1) now, rfl, h1, h3, h2⟩
example : removePrefix (pyHex 0x5f12ab34) k!"0x" = k!"5f12ab34" := by decide +kernel

/-- Violated by clocks set before 1970: the sign comes before the prefix, which is therefore not removed. -/
theorem C52_before_1970 (n : Nat) (hn : 0 < n) : ∃ s, Footprint.defaultTedit (-n : Int) = .str ('-' :: '0' :: 'x' :: s) ∧ HexOf s n ∧ s ≠ [] := by
  obtain ⟨h1, -, h3⟩ := hexAux_of (n + 1) n (Nat.lt_succ_self _)
  refine ⟨hexAux (n + 1) n, ?_, h1, h3⟩
  have : (-n : Int) < 0 := by omega
  simp only [Footprint.defaultTedit, pyHex, this, if_true, Int.natAbs_neg, Int.natAbs_natCast]
  rfl
example : Footprint.defaultTedit (-255) = .str k!"-0xff" := rfl

/-! ## Ints that are doubles -/

open F64 in
/-- `ExactInt`: the int is a double, that is a multiple of a power of two with a factor below `2^53`. -/
theorem exactInt_iff (k : Int) : ExactInt k ↔ ∃ m e : Nat, m < 2 ^ 53 ∧ e ≤ 971 ∧ k.natAbs = m * 2 ^ e := by
  constructor
  · intro h
    unfold ExactInt at h
    have hv := ofRat_valid (decide (k < 0)) (n := k.natAbs) (d := 1) Nat.one_pos
    generalize ofRat (decide (k < 0)) k.natAbs 1 = f at h hv
    cases f with
    | inf b => simp [Val.canon, F64.isInteger] at h
    | fin neg m e =>
      have hc : Canonical m e := hv
      rw [Val.canon] at h
      split at h
      · cases h
        rw [F64.toInt]
        by_cases he : 0 ≤ e
        · refine ⟨m, e.toNat, hc.1, by have := hc.hi; omega, ?_⟩
          rw [if_pos he]
          generalize m * 2 ^ e.toNat = a
          cases neg <;> simp
        · refine ⟨m / 2 ^ (-e).toNat, 0, lt_of_le_of_lt (Nat.div_le_self _ _) hc.1, by omega, ?_⟩
          rw [if_neg he]
          generalize m / 2 ^ (-e).toNat = a
          cases neg <;> simp
      · cases h
  · rintro ⟨m, e, hm, he, hk⟩
    by_cases h0 : m = 0
    · subst h0
      have : k = 0 := by simpa using hk
      subst this
      exact exactInt_of_le (by decide)
    have hL : m.log2 ≤ 52 := by
      have := (Nat.log2_lt h0 (k := 53)).mpr hm
      omega
    have hlo : 2 ^ m.log2 ≤ m := Nat.log2_self_le h0
    have hhi : m < 2 ^ (m.log2 + 1) := Nat.lt_log2_self
    generalize m.log2 = L at *
    obtain ⟨j, hj⟩ : ∃ j, L + j = 52 := ⟨52 - L, by omega⟩
    have h52 : 2 ^ 52 ≤ m * 2 ^ j := by
      rw [← hj, Nat.pow_add]; exact Nat.mul_le_mul_right _ hlo
    have h53 : m * 2 ^ j < 2 ^ 53 := by
      rw [show 53 = L + 1 + j by omega, Nat.pow_add]; exact Nat.mul_lt_mul_of_pos_right hhi (by positivity)
    let f : F64 := .fin (decide (k < 0)) (m * 2 ^ j) ((e : Int) - j)
    have hf : f.Valid := (⟨h53, by omega, by omega, .inl h52⟩ : Canonical _ _)
    have hval : (if (0 : Int) ≤ (e : Int) - j then m * 2 ^ j * 2 ^ ((e : Int) - j).toNat else m * 2 ^ j / 2 ^ (-((e : Int) - j)).toNat) =
        m * 2 ^ e := by
      split
      · rw [Nat.mul_assoc, ← Nat.pow_add]; congr 2; omega
      · next hn =>
        obtain ⟨i, rfl⟩ : ∃ i, j = e + i := ⟨j - e, by omega⟩
        rw [show (-((e : Int) - ((e + i : Nat) : Int))).toNat = i by omega, Nat.pow_add, ← Nat.mul_assoc,
          Nat.mul_div_cancel _ (by positivity)]
    have hi : f.isInteger = true := by
      show (decide ((0 : Int) ≤ (e : Int) - j) || decide (m * 2 ^ j % 2 ^ (-((e : Int) - j)).toNat = 0)) = true
      by_cases hn : (0 : Int) ≤ (e : Int) - j
      · rw [decide_eq_true hn]; rfl
      · obtain ⟨i, rfl⟩ : ∃ i, j = e + i := ⟨j - e, by omega⟩
        rw [show (-((e : Int) - ((e + i : Nat) : Int))).toNat = i by omega, Nat.pow_add, ← Nat.mul_assoc, Nat.mul_mod_left]
        simp
    have ht : f.toInt = k := by
      show (if decide (k < 0) = true then -((if (0 : Int) ≤ (e : Int) - j then m * 2 ^ j * 2 ^ ((e : Int) - j).toNat
        else m * 2 ^ j / 2 ^ (-((e : Int) - j)).toNat : Nat) : Int) else ((if (0 : Int) ≤ (e : Int) - j then
        m * 2 ^ j * 2 ^ ((e : Int) - j).toNat else m * 2 ^ j / 2 ^ (-((e : Int) - j)).toNat : Nat) : Int)) = k
      rw [hval, ← hk]
      by_cases hn : k < 0
      · rw [decide_eq_true hn, if_pos rfl]; omega
      · rw [decide_eq_false hn, if_neg (by decide)]; omega
    rw [← ht]
    exact exactInt_of_integral hf hi

/-! ## C53: identifiers made of digits -/

open F64 in
/-- The double nearest to an int is an int, or an infinity. -/
theorem ofRat_integer (neg : Bool) (N : Nat) : (ofRat neg N 1).isInteger = true ∨ ∃ b, ofRat neg N 1 = .inf b := by
  unfold F64.ofRat
  split
  · left; simp [F64.isInteger]
  · generalize expOf N 1 = e
    by_cases he : e < 0
    · have hs : scale N 1 e = (N * 2 ^ (-e).toNat, 1) := by rw [scale, if_pos he]
      simp only [hs, roundDiv_one]
      split
      · split
        · exact .inr ⟨_, rfl⟩
        · left
          next h53 _ =>
          simp only [F64.isInteger]
          by_cases h1 : 0 ≤ e + 1
          · rw [decide_eq_true h1]; rfl
          · have h2 : (-e).toNat = (-(e + 1)).toNat + 1 := by omega
            rw [h2, Nat.pow_succ, ← Nat.mul_assoc] at h53
            have h3 : 2 ^ 52 = N * 2 ^ (-(e + 1)).toNat := by omega
            rw [h3, Nat.mul_mod_left]; simp
      · split
        · exact .inr ⟨_, rfl⟩
        · left
          simp only [F64.isInteger, Nat.mul_mod_left]; simp
    · generalize roundDiv _ _ = m
      simp only
      split
      · split
        · exact .inr ⟨_, rfl⟩
        · left; rw [F64.isInteger, decide_eq_true (by omega)]; rfl
      · split
        · exact .inr ⟨_, rfl⟩
        · left; rw [F64.isInteger, decide_eq_true (by omega)]; rfl

theorem NumLit.Wf.int_chars {n : NumLit} (hn : n.Wf) (hi : n.fp = none) : ∀ c ∈ n.src, isDigit c = true ∨ c = '-' := by
  intro c hc
  rw [NumLit.src, hi] at hc
  simp only [List.append_nil, List.mem_append] at hc
  rcases hc with hc | hc
  · right
    rcases hn.sign_ok with h | h | ⟨_, h⟩
    · rw [h] at hc; cases hc
    · rw [h] at hc; simpa using hc
    · rw [hi] at h; cases h
  · exact .inl (hn.ip_digits c hc)

/-- A text of digits (with or without a minus sign) that is read as a number is written again as it was exactly if it has no
leading zeros, is not `-0`, and the number is a double: a multiple of a power of two with a factor below `2^53`. -/
theorem C53_digits (n : NumLit) (hn : n.Wf) (hi : n.fp = none) :
    n.val.pyStr = n.src ↔ ∃ k : Int, n.src = intStr k ∧ ∃ m e : Nat, m < 2 ^ 53 ∧ e ≤ 971 ∧ k.natAbs = m * 2 ^ e := by
  constructor
  · intro h
    have hv := F64.ofRat_valid (n.sign == some '-') (n := digitsVal n.ip) (d := 1) Nat.one_pos
    have hval : n.val = Val.canon (.flt (F64.ofRat (n.sign == some '-') (digitsVal n.ip) 1)) := by
      rw [NumLit.val, F64.ofDecimal, hi]; simp
    have hint := ofRat_integer (n.sign == some '-') (digitsVal n.ip)
    rw [hval] at h
    generalize F64.ofRat (n.sign == some '-') (digitsVal n.ip) 1 = f at h hv hint
    rcases hint with hint | ⟨b, rfl⟩
    · rw [Val.canon, if_pos hint] at h
      exact ⟨f.toInt, h.symm, (exactInt_iff _).mp (exactInt_of_integral hv hint)⟩
    · exfalso
      have hc := hn.int_chars hi 'i'
      rw [← h] at hc
      have : isDigit 'i' = true ∨ 'i' = '-' := hc (by cases b <;> decide)
      revert this; decide
  · rintro ⟨k, hk, hm⟩
    have hx := (exactInt_iff k).mpr hm
    rw [show n = intLit k from hn.src_inj (intLit_wf k) (hk.trans (intLit_src k).symm), intLit_val k hx, intLit_src]
    rfl

theorem natStr_no_zero {k : Nat} {c : Char} {r : Str} : natStr k ≠ '0' :: c :: r := by
  intro h
  have ha : AsciiDigits (c :: r) := fun x hx => by
    have := ascii_natStr k
    rw [h] at this
    exact this x (List.mem_cons_of_mem _ hx)
  have hv := digitsVal_natStr k
  rw [h, show ('0' :: c :: r) = ['0'] ++ (c :: r) from rfl, F64.digitsVal_append, show digitsVal ['0'] = 0 from rfl, Nat.zero_mul,
    Nat.zero_add] at hv
  have hlt := digitsVal_lt ha
  by_cases hk : k = 0
  · subst hk; cases h
  · have := F64.natStr_length_le (Nat.pos_of_ne_zero hk)
    rw [h, hv.symm] at this
    simp only [List.length_cons, Nat.add_sub_cancel] at this hlt
    omega
example := C53_digits ⟨none, k!"12345", none⟩ ⟨by decide, by decide, by decide, by decide, .inl rfl⟩ rfl

/-- In particular, leading zeros are lost: `00012345` is written as `12345`. -/
theorem C53_leading_zero (n : NumLit) (hn : n.Wf) (hi : n.fp = none) (d : Char) (r : Str) (hz : n.ip = '0' :: d :: r) :
    n.val.pyStr ≠ n.src := by
  rw [ne_eq, C53_digits n hn hi]
  rintro ⟨k, hk, -⟩
  have := hn.src_inj (intLit_wf k) (hk.trans (intLit_src k).symm)
  rw [this] at hz
  exact natStr_no_zero hz
example := C53_leading_zero ⟨none, k!"00012345", none⟩ ⟨by decide, by decide, by decide, by decide, .inl rfl⟩ rfl '0' k!"012345" rfl

/-- And large odd numbers are changed: `9007199254740993` is not a double. -/
theorem C53_large_odd (k : Int) (hk : 2 ^ 53 < k.natAbs) (ho : k.natAbs % 2 = 1) :
    (intLit k).val.pyStr ≠ intStr k := by
  have h := C53_digits (intLit k) (intLit_wf k) rfl
  rw [intLit_src] at h
  rw [ne_eq, h]
  rintro ⟨k', hk', m, e, hm, -, he⟩
  have hkk : intLit k = intLit k' := (intLit_wf k).src_inj (intLit_wf k') (by rw [intLit_src, intLit_src, hk'])
  have habs : k.natAbs = k'.natAbs := by
    have h1 := digitsVal_natStr k.natAbs
    have h2 := digitsVal_natStr k'.natAbs
    have h3 : natStr k.natAbs = natStr k'.natAbs := congrArg NumLit.ip hkk
    rw [← h1, h3, h2]
  rw [habs, he] at hk ho
  cases e with
  | zero => omega
  | succ e => rw [Nat.pow_succ, ← Nat.mul_assoc] at ho; omega
example : (9007199254740993 : Int).natAbs % 2 = 1 ∧ 2 ^ 53 < (9007199254740993 : Int).natAbs := by decide

theorem parse_digits {key : Str} (hk : isKeyword key = true) {s : Str} (hs : s ≠ []) (hd : ∀ c ∈ s, isDigit c = true) :
    parseSexp ('(' :: (key ++ ' ' :: (s ++ [')']))) = .ok (.list [.str key, NumLit.val ⟨none, s, none⟩]) := by
  have hn : NumLit.Wf ⟨none, s, none⟩ := ⟨hs, hd, nofun, nofun, .inl rfl⟩
  have hsrc : NumLit.src ⟨none, s, none⟩ = s := by simp [NumLit.src]
  refine parse_of_lex ?_
  have hv : toks (NumLit.val ⟨none, s, none⟩) = [.atom (NumLit.val ⟨none, s, none⟩)] := by
    unfold NumLit.val
    simp only [Val.canon]
    split <;> rfl
  have k1 : lex (' ' :: (s ++ [')'])) = toksL [NumLit.val ⟨none, s, none⟩] ++ [.cl] := by
    rw [lex_blank]
    conv_lhs => rw [← hsrc]
    rw [lex_num hn rfl, lex_cl, lex_nil, toksL_cons, hv]
    rfl
  have k3 := lx_kw hk (rfl : bareEnd (' ' :: (s ++ [')'])) = true) ⟨k1, trivial⟩
  unfold kw at k3
  rw [lex_op, k3.lex, toks_list]
  simp [toksL_cons]

theorem digits_kept {s : Str} (hs : s ≠ []) (hd : ∀ c ∈ s, isDigit c = true) :
    (NumLit.val ⟨none, s, none⟩).pyStr = s ↔ ∃ m e : Nat, m < 2 ^ 53 ∧ e ≤ 971 ∧ s = natStr (m * 2 ^ e) := by
  have hn : NumLit.Wf ⟨none, s, none⟩ := ⟨hs, hd, nofun, nofun, .inl rfl⟩
  have hsrc : NumLit.src ⟨none, s, none⟩ = s := by simp [NumLit.src]
  have h := C53_digits ⟨none, s, none⟩ hn rfl
  rw [hsrc] at h
  rw [h]
  constructor
  · rintro ⟨k, hk, m, e, hm, he, hv⟩
    refine ⟨m, e, hm, he, ?_⟩
    have := hn.src_inj (intLit_wf k) ((hsrc.trans hk).trans (intLit_src k).symm)
    rw [← hv]
    exact congrArg NumLit.ip this
  · rintro ⟨m, e, hm, he, hv⟩
    exact ⟨(m * 2 ^ e : Nat), hv, m, e, hm, he, rfl⟩

/-- In a file: an entry whose value is a word of digits, such as `(tedit 65432109)`, is read as one value, and that value is written
with the same digits exactly if the word has no leading zeros and denotes a double. -/
theorem C53_file (key : Str) (hk : isKeyword key = true) (s : Str) (hs : s ≠ []) (hd : ∀ c ∈ s, isDigit c = true) :
    ∃ v, parseSexp ('(' :: (key ++ ' ' :: (s ++ [')']))) = .ok (.list [.str key, v]) ∧
      (v.pyStr = s ↔ ∃ m e : Nat, m < 2 ^ 53 ∧ e ≤ 971 ∧ s = natStr (m * 2 ^ e)) :=
  ⟨_, parse_digits hk hs hd, digits_kept hs hd⟩
example := C53_file k!"tedit" (by decide) k!"65432109" (by decide) (by decide)

/-! ## C52: what becomes of the time stamp -/

theorem hex_chars {s : Str} {n : Nat} (h : HexOf s n) : ∀ c ∈ s, c ∈ hexDigits := by
  obtain ⟨ds, h1, rfl, -⟩ := h
  intro c hc
  obtain ⟨d, hd, rfl⟩ := List.mem_map.mp hc
  have : ∀ d < 16, hexDigits.getD d ' ' ∈ hexDigits := by decide
  exact this d (h1 d hd)

theorem hex_bare : ∀ c ∈ hexDigits, isBare c = true ∧ c ≠ '"' ∧ c ≠ '.' ∧ c ≠ '+' ∧ c ≠ '-' := by decide

/-- A word with a letter among hexadecimal digits is not a number. -/
theorem hex_tokOk {s : Str} (hs : ∀ c ∈ s, c ∈ hexDigits) {l : Char} (hl : l ∈ s) (hd : isDigit l = false) : TokOk (.str s) := by
  have hb : ∀ c ∈ s, isBare c = true := fun c hc => (hex_bare c (hs c hc)).1
  refine ⟨List.ne_nil_of_mem hl, hb, ?_, ?_⟩
  · intro h
    exact (hex_bare _ (hs _ (List.mem_of_mem_head? h))).2.1 rfl
  · rw [looksNumeric]
    cases hm : matchNum (s ++ [' ']) with
    | none => rfl
    | some x =>
      obtain ⟨n, rest⟩ := x
      have h1 := matchNum_spec hm
      have h2 := matchNum_wf hm
      have h3 := bare_cut h1.1 (NumLit.src_bare h2) hb (bareEnd_of_numEnd h1.2.2) (by decide)
      rw [← h3.1, NumLit.src] at hl
      have hx := hex_bare l (hs l (by rw [← h3.1, NumLit.src]; exact hl))
      rcases List.mem_append.mp hl with hl | hl
      · rcases List.mem_append.mp hl with hl | hl
        · rcases h2.sign_ok with h | h | ⟨h, _⟩ <;> rw [h] at hl
          · cases hl
          · exact absurd (by simpa using hl) hx.2.2.2.2
          · exact absurd (by simpa using hl) hx.2.2.2.1
        · rw [h2.ip_digits l hl] at hd; cases hd
      · cases hf : n.fp with
        | none => rw [hf] at hl; cases hl
        | some f =>
          rw [hf] at hl
          rcases List.mem_cons.mp hl with hl | hl
          · exact absurd hl hx.2.2.1
          · rw [h2.fp_digits f hf l hl] at hd; cases hd

theorem hexAux_length (f n k : Nat) (h : n < 16 ^ (k + 1)) : (hexAux f n).length ≤ k + 1 := by
  induction f generalizing n k with
  | zero => simp [hexAux]
  | succ f ih =>
    rw [hexAux]
    split
    · simp
    · next hn =>
      cases k with
      | zero => omega
      | succ k =>
        have := ih (n / 16) k (by rw [Nat.pow_succ] at h; omega)
        simp only [List.length_append, List.length_cons, List.length_nil]
        omega

theorem Footprint.wf_tedit {o : Footprint} (h : o.WF) {v : Val} (hv : AtomOk v) : Footprint.WF { o with tedit := v } :=
  { h with tedit := hv }

/-- If one of the hexadecimal digits is a letter, a footprint with the default time stamp is loaded with the same time stamp. -/
theorem C52_survives_partial (o : Footprint) (h : o.WF) (now : Nat) (s : Str) (hs : Footprint.defaultTedit now = .str s) (l : Char) (hl : l ∈ s)
    (hd : isDigit l = false) (tedit : Val) (i : Nat) (nl lf : Bool) :
    Reloads (({ o with tedit := Footprint.defaultTedit now } : Footprint).toSexpr i nl lf) (Footprint.fromSexpr tedit)
      { o with tedit := Footprint.defaultTedit now, filePath := none } := by
  have hx : HexOf s now := by
    obtain ⟨s', hs', hx, -⟩ := C52_default now
    rw [hs] at hs'
    exact Val.str.inj hs' ▸ hx
  refine C18_Footprint { o with tedit := Footprint.defaultTedit now } (Footprint.wf_tedit h (.inr ?_)) tedit i nl lf
  rw [hs]
  exact hex_tokOk (hex_chars hx) hl hd
example := C52_survives_partial sampleFootprint sampleFootprint_wf 0x5f12ab34 k!"5f12ab34"
  (congrArg Val.str (by decide +kernel)) 'f' (by decide) (by decide)

theorem Footprint.toSexpr_tedit (o : Footprint) (v w : Val) (h : v.pyStr = w.pyStr) (i : Nat) (nl lf : Bool) :
    ({ o with tedit := v } : Footprint).toSexpr i nl lf = ({ o with tedit := w } : Footprint).toSexpr i nl lf := by
  unfold Footprint.toSexpr
  simp only [h]
  rfl

/-- If all hexadecimal digits are decimal digits, the time stamp is loaded as a number, namely that with these digits in decimal
notation: the time stamp of the loaded footprint is not equal to the one saved. -/
theorem C52_violated (o : Footprint) (h : o.WF) (now : Nat) (hn : now < 2 ^ 40) (s : Str) (hs : Footprint.defaultTedit now = .str s)
    (hd : ∀ c ∈ s, isDigit c = true) (tedit : Val) (i : Nat) (nl lf : Bool) :
    Reloads (({ o with tedit := Footprint.defaultTedit now } : Footprint).toSexpr i nl lf) (Footprint.fromSexpr tedit)
      { o with tedit := .int (digitsVal s), filePath := none } ∧
    ¬ Reloads (({ o with tedit := Footprint.defaultTedit now } : Footprint).toSexpr i nl lf) (Footprint.fromSexpr tedit)
      { o with tedit := Footprint.defaultTedit now, filePath := none } := by
  obtain ⟨hx, hne, hz⟩ : HexOf s now ∧ s ≠ [] ∧ ∀ r, s = '0' :: r → now = 0 := by
    obtain ⟨s', hs', hx⟩ := C52_default now
    rw [hs] at hs'
    exact Val.str.inj hs' ▸ hx
  have hlen : s.length ≤ 10 := by
    have h1 := hexAux_length (now + 1) now 9 (by omega)
    have h2 : s = hexAux (now + 1) now := (Val.str.inj hs).symm
    rw [h2]; exact h1
  have ha : AsciiDigits s := fun c hc => by
    have : ∀ c ∈ hexDigits, isDigit c = true → ∃ d < 10, c = digitChar d := by decide
    exact this c (hex_chars hx c hc) (hd c hc)
  have hnat : natStr (digitsVal s) = s := by
    refine natStr_digitsVal ha ?_
    by_cases h0 : now = 0
    · subst h0; exact .inl (Val.str.inj hs).symm
    · exact .inr ⟨hne, fun r hr => h0 (hz r hr)⟩
  have hv : digitsVal s < 10 ^ 10 := Nat.lt_of_lt_of_le (digitsVal_lt ha) (Nat.pow_le_pow_right (by omega) hlen)
  have hp : (Footprint.defaultTedit now).pyStr = (Val.int (digitsVal s)).pyStr := by
    rw [hs]
    show s = intStr (digitsVal s)
    rw [show intStr (digitsVal s) = natStr (digitsVal s) from rfl, hnat]
  have hr : Reloads (({ o with tedit := Footprint.defaultTedit now } : Footprint).toSexpr i nl lf) (Footprint.fromSexpr tedit)
      { o with tedit := .int (digitsVal s), filePath := none } := by
    rw [Footprint.toSexpr_tedit o _ _ hp]
    exact C18_Footprint { o with tedit := .int (digitsVal s) }
      (Footprint.wf_tedit h (.inl (exactInt_of_le (by simp only [Int.natAbs_natCast]; omega)))) tedit i nl lf
  refine ⟨hr, ?_⟩
  rintro ⟨o₂, h2, e2⟩
  obtain ⟨o₁, h1, e1⟩ := hr
  obtain rfl : o₁ = o₂ := Except.ok.inj (h1.symm.trans h2)
  have t1 : Val.Eq (.int (digitsVal s)) o₁.tedit := e1.2.2.2.2.2.2.2.1
  have t2 : Val.Eq (Footprint.defaultTedit now) o₁.tedit := e2.2.2.2.2.2.2.2.1
  rw [hs] at t2
  generalize o₁.tedit = v at t1 t2
  cases t2
  cases t1
example := C52_violated sampleFootprint sampleFootprint_wf 0x65432109 (by decide) k!"65432109"
  (congrArg Val.str (by decide +kernel)) (by decide)

end Kiutils
