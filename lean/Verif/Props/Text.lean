import Verif.Fmt
/-!
# Properties of the reader and of quoting (C01–C08)

Specification vocabulary used by the statements below; it does not use the stack machine or the matchers of the model:
`depthOk` (bracket counting), `Lexeme` (what a token may look like), `Prints`/`PrintsSeq` (all texts of a tree).
-/
namespace Kiutils

/-! ## C01: which texts the reader accepts -/

/-- Reading the tokens left to right at bracket depth `d`: no `)` without an open `(`, and depth 0 at the end. -/
def depthOk : Nat → List Tok → Bool
  | d, [] => d == 0
  | d, .op :: ts => depthOk (d + 1) ts
  | 0, .cl :: _ => false
  | d + 1, .cl :: ts => depthOk d ts
  | d, .atom _ :: ts => depthOk d ts

theorem run_bad (ts : List Tok) (st : List (List Val)) (out : List Val) (h : depthOk st.length ts = false) :
    run st out ts = .error .assertionError := by
  induction ts generalizing st out with
  | nil => cases st with
    | nil => simp [depthOk] at h
    | cons a st => rfl
  | cons t ts ih =>
    cases t with
    | op => rw [run]; exact ih (out :: st) [] (by simpa [depthOk] using h)
    | atom v => rw [run]; exact ih st _ (by simpa [depthOk] using h)
    | cl => cases st with
      | nil => rfl
      | cons a st => rw [run]; exact ih st _ (by simpa [depthOk] using h)

theorem run_good (ts : List Tok) (st : List (List Val)) (out : List Val) (h : depthOk st.length ts = true)
    (hne : st ≠ [] ∨ out ≠ [] ∨ ts ≠ []) : ∃ v, run st out ts = .ok v := by
  induction ts generalizing st out with
  | nil => cases st with
    | nil => cases out with
      | nil => simp at hne
      | cons v o => exact ⟨v, rfl⟩
    | cons a st => simp [depthOk] at h
  | cons t ts ih =>
    cases t with
    | op => rw [run]; exact ih (out :: st) [] (by simpa [depthOk] using h) (by simp)
    | atom v => rw [run]; exact ih st _ (by simpa [depthOk] using h) (by simp)
    | cl => cases st with
      | nil => simp [depthOk] at h
      | cons a st => rw [run]; exact ih st _ (by simpa [depthOk] using h) (by simp)

/-- C01: `parse_sexp` returns a value exactly for texts with at least one token and balanced brackets, raises `AssertionError`
exactly when the brackets do not balance and `IndexError` exactly when there is no token; there is no other outcome. -/
theorem C01_reader_outcomes (s : Str) :
    ((∃ v, parseSexp s = .ok v) ↔ depthOk 0 (lex s) = true ∧ lex s ≠ []) ∧
    (parseSexp s = .error .assertionError ↔ depthOk 0 (lex s) = false) ∧
    (parseSexp s = .error .indexError ↔ lex s = []) ∧
    ((∃ v, parseSexp s = .ok v) ∨ parseSexp s = .error .assertionError ∨ parseSexp s = .error .indexError) := by
  unfold parseSexp
  cases hd : depthOk 0 (lex s) with
  | false =>
    have h := run_bad (lex s) [] [] hd
    have hne : lex s ≠ [] := by intro e; rw [e] at hd; simp [depthOk] at hd
    simp [h, hne]
  | true =>
    by_cases hn : lex s = []
    · simp [hn, run]
    · obtain ⟨v, hv⟩ := run_good (lex s) [] [] hd (by simp [hn])
      simp [hv, hn]

example : depthOk 0 (lex k!"(a (b \")\") 1)") = true ∧ lex k!"(a (b \")\") 1)" ≠ [] := by decide
example : depthOk 0 (lex k!"(a (b)") = false := by decide
example : lex k!" ^ " = [] := by decide

/-! ## C02: nothing is dropped -/

/-- The text that a piece covers. -/
def Piece.text : Piece → Str
  | .skip c => [c]
  | .tok src _ => src

/-- What a token may look like in the text: a bracket; a decimal number, whose value is the double nearest to it (as an int if
integral); a text in double quotes, whose value is the text with `\"` replaced by `"`; a word without brackets, `^` and white
space, which is its own value. -/
inductive Lexeme : Str → Tok → Prop
  | op : Lexeme ['('] .op
  | cl : Lexeme [')'] .cl
  | num (n : NumLit) (h : n.Wf) : Lexeme n.src (.atom n.val)
  | quoted (b : Str) : Lexeme ('"' :: (b ++ ['"'])) (.atom (.str (unescape b)))
  | bare (w : Str) (hne : w ≠ []) (h : ∀ c ∈ w, c ≠ '(' ∧ c ≠ ')' ∧ c ≠ '^' ∧ isSpace c = false) : Lexeme w (.atom (.str w))

theorem tokenAt_lexeme {s src rest : Str} {t : Tok} (h : tokenAt s = some (src, t, rest)) : Lexeme src t := by
  have hs := (tokenAt_spec h).2
  unfold tokenAt at h
  cases s with
  | nil => simp at h
  | cons c r =>
    simp only at h
    split at h
    · simp at h; obtain ⟨rfl, rfl, rfl⟩ := h; exact .op
    split at h
    · simp at h; obtain ⟨rfl, rfl, rfl⟩ := h; exact .cl
    split at h
    · rename_i n rest' hm
      simp at h; obtain ⟨rfl, rfl, rfl⟩ := h
      exact .num n (matchNum_wf hm)
    split at h
    · rename_i b rest' hm
      simp only [Option.some.injEq, Prod.mk.injEq] at h; obtain ⟨rfl, rfl, rfl⟩ := h
      exact .quoted b
    split at h
    · simp only [Option.some.injEq, Prod.mk.injEq] at h; obtain ⟨rfl, rfl, rfl⟩ := h
      refine .bare _ hs ?_
      intro d hd
      have := mem_takeWhile d hd
      simp [isBare] at this
      simp [this]
    · simp at h

theorem tokenAt_none {c : Char} {r : Str} (hs : isSpace c = false) (h : tokenAt (c :: r) = none) : c = '^' := by
  unfold tokenAt at h
  simp only at h
  split at h
  · simp at h
  split at h
  · simp at h
  split at h
  · simp at h
  split at h
  · simp at h
  split at h
  · simp at h
  rename_i h1 h2 _ _ _ _ hb
  simp [isBare, hs] at hb h1 h2
  exact Classical.byContradiction fun h => h2 (hb h1 h)

theorem pieces_induct {P : Str → Prop} (nil : P []) (space : ∀ c r, isSpace c = true → P r → P (c :: r))
    (tok : ∀ c r src t rest, isSpace c = false → tokenAt (c :: r) = some (src, t, rest) → P rest → P (c :: r))
    (skip : ∀ c r, isSpace c = false → tokenAt (c :: r) = none → P r → P (c :: r)) (s : Str) : P s := by
  suffices h : ∀ n (s : Str), s.length ≤ n → P s from h s.length s (Nat.le_refl _)
  intro n
  induction n with
  | zero => intro s hs; cases s with
    | nil => exact nil
    | cons c r => simp at hs
  | succ n ih =>
    intro s hs
    cases s with
    | nil => exact nil
    | cons c r =>
      simp at hs
      cases hsp : isSpace c with
      | true => exact space c r hsp (ih r hs)
      | false =>
        cases ht : tokenAt (c :: r) with
        | none => exact skip c r hsp ht (ih r hs)
        | some p =>
          obtain ⟨src, t, rest⟩ := p
          have := tokenAt_length ht
          simp at this
          exact tok c r src t rest hsp ht (ih rest (by omega))

/-- C02: the pieces that the scanner makes of a text, put together, are the text; the tokens are those of the pieces; a skipped
character is white space or `^`; every token is one of the five lexemes. -/
theorem C02_nothing_dropped (s : Str) :
    (pieces s).flatMap Piece.text = s ∧
    lex s = (pieces s).filterMap Piece.tok? ∧
    (∀ c, Piece.skip c ∈ pieces s → isSpace c = true ∨ c = '^') ∧
    (∀ src t, Piece.tok src t ∈ pieces s → src ≠ [] ∧ Lexeme src t) := by
  suffices h : (pieces s).flatMap Piece.text = s ∧ (∀ c, Piece.skip c ∈ pieces s → isSpace c = true ∨ c = '^') ∧
      (∀ src t, Piece.tok src t ∈ pieces s → src ≠ [] ∧ Lexeme src t) from ⟨h.1, rfl, h.2⟩
  induction s using pieces_induct with
  | nil => simp [pieces_nil]
  | space c r hs ih =>
    rw [pieces_space hs]
    refine ⟨by simp [Piece.text, ih.1], ?_, ?_⟩
    · intro d hd
      simp at hd
      rcases hd with rfl | hd
      · exact .inl hs
      · exact ih.2.1 d hd
    · intro src t h; simp at h; exact ih.2.2 src t h
  | tok c r src t rest hs ht ih =>
    rw [pieces_tok hs ht]
    have h1 := tokenAt_spec ht
    refine ⟨by simp [Piece.text, ih.1, h1.1], ?_, ?_⟩
    · intro d hd; simp at hd; exact ih.2.1 d hd
    · intro src' t' h
      simp at h
      rcases h with ⟨rfl, rfl⟩ | h
      · exact ⟨h1.2, tokenAt_lexeme ht⟩
      · exact ih.2.2 _ _ h
  | skip c r hs ht ih =>
    rw [pieces_skip hs ht]
    refine ⟨by simp [Piece.text, ih.1], ?_, ?_⟩
    · intro d hd
      simp at hd
      rcases hd with rfl | hd
      · exact .inr (tokenAt_none hs ht)
      · exact ih.2.1 d hd
    · intro src t h; simp at h; exact ih.2.2 src t h

/-- C02, second part: in a text without `^` only white space is skipped. -/
theorem C02_only_white_space (s : Str) (h : '^' ∉ s) (c : Char) (hc : Piece.skip c ∈ pieces s) : isSpace c = true := by
  rcases (C02_nothing_dropped s).2.2.1 c hc with h1 | rfl
  · exact h1
  · refine absurd ?_ h
    rw [← (C02_nothing_dropped s).1]
    exact List.mem_flatMap.mpr ⟨_, hc, by simp [Piece.text]⟩

/-- The exception is real: a bare word loses its `^` and falls apart. -/
example : parseSexp k!"(name a^b)" = .ok (.list [.str k!"name", .str k!"a", .str k!"b"]) := rfl
example : '^' ∉ k!"(a \"b c\" 1)" := by decide

/-! ## C03, C04: quoted texts -/

/-- C03: a quoted text that does not end in a backslash is read as written, whatever it contains and whatever follows the
white space or bracket after the closing quote; reading goes on right after that quote. -/
theorem C03_quoted_text (s r : Str) (c : Char) (hs : s.getLast? ≠ some '\\') (hc : c = ')' ∨ isSpace c = true) :
    lex ('"' :: (dequote s ++ '"' :: c :: r)) = .atom (.str s) :: lex (c :: r) :=
  lex_quoted s (c :: r) hs (by simp [sqEnd]; exact hc)

example : k!"a \"quoted\" (b\\ )\n^".getLast? ≠ some '\\' := by decide

theorem matchSqBody_none_of_noQuote (m : Str) (h : '"' ∉ m) (p : Char) : matchSqBody p m = none := by
  induction m generalizing p with
  | nil => rfl
  | cons c m ih =>
    simp at h
    have h1 : c ≠ '"' := fun e => h.1 e.symm
    simp [matchSqBody, h1, ih h.2 c]

theorem ne_quote_of_end {c : Char} (h : c = ')' ∨ isSpace c = true) : c ≠ '"' := by
  rintro rfl
  revert h
  decide

theorem dequote_append_backslash (p : Str) : dequote (p ++ ['\\']) = dequote p ++ ['\\'] := by
  induction p with
  | nil => rfl
  | cons c p ih =>
    by_cases h : c = '"'
    · subst h; simp only [List.cons_append, dequote_cons_quote, ih]
    · rw [List.cons_append, dequote_cons_ne _ h, dequote_cons_ne _ h, ih]; rfl

theorem unescape_dequote_append (p y : Str) (h : y.head? ≠ some '"') : unescape (dequote p ++ y) = p ++ unescape y := by
  induction p with
  | nil => rfl
  | cons c p ih =>
    by_cases hc : c = '"'
    · subst hc; rw [dequote_cons_quote, List.cons_append, List.cons_append, unescape, ih]; rfl
    · rw [dequote_cons_ne p hc, List.cons_append, unescape_cons, ih]; · rfl
      have := dequote_head p
      cases hp : dequote p with
      | nil => simpa using h
      | cons d q => rw [hp] at this; simpa using this

/-- C04: a quoted text ending in a backslash swallows everything up to the opening quote of the next quoted text, if that
one begins with white space or `)` — so the two fields do not read back as written. (`m` is the text between them.) -/
theorem C04_backslash_merges (s m r : Str) (c d : Char) (hs : s.getLast? = some '\\') (hm : '"' ∉ m)
    (hc : c = ')' ∨ isSpace c = true) (hd : d = ')' ∨ isSpace d = true) (hl : (c :: m).getLast? ≠ some '\\') :
    lex ('"' :: (dequote s ++ '"' :: c :: (m ++ '"' :: d :: r))) =
      .atom (.str (s.dropLast ++ '"' :: unescape (c :: m))) :: lex (d :: r) := by
  have hcq := ne_quote_of_end hc
  have hd' : sqEnd (d :: r) = true := by simp [sqEnd]; exact hd
  have h1 : matchSqBody '"' (c :: (m ++ '"' :: d :: r)) = some (c :: m, d :: r) := by
    rw [← List.cons_append, matchSqBody_skip (c :: m) _ (by simp; exact ⟨fun e => hcq e.symm, hm⟩)]
    have : (('"' :: c :: m).getLast (by simp) == '\\') = false := by
      rw [List.getLast_cons_cons]
      rw [List.getLast?_eq_some_getLast (by simp)] at hl
      simpa using hl
    generalize ('"' :: c :: m).getLast (by simp) = q at this ⊢
    rw [matchSqBody]
    simp [this, hd']
  have h2 := matchSqBody_backslash s '"' (c :: (m ++ '"' :: d :: r)) (by simp [sqEnd]; exact hc) (getLast_cons_backslash hs)
  rw [h1] at h2
  rw [lex_quoted_of h2]
  obtain ⟨p, rfl⟩ : ∃ p, s = p ++ ['\\'] := by
    have hne : s ≠ [] := by rintro rfl; simp at hs
    refine ⟨s.dropLast, ?_⟩
    rw [List.getLast?_eq_some_getLast hne] at hs
    simp at hs
    rw [← hs, List.dropLast_concat_getLast]
  have e : dequote (p ++ ['\\']) = dequote p ++ ['\\'] := dequote_append_backslash p
  rw [e, List.append_assoc, unescape_dequote_append p _ (by simp)]
  simp [unescape]
example := C04_backslash_merges k!"a\\" k!" (descr " k!"(b)" ' ' ' ' rfl (by decide) (by decide) (by decide) (by decide)

/-- C04, the other half: the same text is read back as written if no quote follows at all, … -/
theorem C04_backslash_last (s r : Str) (c : Char) (hs : s.getLast? = some '\\') (hr : '"' ∉ r)
    (hc : c = ')' ∨ isSpace c = true) :
    lex ('"' :: (dequote s ++ '"' :: c :: r)) = .atom (.str s) :: lex (c :: r) := by
  have hcq := ne_quote_of_end hc
  have h2 := matchSqBody_backslash s '"' (c :: r) (by simp [sqEnd]; exact hc) (getLast_cons_backslash hs)
  rw [matchSqBody_none_of_noQuote (c :: r) (by simp; exact ⟨fun e => hcq e.symm, hr⟩)] at h2
  rw [lex_quoted_of h2, unescape_dequote]
example := C04_backslash_last k!"a\\" k!" (descr b))" ')' rfl (by decide) (by decide)

/-- … or if the next quoted text begins with a character other than white space and `)`. -/
theorem C04_backslash_before_word (s m r : Str) (c d : Char) (hs : s.getLast? = some '\\') (hm : '"' ∉ m)
    (hc : c = ')' ∨ isSpace c = true) (hd : d ≠ ')' ∧ isSpace d = false) (hl : (c :: m).getLast? ≠ some '\\') :
    lex ('"' :: (dequote s ++ '"' :: c :: (m ++ '"' :: d :: r))) = .atom (.str s) :: lex (c :: (m ++ '"' :: d :: r)) := by
  have hcq := ne_quote_of_end hc
  have hd' : sqEnd (d :: r) = false := by simp [sqEnd]; exact hd
  have h1 : matchSqBody '"' (c :: (m ++ '"' :: d :: r)) = none := by
    rw [← List.cons_append, matchSqBody_skip (c :: m) _ (by simp; exact ⟨fun e => hcq e.symm, hm⟩)]
    have : (('"' :: c :: m).getLast (by simp) == '\\') = false := by
      rw [List.getLast_cons_cons]
      rw [List.getLast?_eq_some_getLast (by simp)] at hl
      simpa using hl
    generalize ('"' :: c :: m).getLast (by simp) = q at this ⊢
    rw [matchSqBody]
    simp [this, hd']
  have h2 := matchSqBody_backslash s '"' (c :: (m ++ '"' :: d :: r)) (by simp [sqEnd]; exact hc) (getLast_cons_backslash hs)
  rw [h1] at h2
  rw [lex_quoted_of h2, unescape_dequote]
example := C04_backslash_before_word k!"a\\" k!" (descr " k!" b\"))" ')' 'x' rfl (by decide) (by decide) (by decide) (by decide)

/-- Two quoted fields, read as one: the table entry `(name "a\\") (descr " b")` of a library. -/
example : parseSexp k!"((name \"a\\\")(descr \" b\"))" = .ok (.list [.list [.str k!"name", .str k!"a\")(descr ", .str k!"b\""]]) ∧
    parseSexp k!"(name \"a\\\" \" b\")" = .ok (.list [.str k!"name", .str k!"a\" ", .str k!"b\""]) := ⟨rfl, rfl⟩


/-! ## C05: numbers -/

/-- C05, ints: the text of an int of at most 2^53 in absolute value, followed by a blank or `)`, is read as that int. -/
theorem C05_int (n : Int) (r : Str) (c : Char) (hn : n.natAbs ≤ 2 ^ 53) (hc : c = ' ' ∨ c = ')') :
    lex (intStr n ++ c :: r) = .atom (.int n) :: lex (c :: r) := by
  rw [← intLit_src, lex_num (intLit_wf n) (by simpa [numEnd] using hc), intLit_val n (exactInt_of_le hn)]
example := C05_int (-9007199254740992) k!" 1)" ' ' (by decide) (.inl rfl)

/-- C05, all ints: the text of any int is read as the double nearest to it, turned back into an int. -/
theorem C05_int_general (n : Int) (r : Str) (c : Char) (hc : c = ' ' ∨ c = ')') :
    lex (intStr n ++ c :: r) = .atom (Val.canon (.flt (F64.ofRat (n < 0) n.natAbs 1))) :: lex (c :: r) := by
  rw [← intLit_src, lex_num (intLit_wf n) (by simpa [numEnd] using hc)]
  congr 2
  unfold NumLit.val intLit F64.ofDecimal
  simp only [Option.getD_none, List.append_nil, List.length_nil, Nat.pow_zero, digitsVal_natStr]
  by_cases h : n < 0 <;> simp [h]
example := C05_int_general 123456789012345678901234567890 k!")" ')' (.inr rfl)

/-- C05, floats: the text of a float in plain decimal notation, followed by a blank or `)`, is read as that float, or as the
equal int if it is integral. -/
theorem C05_float (f : F64) (r : Str) (c : Char) (hf : f.Plain) (hc : c = ' ' ∨ c = ')') :
    lex (f.repr ++ c :: r) = .atom (if f.isInteger then .int f.toInt else .flt f) :: lex (c :: r) := by
  obtain ⟨n, h1, h2, h3⟩ := hf.lit
  rw [← h2, lex_num h1 (by simpa [numEnd] using hc), h3]
  rfl

/-- Beyond 2^53 ints do not survive: 2^53 + 1 is read as 2^53. -/
theorem C05_int_bound_sharp : parseSexp k!"(n 9007199254740993)" = .ok (.list [.str k!"n", .int 9007199254740992]) := rfl

/-- A number directly before a line break is read as a string. -/
theorem C05_line_break (n : Int) (r : Str) :
    lex (intStr n ++ '\n' :: r) = .atom (.str (intStr n)) :: lex ('\n' :: r) := by
  refine lex_word_of_not_numEnd (intStr n) ('\n' :: r) ?_ ?_ ?_ rfl rfl
  · rw [← intLit_src]; exact NumLit.src_ne_nil_of (intLit_wf n).1
  · rw [← intLit_src]; exact NumLit.src_bare (intLit_wf n)
  · unfold intStr
    split
    · simp
    · intro e
      have : isDigit '"' = true := natStr_digits n.natAbs '"' (List.mem_of_head? e)
      exact absurd this (by decide)

example := C05_float (.fin false 5764607523034235 (-51)) k!" 1)" ' '
  ⟨false, ['2'], ['5', '6'], by decide, by decide, by decide, by decide, by rfl, by rfl⟩ (.inl rfl)

/-! ## C06: trees in any layout -/

/-- Only white space. -/
def Blank (w : Str) : Prop := ∀ c ∈ w, isSpace c = true

/-- `PrintsSeq vs b`: `b` is a text for the children `vs` of a list, up to (not including) the closing bracket of the list.
Numbers may be written in any way that the reader takes for a number (`1.50`, `+2.0`, `007`). Blanks may be put anywhere between
the children; after a number there must be a blank or `)`, after a quoted text white space or
`)`, after a word anything that is not part of a word. The texts and the words meet the rule for texts (by default, no text ends in
a backslash and no word begins with a quote). -/
inductive PrintsSeq [TextRule] : List Val → Str → Prop
  | nil (w : Str) (hw : Blank w) : PrintsSeq [] w
  | num (w y : Str) (n : NumLit) (vs : List Val) (hw : Blank w) (hn : n.Wf) (hy : numEnd (y ++ [')']) = true)
      (h : PrintsSeq vs y) : PrintsSeq (n.val :: vs) (w ++ (n.src ++ y))
  | word (w x y : Str) (vs : List Val) (hw : Blank w) (hne : x ≠ []) (hx : ∀ c ∈ x, isBare c = true) (hq : TextRule.word x)
      (hn : ∀ n : NumLit, n.Wf → n.src ≠ x) (hy : bareEnd (y ++ [')']) = true)
      (h : PrintsSeq vs y) : PrintsSeq (.str x :: vs) (w ++ (x ++ y))
  | text (w x y : Str) (vs : List Val) (hw : Blank w) (hx : TextRule.text x) (hy : sqEnd (y ++ [')']) = true)
      (h : PrintsSeq vs y) : PrintsSeq (.str x :: vs) (w ++ '"' :: (dequote x ++ '"' :: y))
  | list (w b y : Str) (l vs : List Val) (hw : Blank w) (hb : PrintsSeq l b) (h : PrintsSeq vs y) :
      PrintsSeq (.list l :: vs) (w ++ '(' :: (b ++ ')' :: y))

/-- An int as Python writes it. -/
theorem PrintsSeq.int [TextRule] (w y : Str) (n : Int) (vs : List Val) (hw : Blank w) (hn : ExactInt n) (hy : numEnd (y ++ [')']) = true)
    (h : PrintsSeq vs y) : PrintsSeq (.int n :: vs) (w ++ (intStr n ++ y)) := by
  have := PrintsSeq.num w y (intLit n) vs hw (intLit_wf n) hy h
  rwa [intLit_val n hn, intLit_src] at this

/-- A float as Python writes it. -/
theorem PrintsSeq.flt [TextRule] (w y : Str) (f : F64) (vs : List Val) (hw : Blank w) (hf : f.Plain) (hy : numEnd (y ++ [')']) = true)
    (h : PrintsSeq vs y) : PrintsSeq (Val.canon (.flt f) :: vs) (w ++ (f.repr ++ y)) := by
  obtain ⟨n, h1, h2, h3⟩ := hf.lit
  have := PrintsSeq.num w y n vs hw h1 hy h
  rwa [h2, h3] at this

/-- `Prints l s`: `s` is a text of the list `l`, with any white space in front. -/
def Prints [TextRule] (l : List Val) (s : Str) : Prop := ∃ w b, Blank w ∧ PrintsSeq l b ∧ s = w ++ '(' :: (b ++ [')'])

theorem head_append_cl {P : Str → Bool} (hP : ∀ c r r', P (c :: r) = P (c :: r')) {y : Str} (h : P (y ++ [')']) = true) (r : Str) :
    P (y ++ ')' :: r) = true := by
  cases y with
  | nil => rw [← h]; exact hP _ _ _
  | cons c y => rw [← h]; exact hP _ _ _

theorem lx_blanks [TextRule] {w s : Str} {t : List Tok} (hw : Blank w) (h : s ⇛ t) : (w ++ s) ⇛ t := by
  induction w with
  | nil => exact h
  | cons c w ih =>
    have h1 := ih fun c hc => hw c (List.mem_cons_of_mem _ hc)
    have hc := hw c List.mem_cons_self
    refine ⟨?_, TextRule.next_sep (.inr (.inr hc)) h1.2⟩
    have : c :: w ++ s = [c] ++ (w ++ s) := rfl
    rw [this, lex_spaces (by intro d hd; cases List.mem_singleton.1 hd; exact hc), h1.1]

theorem NumLit.src_word [TextRule] {n : NumLit} (h : n.Wf) : TextRule.word n.src := by
  obtain ⟨sign, ip, fp⟩ := n
  obtain ⟨h1, h2, h3, h4, h5⟩ := h
  simp only at h1 h2 h3 h4 h5
  refine TextRule.word_noQuote fun hc => ?_
  simp only [NumLit.src, List.mem_append] at hc
  rcases hc with (hc | hc) | hc
  · rcases h5 with rfl | rfl | ⟨rfl, _⟩ <;> simp at hc
  · exact absurd (h2 _ hc) (by decide)
  · cases fp with
    | none => simp at hc
    | some f =>
      simp only [List.mem_cons] at hc
      rcases hc with hc | hc
      · revert hc; decide
      · exact absurd (h4 f rfl _ hc) (by decide)

theorem PrintsSeq.lx [TextRule] {vs : List Val} {b : Str} (h : PrintsSeq vs b) {r : Str} {t : List Tok} (hr : (')' :: r) ⇛ t) :
    (b ++ ')' :: r) ⇛ toksL vs ++ t := by
  induction h generalizing r t with
  | nil w hw => rw [toksL_nil]; exact lx_blanks hw hr
  | num w y n vs hw hn hy h ih =>
    have hy' := head_append_cl (P := numEnd) (fun _ _ _ => rfl) hy r
    have hv : toks n.val = [.atom n.val] := by
      unfold NumLit.val
      simp only [Val.canon]
      split <;> rfl
    have h1 := ih hr
    rw [List.append_assoc, List.append_assoc, toksL_cons, hv]
    exact lx_blanks hw ⟨by rw [lex_num hn hy', h1.1]; rfl, TextRule.next_word (NumLit.src_word hn) (bareEnd_of_numEnd hy') h1.2⟩
  | word w x y vs hw hne hx hq hn hy h ih =>
    have hy' := head_append_cl (P := bareEnd) (fun _ _ _ => rfl) hy r
    have hl : looksNumeric x = false := by
      unfold looksNumeric
      cases hm : matchNum (x ++ [' ']) with
      | none => rfl
      | some p =>
        obtain ⟨n, rest⟩ := p
        have h1 := matchNum_spec hm
        have h2 := matchNum_wf hm
        have := bare_cut h1.1 (NumLit.src_bare h2) hx (bareEnd_of_numEnd h1.2.2) rfl
        exact absurd this.1 (hn n h2)
    have h1 := ih hr
    rw [List.append_assoc, List.append_assoc, toksL_cons, toks]
    exact lx_blanks hw ⟨by rw [lex_word x _ hne hx (TextRule.word_head hq) hl hy', h1.1]; rfl, TextRule.next_word hq hy' h1.2⟩
  | text w x y vs hw hx hy h ih =>
    have hy' := head_append_cl (P := sqEnd) (fun _ _ _ => rfl) hy r
    have h1 := ih hr
    rw [List.append_assoc, toksL_cons, toks]
    simp only [List.cons_append, List.append_assoc]
    exact lx_blanks hw ⟨by rw [TextRule.lex_text hx hy' h1.2, h1.1]; rfl, TextRule.next_text hx⟩
  | list w b y l vs hw hb h ihb ih =>
    have h1 := lx_op (ihb (lx_cl (ih hr)))
    rw [List.append_assoc, toksL_cons, toks_list]
    simp only [List.cons_append, List.append_assoc, List.nil_append] at h1 ⊢
    exact lx_blanks hw h1

theorem Prints.lx [TextRule] {l : List Val} {s : Str} (h : Prints l s) {r : Str} {t : List Tok} (hr : r ⇛ t) :
    (s ++ r) ⇛ toks (.list l) ++ t := by
  obtain ⟨w, b, hw, hb, rfl⟩ := h
  have h1 := lx_op (hb.lx (lx_cl hr))
  rw [List.append_assoc, toks_list]
  simp only [List.cons_append, List.append_assoc, List.nil_append] at h1 ⊢
  exact lx_blanks hw h1

theorem Prints.lex {l : List Val} {s : Str} (h : Prints l s) (r : Str) : Kiutils.lex (s ++ r) = toks (.list l) ++ Kiutils.lex r :=
  (h.lx ⟨rfl, trivial⟩).lex

/-- C06: whatever the layout of the text of a tree, the reader returns that tree. -/
theorem C06_tree_round_trip [TextRule] (l : List Val) (s : Str) (h : Prints l s) : parseSexp s = .ok (.list l) := by
  have := (h.lx lx_nil).lex
  rw [List.append_nil, List.append_nil] at this
  exact parse_of_lex this
example := C06_tree_round_trip [.str k!"a b", .list [.str k!"c"]] k!" (\"a b\"\n (\"c\" ))"
  ⟨k!" ", k!"\"a b\"\n (\"c\" )", by unfold Blank; decide, .text [] k!"a b" k!"\n (\"c\" )" _ (by unfold Blank; decide) (by decide) (by decide)
    (.list k!"\n " k!"\"c\" " [] _ [] (by unfold Blank; decide) (.text [] k!"c" k!" " [] (by unfold Blank; decide) (by decide) (by decide)
      (.nil _ (by unfold Blank; decide))) (.nil [] (by unfold Blank; decide))), rfl⟩

mutual
/-- A tree of safe numbers (in the form in which they are read: no integral floats) and of strings that meet the rule for texts (by
default: that do not end in a backslash). -/
def Printable [TextRule] : Val → Prop
  | .int n => ExactInt n
  | .flt f => f.Plain ∧ f.isInteger = false
  | .str s => TextRule.text s
  | .list l => PrintableL l
/-- See `Printable`. -/
def PrintableL [TextRule] : List Val → Prop
  | [] => True
  | v :: vs => Printable v ∧ PrintableL vs
end

mutual
theorem printsSeq_cons [TextRule] (v : Val) (hv : Printable v) (vs : List Val) (y : Str) (h : PrintsSeq vs y) :
    ∃ b, PrintsSeq (v :: vs) b := by
  have hb : PrintsSeq vs (' ' :: y) := by
    have h0 : Blank [' '] := by intro c hc; simp at hc; subst hc; rfl
    have : ∀ {vs y}, PrintsSeq vs y → PrintsSeq vs ([' '] ++ y) := by
      intro vs y h
      have hb : ∀ {w}, Blank w → Blank ([' '] ++ w) := by
        intro w hw c hc
        simp at hc
        rcases hc with rfl | hc
        · rfl
        · exact hw c hc
      cases h with
      | nil w hw => exact .nil _ (hb hw)
      | num w y n vs hw hn hy h => rw [← List.append_assoc]; exact .num _ y n vs (hb hw) hn hy h
      | word w x y vs hw hne hx hq hn hy h => rw [← List.append_assoc]; exact .word _ x y vs (hb hw) hne hx hq hn hy h
      | text w x y vs hw hx hy h => rw [← List.append_assoc]; exact .text _ x y vs (hb hw) hx hy h
      | list w b y l vs hw h1 h => rw [← List.append_assoc]; exact .list _ b y l vs (hb hw) h1 h
    exact this h
  match v, hv with
  | .int n, hn => exact ⟨_, .int [] _ n vs (by intro c hc; simp at hc) (by simpa [Printable] using hn) rfl hb⟩
  | .flt f, hf =>
    simp only [Printable] at hf
    refine ⟨[] ++ (f.repr ++ (' ' :: y)), ?_⟩
    have := PrintsSeq.flt [] _ f vs (by intro c hc; simp at hc) hf.1 rfl hb
    simpa [Val.canon, hf.2] using this
  | .str s, hs => exact ⟨_, .text [] s _ vs (by intro c hc; simp at hc) (by simpa [Printable] using hs) rfl hb⟩
  | .list l, hl =>
    simp only [Printable] at hl
    obtain ⟨b, h1⟩ := printsSeq_exists l hl
    exact ⟨_, .list [] b y l vs (by intro c hc; simp at hc) h1 h⟩
theorem printsSeq_exists [TextRule] (l : List Val) (hl : PrintableL l) : ∃ b, PrintsSeq l b := by
  match l, hl with
  | [], _ => exact ⟨[], .nil [] (by intro c hc; simp at hc)⟩
  | v :: vs, h =>
    simp only [PrintableL] at h
    obtain ⟨y, hy⟩ := printsSeq_exists vs h.2
    exact printsSeq_cons v h.1 vs y hy
end

/-- C06, every tree: each tree of safe numbers and strings has a text. -/
theorem C06_every_tree_has_text [TextRule] (l : List Val) (h : PrintableL l) : ∃ s, Prints l s ∧ parseSexp s = .ok (.list l) := by
  obtain ⟨b, hb⟩ := printsSeq_exists l h
  have : Prints l (['('] ++ (b ++ [')'])) := ⟨[], b, by intro c hc; simp at hc, hb, rfl⟩
  exact ⟨_, this, C06_tree_round_trip l _ this⟩

example : PrintableL [.str k!"a b", .int (-3), .list [.str k!"\"", .list []]] := by
  simp only [PrintableL, Printable]
  exact ⟨by decide, exactInt_of_le (by decide), ⟨by decide, trivial, trivial⟩, trivial⟩

/-! ## C07: only the first expression counts -/

theorem run_done (ts : List Tok) (st : List (List Val)) (out : List Val) (v : Val)
    (hs : ((out :: st).getLast (by simp)).head? = some v) (h : depthOk st.length ts = true) : run st out ts = .ok v := by
  induction ts generalizing st out with
  | nil => cases st with
    | nil => cases out with
      | nil => simp at hs
      | cons a o => simp at hs; subst hs; rfl
    | cons a st => simp [depthOk] at h
  | cons t ts ih =>
    cases t with
    | op => rw [run]; exact ih (out :: st) [] (by simpa using hs) (by simpa [depthOk] using h)
    | atom a =>
      rw [run]
      refine ih st _ ?_ (by simpa [depthOk] using h)
      cases st with
      | nil =>
        simp only [List.getLast_singleton] at hs ⊢
        cases out with
        | nil => simp at hs
        | cons b o => simpa using hs
      | cons b st => simpa using hs
    | cl => cases st with
      | nil => simp [depthOk] at h
      | cons top st =>
        rw [run]
        refine ih st _ ?_ (by simpa [depthOk] using h)
        cases st with
        | nil =>
          simp only [List.getLast_cons_cons, List.getLast_singleton] at hs ⊢
          cases top with
          | nil => simp at hs
          | cons b o => simpa using hs
        | cons b st => simpa using hs

theorem depthOk_toks_run (v : Val) (ts : List Tok) : run [] [] (toks v ++ ts) = run [] [v] ts := by
  rw [run_toks]; rfl

/-- C07: after the text of a tree, any text with balanced brackets is ignored; if the brackets of the rest do not balance, the
reader fails. -/
theorem C07_first_expression (l : List Val) (s r : Str) (h : Prints l s) :
    parseSexp (s ++ r) = if depthOk 0 (lex r) then .ok (.list l) else .error .assertionError := by
  rw [parseSexp, h.lex r, depthOk_toks_run]
  split
  · rename_i hd; exact run_done _ _ _ _ (by simp) hd
  · rename_i hd; exact run_bad _ _ _ (by simpa using hd)
example := C07_first_expression [.str k!"a b"] k!"(\"a b\")" k!" (c) d"
  ⟨[], k!"\"a b\"", by unfold Blank; decide, .text [] k!"a b" [] [] (by unfold Blank; decide) (by decide) (by decide) (.nil [] (by unfold Blank; decide)), rfl⟩

/-- The side condition that the first text is the text of a tree is needed: here the quote of the first text is not closed, the
text is accepted on its own, and the appended text changes its meaning. -/
theorem C07_needs_closed_quotes : parseSexp k!"(a \"b)" = .ok (.list [.str k!"a", .str k!"\"b"]) ∧
    parseSexp (k!"(a \"b)" ++ k!"(\" )") = .ok (.list [.str k!"a", .str k!"b)("]) := ⟨rfl, rfl⟩

example : depthOk 0 (lex k!" (b) c") = true := by decide

/-! ## C08: white space -/

theorem takeWhile_sep {p : Char → Bool} {x : Char} (hx : p x = false) (q r : Str) :
    (q ++ x :: r).takeWhile p = q.takeWhile p ∧ (q ++ x :: r).dropWhile p = q.dropWhile p ++ x :: r := by
  induction q with
  | nil => simp [hx]
  | cons c q ih =>
    cases h : p c with
    | true => simp [h, ih]
    | false => simp [h]

/-- The outcome of a matcher on `q ++ x :: r` is decided within `q ++ [x]`. -/
def Local (f : Str → Option (NumLit × Str)) (q : Str) (x : Char) : Prop :=
  ∃ o : Option (NumLit × Str), ∀ r, f (q ++ x :: r) = o.map (fun p => (p.1, p.2 ++ x :: r))

theorem numEnd_sep (q r r' : Str) (x : Char) : numEnd (q ++ x :: r) = numEnd (q ++ x :: r') := by
  cases q <;> rfl

theorem matchInt_local (q : Str) (x : Char) (hx : isBare x = false) (hq : q ≠ []) : Local matchInt q x := by
  obtain ⟨c, q, rfl⟩ := List.exists_cons_of_ne_nil hq
  have hd := isDigit_of_notBare hx
  have hs : ∀ r, (splitSign (fun c => c == '-') (c :: q ++ x :: r)) =
      ((splitSign (fun c => c == '-') (c :: q)).1, (splitSign (fun c => c == '-') (c :: q)).2 ++ x :: r) := by
    intro r
    simp only [List.cons_append, splitSign]
    split <;> simp
  generalize hg : splitSign (fun c => c == '-') (c :: q) = sg at hs
  refine ⟨if !(sg.2.takeWhile isDigit).isEmpty && numEnd (sg.2.dropWhile isDigit ++ [x]) then
    some (⟨sg.1, sg.2.takeWhile isDigit, none⟩, sg.2.dropWhile isDigit) else none, ?_⟩
  intro r
  simp only [matchInt, hs r, (takeWhile_sep hd sg.2 r).1, (takeWhile_sep hd sg.2 r).2]
  rw [numEnd_sep (sg.2.dropWhile isDigit) r [] x]
  split <;> rfl

theorem matchFloat_local (q : Str) (x : Char) (hx : isBare x = false) (hq : q ≠ []) : Local matchFloat q x := by
  obtain ⟨c, q, rfl⟩ := List.exists_cons_of_ne_nil hq
  have hd := isDigit_of_notBare hx
  have hxd : x ≠ '.' := by rintro rfl; revert hx; decide
  have hs : ∀ r, (splitSign (fun c => c == '+' || c == '-') (c :: q ++ x :: r)) =
      ((splitSign (fun c => c == '+' || c == '-') (c :: q)).1,
        (splitSign (fun c => c == '+' || c == '-') (c :: q)).2 ++ x :: r) := by
    intro r
    simp only [List.cons_append, splitSign]
    split <;> simp
  generalize hg : splitSign (fun c => c == '+' || c == '-') (c :: q) = sg at hs
  unfold Local
  simp only [matchFloat, hs, fun r => (takeWhile_sep hd sg.2 r).1, fun r => (takeWhile_sep hd sg.2 r).2]
  cases hm : sg.2.dropWhile isDigit with
  | nil => exact ⟨none, fun r => by simp [hxd]⟩
  | cons e m =>
    by_cases he : e = '.'
    · subst he
      refine ⟨if !(sg.2.takeWhile isDigit).isEmpty && !(m.takeWhile isDigit).isEmpty && numEnd (m.dropWhile isDigit ++ [x]) then
        some (⟨sg.1, sg.2.takeWhile isDigit, some (m.takeWhile isDigit)⟩, m.dropWhile isDigit) else none, ?_⟩
      intro r
      simp only [List.cons_append, (takeWhile_sep hd m r).1, (takeWhile_sep hd m r).2]
      rw [numEnd_sep (m.dropWhile isDigit) r [] x]
      split <;> rfl
    · exact ⟨none, fun r => by simp [he]⟩

theorem matchNum_local (q : Str) (x : Char) (hx : isBare x = false) (hq : q ≠ []) : Local matchNum q x := by
  obtain ⟨a, ha⟩ := matchFloat_local q x hx hq
  obtain ⟨b, hb⟩ := matchInt_local q x hx hq
  refine ⟨a.or b, fun r => ?_⟩
  rw [matchNum, ha r, hb r]
  cases a <;> rfl

theorem matchSqBody_blank (w r : Str) (hw : Blank w) (p q : Char) (hp : p ≠ '\\') (hq : q ≠ '\\') :
    matchSqBody p (w ++ r) = (matchSqBody q r).map (fun b => (w ++ b.1, b.2)) := by
  induction w generalizing p with
  | nil =>
    have hp' : (p == '\\') = false := by simpa using hp
    have hq' : (q == '\\') = false := by simpa using hq
    cases r with
    | nil => rfl
    | cons c r =>
      simp only [List.nil_append, matchSqBody, hp', hq']
      cases hm : (if c != '"' then _ else _ : Option (Str × Str)) <;> rfl
  | cons c w ih =>
    have hc := hw c (by simp)
    have h1 : c ≠ '"' := by rintro rfl; revert hc; decide
    have h2 : c ≠ '\\' := by rintro rfl; revert hc; decide
    have h1' : (c != '"') = true := by simpa using h1
    rw [List.cons_append, matchSqBody, ih (fun d hd => hw d (by simp [hd])) c h2]
    simp only [h1', if_true]
    cases matchSqBody q r <;> rfl

theorem sqEnd_sep (q r r' : Str) (x : Char) : sqEnd (q ++ x :: r) = sqEnd (q ++ x :: r') := by
  cases q <;> rfl

/-- How the match of a quoted text changes when blanks are put in after `x`: not at all if it ends before `x`; otherwise the
blanks become part of it. -/
theorem matchSqBody_insert (q w r : Str) (x p : Char) (hx : x ≠ '"') (hx' : x ≠ '\\') (hw : Blank w) :
    (matchSqBody p (q ++ x :: r) = none ∧ matchSqBody p (q ++ x :: (w ++ r)) = none) ∨
    (∃ b q', matchSqBody p (q ++ x :: r) = some (b, q' ++ x :: r) ∧ matchSqBody p (q ++ x :: (w ++ r)) = some (b, q' ++ x :: (w ++ r))) ∨
    (∃ b rest, matchSqBody p (q ++ x :: r) = some (q ++ x :: b, rest) ∧
      matchSqBody p (q ++ x :: (w ++ r)) = some (q ++ x :: (w ++ b), rest)) := by
  induction q generalizing p with
  | nil =>
    have h1 : (x != '"') = true := by simpa using hx
    simp only [List.nil_append, matchSqBody, h1, if_true]
    rw [matchSqBody_blank w r hw x x hx' hx']
    cases hm : matchSqBody x r with
    | none => exact .inl ⟨rfl, rfl⟩
    | some b => exact .inr (.inr ⟨b.1, b.2, rfl, rfl⟩)
  | cons c q ih =>
    simp only [List.cons_append, matchSqBody]
    rw [sqEnd_sep q (w ++ r) r x]
    rcases ih c with ⟨h1, h2⟩ | ⟨b, q', h1, h2⟩ | ⟨b, rest, h1, h2⟩
    · rw [h1, h2]
      split
      · exact .inl ⟨rfl, rfl⟩
      · split
        · cases sqEnd (q ++ x :: r)
          · exact .inl ⟨rfl, rfl⟩
          · exact .inr (.inl ⟨[], q, rfl, rfl⟩)
        · cases sqEnd (q ++ x :: r)
          · exact .inl ⟨rfl, rfl⟩
          · exact .inr (.inl ⟨[], q, rfl, rfl⟩)
    · rw [h1, h2]
      split
      · exact .inr (.inl ⟨c :: b, q', rfl, rfl⟩)
      · split
        · exact .inr (.inl ⟨c :: b, q', rfl, rfl⟩)
        · cases sqEnd (q ++ x :: r)
          · exact .inl ⟨rfl, rfl⟩
          · exact .inr (.inl ⟨[], q, rfl, rfl⟩)
    · rw [h1, h2]
      split
      · exact .inr (.inr ⟨b, rest, rfl, rfl⟩)
      · split
        · exact .inr (.inr ⟨b, rest, rfl, rfl⟩)
        · cases sqEnd (q ++ x :: r)
          · exact .inl ⟨rfl, rfl⟩
          · exact .inr (.inl ⟨[], q, rfl, rfl⟩)

theorem tokenAt_insert (c : Char) (q w r src rest : Str) (t : Tok) (x : Char) (hx : isBare x = false) (hw : Blank w)
    (h : tokenAt (c :: q ++ x :: r) = some (src, t, rest)) (hl : src.length ≤ (c :: q).length) :
    ∃ q', c :: q = src ++ q' ∧ rest = q' ++ x :: r ∧
      tokenAt (c :: q ++ x :: (w ++ r)) = some (src, t, q' ++ x :: (w ++ r)) := by
  have hxq : x ≠ '"' := by rintro rfl; revert hx; decide
  have hxb : x ≠ '\\' := by rintro rfl; revert hx; decide
  have hsp := (tokenAt_spec h).1
  obtain ⟨q', hq, hr⟩ : ∃ q', c :: q = src ++ q' ∧ rest = q' ++ x :: r := by
    rcases List.append_eq_append_iff.mp hsp with ⟨a, h1, h2⟩ | ⟨a, h1, h2⟩
    · exact ⟨a, h1, h2⟩
    · subst h1
      cases a with
      | nil => exact ⟨[], by simp, by simpa using h2.symm⟩
      | cons b a => simp at hl; omega
  refine ⟨q', hq, hr, ?_⟩
  obtain ⟨o, ho⟩ := matchNum_local (c :: q) x hx (by simp)
  have cut : ∀ {a : Str} {r' : Str}, a ++ x :: r' = q' ++ x :: r' → a = q' := fun h => List.append_cancel_right h
  unfold tokenAt at h ⊢
  simp only [List.cons_append] at h ho ⊢
  split at h
  · rename_i hc
    simp at h
    obtain ⟨rfl, rfl, rfl⟩ := h
    simp at hq
    simp [hc, hq.2]
  rename_i hc
  split at h
  · rename_i hc2
    simp at h
    obtain ⟨rfl, rfl, rfl⟩ := h
    simp at hq
    simp [hc, hc2, hq.2]
  rename_i hc2
  simp only [hc, hc2]
  rw [ho] at h ⊢
  cases o with
  | some p =>
    simp only [Option.map_some, Option.some.injEq, Prod.mk.injEq] at h ⊢
    obtain ⟨rfl, rfl, h3⟩ := h
    have : p.2 = q' := cut (by rw [h3, hr])
    simp [this]
  | none =>
    simp only [Option.map_none] at h ⊢
    have bareCase : ∀ (h' : (if isBare c = true then some ((c :: (q ++ x :: r)).takeWhile isBare,
          Tok.atom (.str ((c :: (q ++ x :: r)).takeWhile isBare)), (c :: (q ++ x :: r)).dropWhile isBare) else none) = some (src, t, rest)),
        (if isBare c = true then some ((c :: (q ++ x :: (w ++ r))).takeWhile isBare,
          Tok.atom (.str ((c :: (q ++ x :: (w ++ r))).takeWhile isBare)), (c :: (q ++ x :: (w ++ r))).dropWhile isBare) else none) =
          some (src, t, q' ++ x :: (w ++ r)) := by
      intro h'
      rw [← List.cons_append] at h' ⊢
      rw [(takeWhile_sep hx (c :: q) r).1, (takeWhile_sep hx (c :: q) r).2] at h'
      rw [(takeWhile_sep hx (c :: q) (w ++ r)).1, (takeWhile_sep hx (c :: q) (w ++ r)).2]
      split at h'
      · simp only [Option.some.injEq, Prod.mk.injEq] at h'
        obtain ⟨rfl, rfl, h3⟩ := h'
        have := cut (h3.trans hr)
        rename_i hb
        simp [hb, this]
      · simp at h'
    by_cases hcq : c = '"'
    · subst hcq
      simp only [matchSq] at h ⊢
      rcases matchSqBody_insert q w r x '"' hxq hxb hw with ⟨h1, h2⟩ | ⟨b, q'', h1, h2⟩ | ⟨b, rest', h1, h2⟩
      · rw [h1] at h
        rw [h2]
        exact bareCase h
      · rw [h1] at h
        rw [h2]
        simp only [Option.some.injEq, Prod.mk.injEq] at h
        obtain ⟨rfl, rfl, h3⟩ := h
        have := cut (h3.trans hr)
        simp [this]
      · rw [h1] at h
        simp only [Option.some.injEq, Prod.mk.injEq] at h
        obtain ⟨rfl, rfl, h3⟩ := h
        simp at hl
        omega
    · have hsq : ∀ z : Str, matchSq (c :: z) = none := by
        intro z
        unfold matchSq
        split
        · rename_i heq; simp at heq; exact absurd heq.1 hcq
        · rfl
      rw [hsq] at h ⊢
      exact bareCase h

/-- `x` stands between `p` and `r` outside of the tokens of `p ++ x :: r`, that is, it is a bracket token or skipped white
space. -/
def Between (p : Str) (x : Char) (r : Str) : Prop :=
  ∃ (ps : List Piece) (q : Piece), pieces (p ++ x :: r) = ps ++ q :: pieces r ∧ ps.flatMap Piece.text = p ∧
    (q = .skip x ∧ isSpace x = true ∨ q = .tok [x] .op ∧ x = '(' ∨ q = .tok [x] .cl ∧ x = ')')

/-- C08: white space inserted after a bracket or after white space (outside of tokens) is irrelevant. -/
theorem C08_white_space (p w r : Str) (x : Char) (h : Between p x r) (hw : Blank w) :
    parseSexp (p ++ x :: (w ++ r)) = parseSexp (p ++ x :: r) := by
  suffices hlex : lex (p ++ x :: (w ++ r)) = lex (p ++ x :: r) by rw [parseSexp, hlex, parseSexp]
  obtain ⟨ps, z, h1, h2, h3⟩ := h
  have hx : isBare x = false := by
    rcases h3 with ⟨_, h⟩ | ⟨_, rfl⟩ | ⟨_, rfl⟩
    · simp [isBare, h]
    · rfl
    · rfl
  have h0 : lex (x :: (w ++ r)) = lex (x :: r) := by
    rcases h3 with ⟨_, h⟩ | ⟨_, rfl⟩ | ⟨_, rfl⟩
    · rw [lex_space h, lex_space h, lex_spaces hw]
    · rw [lex_op, lex_op, lex_spaces hw]
    · rw [lex_cl, lex_cl, lex_spaces hw]
  clear h3
  induction hn : p.length using Nat.strongRecOn generalizing p ps with
  | ind n ih =>
  cases p with
  | nil => exact h0
  | cons c p =>
    simp only [List.cons_append] at h1 ⊢
    cases ps with
    | nil => simp at h2
    | cons a ps =>
      cases hc : isSpace c with
      | true =>
        rw [pieces_space hc] at h1
        simp only [List.cons_append, List.cons.injEq] at h1
        obtain ⟨rfl, h1⟩ := h1
        simp [Piece.text] at h2
        rw [lex_space hc, lex_space hc]
        exact ih p.length (by simp at hn; omega) p ps h1 h2 rfl
      | false =>
        cases ht : tokenAt (c :: (p ++ x :: r)) with
        | none =>
          have := tokenAt_none hc ht
          subst this
          rw [pieces_skip hc ht] at h1
          simp only [List.cons_append, List.cons.injEq] at h1
          obtain ⟨rfl, h1⟩ := h1
          simp [Piece.text] at h2
          have ht' : ∀ y : Str, tokenAt ('^' :: y) = none := by
            intro y
            have e : matchNum ('^' :: y) = none := matchNum_of_head rfl (by decide) (by decide)
            have e2 : matchSq ('^' :: y) = none := by
              unfold matchSq; split
              · rename_i heq; simp at heq
              · rfl
            have e3 : isBare '^' = false := rfl
            simp [tokenAt, e, e2, e3]
          have hl : ∀ y : Str, lex ('^' :: y) = lex y := by
            intro y
            rw [lex_def, pieces_skip hc (ht' y), List.filterMap_cons]; rfl
          rw [hl, hl]
          exact ih p.length (by simp at hn; omega) p ps h1 h2 rfl
        | some tr =>
          obtain ⟨src, t, rest⟩ := tr
          rw [pieces_tok hc ht] at h1
          simp only [List.cons_append, List.cons.injEq] at h1
          obtain ⟨rfl, h1⟩ := h1
          simp only [List.flatMap_cons, Piece.text] at h2
          have hlen : src.length ≤ (c :: p).length := by rw [← h2]; simp
          obtain ⟨q', e1, e2, e3⟩ := tokenAt_insert c p w r src rest t x hx hw ht hlen
          have e4 : ps.flatMap Piece.text = q' := List.append_cancel_left (h2.trans e1)
          rw [List.cons_append] at e3
          rw [lex_tok hc ht, lex_tok hc e3, e2]
          have hne := (tokenAt_spec ht).2
          subst e2
          congr 1
          refine ih q'.length ?_ q' ps h1 e4 rfl
          rw [← hn, e1]
          cases src with
          | nil => simp at hne
          | cons => simp; omega

/-- The condition cannot be dropped: a line break between a number and a bracket turns the number into a string. -/
theorem C08_not_before_bracket : parseSexp k!"(at 1 2)" = .ok (.list [.str k!"at", .int 1, .int 2]) ∧
    parseSexp k!"(at 1 2\n)" = .ok (.list [.str k!"at", .int 1, .str k!"2"]) := ⟨rfl, rfl⟩

example := C08_white_space k!"(at " k!" \n\t" k!"b) 1)" '('
  ⟨[.tok k!"(" .op, .tok k!"at" (.atom (.str k!"at")), .skip ' '], .tok k!"(" .op, rfl, rfl, .inr (.inl ⟨rfl, rfl⟩)⟩ (by unfold Blank; decide)

end Kiutils
