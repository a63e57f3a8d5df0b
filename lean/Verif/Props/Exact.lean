import Verif.Props.Numbers
import Verif.Props.TimeStamp
/-!
# C70: exactly which values survive being written

The theorems about saving and loading have conditions on the values of the attributes. Here it is shown that these conditions are
not stronger than necessary: for each of the ways in which the code writes a value – bare, between quotes with `dequote`, between
quotes without it – the values that are read back whatever quoted text follows are characterised completely.
-/
namespace Kiutils

/-! ## Specification -/

/-- `(k w "t")`: a list with the word `k`, the text `w` as it is written, and the text `t` in quotes. The white space `sep` before
the quoted text is a blank or a line break. -/
def entryText (sep : Char) (w t : Str) : Str := k!"(k " ++ (w ++ sep :: '"' :: (dequote t ++ k!"\")"))

/-- The text `w`, followed by `sep`, is read as the value `v`, whatever quoted text follows (which does not itself end in a
backslash). -/
def ReadAs (sep : Char) (w : Str) (v : Val) : Prop :=
  ∀ t : Str, t.getLast? ≠ some '\\' → parseSexp (entryText sep w t) = .ok (.list [.str k!"k", v, .str t])

/-- A number as it is written in files: `[+-]?\d+\.\d+` or `-?\d+`. -/
def IsNumeral (s : Str) : Prop := ∃ n : NumLit, n.Wf ∧ n.src = s

/-- The words that can be written without quotes at the end of a line: not empty; no brackets, `^` or white space; and not beginning
with a quote – unless there is another quote, not behind a backslash and not at the end, because of which the reader does not take
the first one for the beginning of a quoted text. -/
def LineSafe (s : Str) : Prop :=
  s ≠ [] ∧ (∀ c ∈ s, c ≠ '(' ∧ c ≠ ')' ∧ c ≠ '^' ∧ isSpace c = false) ∧
  (s.head? ≠ some '"' ∨ ∃ a d b, s = '"' :: (a ++ '"' :: d :: b) ∧ a.getLast? ≠ some '\\')

/-- The words that can be written without quotes anywhere: those that are not a numeral besides. -/
def WordSafe (s : Str) : Prop := LineSafe s ∧ ¬ IsNumeral s

/-- The values that can be written without quotes: ints `± m * 2 ^ e` with `m < 2 ^ 53`, floats that are zero or from 0.0001 up to
1e16, safe words; no lists. -/
def BareSafe : Val → Prop
  | .int n => ∃ m e : Nat, m < 2 ^ 53 ∧ e ≤ 971 ∧ n.natAbs = m * 2 ^ e
  | .flt f => f.InRange
  | .str s => WordSafe s
  | .list _ => False

/-! ## The stack machine -/

theorem run_first {ts : List Tok} {st : List (List Val)} {out : List Val} {v w : Val} {o : List Val}
    (hb : (out :: st).getLast? = some (v :: o)) (h : run st out ts = .ok w) : w = v := by
  induction ts generalizing st out o with
  | nil =>
    cases st with
    | nil => simp at hb; subst hb; simpa [run] using h.symm
    | cons a st => simp [run] at h
  | cons t ts ih =>
    cases t with
    | op => rw [run] at h; exact ih (by simpa using hb) h
    | atom a =>
      rw [run] at h
      cases st with
      | nil => simp at hb; subst hb; exact ih (o := o ++ [a]) (by simp) h
      | cons b st => exact ih (o := o) (by simpa using hb) h
    | cl =>
      cases st with
      | nil => simp [run] at h
      | cons b st =>
        rw [run] at h
        cases st with
        | nil => simp at hb; subst hb; exact ih (o := o ++ [.list out]) (by simp) h
        | cons c st => exact ih (o := o) (by simpa using hb) h

/-- While a list on the top level is read, its entries so far stay; while something in it is read, its next entry is a list. -/
theorem run_level {ts : List Tok} {st : List (List Val)} {out : List Val} {pre : List (List Val)} {o : List Val} {v : Val}
    (hb : out :: st = pre ++ [o, []]) (h : run st out ts = .ok v) :
    ∃ l, v = .list (o ++ l) ∧ (pre ≠ [] → ∃ x l', l = .list x :: l') := by
  induction ts generalizing st out pre o with
  | nil =>
    cases st with
    | nil => cases pre with
      | nil => simp at hb
      | cons p pre => cases pre <;> simp at hb
    | cons a st => simp [run] at h
  | cons t ts ih =>
    cases t with
    | op =>
      rw [run] at h
      obtain ⟨l, h1, h2⟩ := ih (pre := [] :: pre) (o := o) (by rw [hb]; rfl) h
      exact ⟨l, h1, fun _ => h2 (by simp)⟩
    | atom a =>
      rw [run] at h
      cases pre with
      | nil =>
        simp at hb; obtain ⟨rfl, rfl⟩ := hb
        obtain ⟨l, h1, _⟩ := ih (pre := []) (o := out ++ [a]) rfl h
        exact ⟨a :: l, by simpa using h1, by simp⟩
      | cons p pre =>
        simp at hb; obtain ⟨rfl, rfl⟩ := hb
        obtain ⟨l, h1, h2⟩ := ih (pre := (out ++ [a]) :: pre) (o := o) (by simp) h
        exact ⟨l, h1, fun _ => h2 (by simp)⟩
    | cl =>
      cases pre with
      | nil =>
        simp at hb; obtain ⟨rfl, rfl⟩ := hb
        rw [run] at h
        have := run_first (v := .list out) (o := []) (by simp) h
        exact ⟨[], by simpa using this, by simp⟩
      | cons p pre =>
        simp at hb; obtain ⟨rfl, rfl⟩ := hb
        cases pre with
        | nil =>
          rw [List.nil_append, run] at h
          obtain ⟨l, h1, _⟩ := ih (pre := []) (o := o ++ [.list out]) rfl h
          exact ⟨.list out :: l, by simpa using h1, fun _ => ⟨_, _, rfl⟩⟩
        | cons q pre =>
          rw [List.cons_append, run] at h
          obtain ⟨l, h1, h2⟩ := ih (pre := (q ++ [.list out]) :: pre) (o := o) (by simp) h
          exact ⟨l, h1, fun _ => h2 (by simp)⟩

/-- If the next entry of a list is read as an atom, the next token is that atom. -/
theorem run_next {ts : List Tok} {o l : List Val} {a : Val} (ha : ∀ x, a ≠ .list x) (h : run [[]] o ts = .ok (.list (o ++ a :: l))) :
    ∃ ts', ts = .atom a :: ts' ∧ run [[]] (o ++ [a]) ts' = .ok (.list (o ++ a :: l)) := by
  cases ts with
  | nil => simp [run] at h
  | cons t ts =>
    cases t with
    | op =>
      rw [run] at h
      obtain ⟨l', h1, h2⟩ := run_level (pre := [[]]) (o := o) rfl h
      obtain ⟨x, l'', rfl⟩ := h2 (by simp)
      simp at h1
      exact absurd h1.1 (ha x)
    | cl =>
      rw [run] at h
      have := run_first (v := .list o) (o := []) (by simp) h
      simp at this
    | atom b =>
      rw [run] at h
      obtain ⟨l', h1, _⟩ := run_level (pre := []) (o := o ++ [b]) rfl h
      simp at h1
      obtain ⟨rfl, _⟩ := h1
      exact ⟨ts, rfl, h⟩

/-- If a list is read as `o` and nothing else follows in it, the next token is `)`. -/
theorem run_close {ts : List Tok} {o : List Val} (h : run [[]] o ts = .ok (.list o)) : ∃ ts', ts = .cl :: ts' := by
  cases ts with
  | nil => simp [run] at h
  | cons t ts =>
    cases t with
    | cl => exact ⟨ts, rfl⟩
    | op =>
      rw [run] at h
      obtain ⟨l', h1, h2⟩ := run_level (pre := [[]]) (o := o) rfl h
      obtain ⟨x, l'', rfl⟩ := h2 (by simp)
      simp at h1
    | atom b =>
      rw [run] at h
      obtain ⟨l', h1, _⟩ := run_level (pre := []) (o := o ++ [b]) rfl h
      simp at h1

/-! ## Tokens -/

/-- The text in front of the first token is white space and `^`. -/
theorem lex_cons {s : Str} {t : Tok} {ts : List Tok} (h : lex s = t :: ts) :
    ∃ x c r src rest, s = x ++ c :: r ∧ (∀ d ∈ x, isSpace d = true ∨ d = '^') ∧ isSpace c = false ∧
      tokenAt (c :: r) = some (src, t, rest) ∧ ts = lex rest := by
  induction s using pieces_induct with
  | nil => simp [lex_nil] at h
  | space c r hs ih =>
    rw [lex_space hs] at h
    obtain ⟨x, c', r', src, rest, h1, h2, h3⟩ := ih h
    refine ⟨c :: x, c', r', src, rest, by simp [h1], ?_, h3⟩
    simpa [hs] using h2
  | tok c r src t' rest hs ht ih =>
    rw [lex_tok hs ht] at h
    simp at h
    obtain ⟨rfl, rfl⟩ := h
    exact ⟨[], c, r, src, rest, rfl, by simp, hs, ht, rfl⟩
  | skip c r hs ht ih =>
    rw [lex_def, pieces_skip hs ht] at h
    obtain ⟨x, c', r', src, rest, h1, h2, h3⟩ := ih (by rw [lex_def, ← h]; rfl)
    refine ⟨c :: x, c', r', src, rest, by simp [h1], ?_, h3⟩
    simpa [tokenAt_none hs ht] using h2

theorem lex_entry (sep : Char) (w t : Str) :
    lex (entryText sep w t) = .op :: .atom (.str k!"k") :: lex (w ++ sep :: '"' :: (dequote t ++ k!"\")")) := by
  show lex ('(' :: (k!"k" ++ (' ' :: (w ++ _ :: _ :: _)))) = _
  rw [lex_op, lex_keyword _ _ rfl rfl, lex_blank]

/-- What a text that is read as an atom looks like to the scanner. -/
theorem ReadAs.tokens {sep : Char} {w : Str} {v : Val} (hv : ∀ x, v ≠ .list x) (h : ReadAs sep w v) (t : Str)
    (ht : t.getLast? ≠ some '\\') :
    ∃ ts, lex (w ++ sep :: '"' :: (dequote t ++ k!"\")")) = .atom v :: .atom (.str t) :: .cl :: ts := by
  have h1 := h t ht
  rw [parseSexp, lex_entry, run, run] at h1
  obtain ⟨ts, h2, h3⟩ := run_next (o := [.str k!"k"]) hv h1
  obtain ⟨ts', rfl, h4⟩ := run_next (o := [.str k!"k", v]) (by simp) h3
  obtain ⟨ts'', rfl⟩ := run_close (o := [.str k!"k", v, .str t]) h4
  exact ⟨ts'', h2⟩

theorem ReadAs.of_lex {sep : Char} {w : Str} {v : Val} (hs : isSpace sep = true)
    (h : ∀ r : Str, lex (w ++ sep :: r) = .atom v :: lex (sep :: r)) : ReadAs sep w v := by
  intro t ht
  rw [parseSexp, lex_entry, h, lex_space hs]
  show run [] [] (_ :: _ :: _ :: lex ('"' :: (dequote t ++ '"' :: ')' :: []))) = _
  rw [C03_quoted_text t [] ')' ht (.inl rfl), lex_cl]
  rfl

theorem canon_ne_str (f : F64) (s : Str) : Val.canon (.flt f) ≠ .str s := by
  simp only [Val.canon]; split <;> simp

theorem Lexeme.of_str {src s : Str} (h : Lexeme src (.atom (.str s))) :
    (src = s ∧ s ≠ [] ∧ ∀ c ∈ s, c ≠ '(' ∧ c ≠ ')' ∧ c ≠ '^' ∧ isSpace c = false) ∨
    ∃ b, src = '"' :: (b ++ ['"']) ∧ s = unescape b := by
  generalize hT : Tok.atom (.str s) = T at h
  cases h with
  | op => cases hT
  | cl => cases hT
  | num n hn => exact absurd (Tok.atom.inj hT).symm (canon_ne_str _ _)
  | quoted b => exact .inr ⟨b, rfl, by simpa using hT⟩
  | bare w h1 h2 => simp at hT; subst hT; exact .inl ⟨rfl, h1, h2⟩

theorem unescape_length (b : Str) : (unescape b).length ≤ b.length := by
  induction b using unescape.induct with
  | case1 r ih => rw [unescape]; simp; omega
  | case2 c r h ih =>
    rw [unescape]
    · simp; omega
    · exact h
  | case3 => simp [unescape]

/-- The first token when an empty text follows. -/
theorem ReadAs.first {sep : Char} {w s : Str} (h : ReadAs sep w (.str s)) :
    ∃ x c r src rest, w ++ sep :: k!"\"\")" = x ++ c :: r ∧ (∀ d ∈ x, isSpace d = true ∨ d = '^') ∧ isSpace c = false ∧
      tokenAt (c :: r) = some (src, .atom (.str s), rest) ∧ x.length + src.length ≤ w.length + 1 := by
  obtain ⟨ts, h1⟩ := h.tokens (by simp) [] (by simp)
  obtain ⟨x, c, r, src, rest, e1, e2, e3, e4, e5⟩ := lex_cons h1
  obtain ⟨x', c', r', src', rest', f1, f2, f3, f4, f5⟩ := lex_cons e5.symm
  obtain ⟨x'', c'', r'', src'', rest'', g1, g2, g3, g4, g5⟩ := lex_cons f5.symm
  refine ⟨x, c, r, src, rest, e1, e2, e3, e4, ?_⟩
  have l1 := congrArg List.length e1
  have l2 := congrArg List.length (tokenAt_spec e4).1
  have l3 := congrArg List.length f1
  have l4 := congrArg List.length (tokenAt_spec f4).1
  have l5 := congrArg List.length g1
  have l6 : 2 ≤ src'.length := by
    rcases (tokenAt_lexeme f4).of_str with ⟨_, h, _⟩ | ⟨b, rfl, _⟩
    · exact absurd rfl h
    · simp
  simp [dequote] at l1 l2 l3 l4 l5
  omega

theorem isBare_iff {c : Char} : isBare c = true ↔ c ≠ '(' ∧ c ≠ ')' ∧ c ≠ '^' ∧ isSpace c = false := by
  simp [isBare]; grind

/-! ## Words -/

/-- A quote in a word that is neither behind a backslash nor at the end keeps the reader from taking the word for a quoted text. -/
theorem matchSqBody_inner (a y : Str) (d p : Char) (hl : (p :: a).getLast? ≠ some '\\') (hd : sqEnd (d :: y) = false)
    (ha : ∀ c ∈ a, isBare c = true) : matchSqBody p (a ++ '"' :: d :: y) = none := by
  induction a generalizing p with
  | nil =>
    have : (p == '\\') = false := by simpa using hl
    simp [matchSqBody, this, hd]
  | cons c a ih =>
    have h1 := ih c (by simpa [List.getLast?_cons_cons] using hl) (fun x hx => ha x (by simp [hx]))
    have h2 : sqEnd (a ++ '"' :: d :: y) = false := by
      cases a with
      | nil => rfl
      | cons b a =>
        have := isBare_iff.1 (ha b (by simp))
        simp [sqEnd, this]
    simp [matchSqBody, h1, h2]

/-- If all quotes of a word are behind backslashes or at the end, and a blank, a quote and a blank follow, there is a match. -/
theorem matchSqBody_outer (s r : Str) (sep p : Char) (hs : isSpace sep = true)
    (h : ∀ a d b, s = a ++ '"' :: d :: b → (p :: a).getLast? = some '\\') :
    ∃ b rest, matchSqBody p (s ++ sep :: '"' :: ' ' :: r) = some (b, rest) ∧ (b = s ++ [sep] ∨ s = b ++ ['"']) := by
  have hq : sep ≠ '"' := by rintro rfl; exact absurd hs (by decide)
  have hb : sep ≠ '\\' := by rintro rfl; exact absurd hs (by decide)
  induction s generalizing p with
  | nil =>
    refine ⟨[sep], ' ' :: r, ?_, .inl rfl⟩
    simp [matchSqBody, hq, hb, show sqEnd (' ' :: r) = true from rfl]
  | cons c s ih =>
    obtain ⟨b, rest, h1, h2⟩ := ih c (fun a d b e => by simpa [List.getLast?_cons_cons] using h (c :: a) d b (by rw [e]; rfl))
    by_cases hc : c = '"'
    · subst hc
      by_cases hp : p = '\\'
      · subst hp
        refine ⟨'"' :: b, rest, ?_, ?_⟩
        · simp [matchSqBody, h1]
        · rcases h2 with rfl | rfl <;> simp
      · cases s with
        | nil =>
          refine ⟨[], sep :: '"' :: ' ' :: r, ?_, .inr rfl⟩
          have : sqEnd (sep :: '"' :: ' ' :: r) = true := by simp [sqEnd, hs]
          simp [matchSqBody, hp, this]
        | cons d s =>
          have := h [] d s rfl
          simp [hp] at this
    · refine ⟨c :: b, rest, ?_, ?_⟩
      · simp [matchSqBody, hc, h1]
      · rcases h2 with rfl | rfl <;> simp

theorem unescape_eq_of_length {b : Str} (h : (unescape b).length = b.length) : unescape b = b := by
  induction b using unescape.induct with
  | case1 r ih =>
    have := unescape_length r
    rw [unescape] at h; simp at h; omega
  | case2 c r hc ih =>
    rw [unescape] at h ⊢
    · rw [ih (by simpa using h)]
    · exact hc
    · exact hc
  | case3 => rfl

theorem LineSafe.sq {s r : Str} (h : LineSafe s) : matchSq (s ++ r) = none := by
  obtain ⟨hne, hb, hq⟩ := h
  rcases hq with hq | ⟨a, d, b, rfl, hl⟩
  · cases s with
    | nil => exact absurd rfl hne
    | cons c s =>
      unfold matchSq
      split
      · rename_i heq; simp at heq; simp [heq.1] at hq
      · rfl
  · show matchSqBody '"' ((a ++ '"' :: d :: b) ++ r) = none
    rw [List.append_assoc]
    refine matchSqBody_inner a (b ++ r) d '"' ?_ ?_ (fun c hc => isBare_iff.2 (hb c (by simp [hc])))
    · cases a with
      | nil => simp
      | cons c a => simpa [List.getLast?_cons_cons] using hl
    · have := hb d (by simp)
      simp [sqEnd, this]

theorem lex_safe {s r : Str} (h : LineSafe s) (hn : matchNum (s ++ r) = none) (hr : bareEnd r = true) :
    lex (s ++ r) = .atom (.str s) :: lex r := by
  have hb : ∀ c ∈ s, isBare c = true := fun c hc => isBare_iff.2 (h.2.1 c hc)
  have htd := takeWhile_append_stop hb (bareEnd_head hr)
  have hsq := h.sq (r := r)
  cases s with
  | nil => exact absurd rfl h.1
  | cons c w =>
    obtain ⟨h1, h3, _, h4⟩ := h.2.1 c (by simp)
    have hc := hb c (by simp)
    refine lex_tok (src := c :: w) h4 ?_
    rw [List.cons_append] at hn htd hsq
    simp [tokenAt, h1, h3, hn, hsq, hc]
    simp only [List.takeWhile_cons, hc, List.dropWhile_cons] at htd
    simpa using htd

theorem not_looksNumeric {s : Str} (hb : ∀ c ∈ s, isBare c = true) (h : ¬ IsNumeral s) : looksNumeric s = false := by
  unfold looksNumeric
  rcases hm : matchNum (s ++ [' ']) with _ | ⟨n, rest⟩
  · rfl
  · have h1 := matchNum_spec hm
    have h2 := matchNum_wf hm
    exact absurd ⟨n, h2, (bare_cut h1.1 (NumLit.src_bare h2) hb (bareEnd_of_numEnd h1.2.2) rfl).1⟩ h

theorem not_isNumeral {s : Str} (h : looksNumeric s = false) : ¬ IsNumeral s := by
  rintro ⟨n, hn, rfl⟩
  rw [looksNumeric, matchNum_src hn rfl] at h
  cases h

/-- A word that is read back has the form of a word. -/
theorem ReadAs.word {sep : Char} (hs : isSpace sep = true) {s : Str} (h : ReadAs sep s (.str s)) : LineSafe s := by
  obtain ⟨x, c, r, src, rest, e1, e2, e3, e4, e5⟩ := h.first
  rcases (tokenAt_lexeme e4).of_str with ⟨rfl, hne, hb⟩ | ⟨b, rfl, hu⟩
  swap
  · have := unescape_length b
    rw [← hu] at this
    simp at e5; omega
  refine ⟨hne, hb, ?_⟩
  by_cases hq : src.head? = some '"'
  swap
  · exact .inl hq
  refine .inr (Classical.byContradiction fun hno => ?_)
  obtain ⟨s', rfl⟩ : ∃ s', src = '"' :: s' := by
    cases src with
    | nil => simp at hq
    | cons a s' => simp at hq; exact ⟨s', by rw [hq]⟩
  obtain ⟨ts, ht⟩ := h.tokens (by simp) [' '] (by decide)
  obtain ⟨b, rest', hm, hb'⟩ := matchSqBody_outer s' k!"\")" sep '"' hs (fun a d b e => by
    subst e
    have : a.getLast? = some '\\' := Classical.byContradiction fun hl => hno ⟨a, d, b, rfl, hl⟩
    cases a with
    | nil => simp at this
    | cons c a => simpa [List.getLast?_cons_cons] using this)
  have ht' : tokenAt ('"' :: s' ++ sep :: '"' :: (dequote [' '] ++ k!"\")")) =
      some ('"' :: (b ++ ['"']), .atom (.str (unescape b)), rest') := by
    show tokenAt ('"' :: (s' ++ sep :: '"' :: ' ' :: k!"\")")) = _
    simp [tokenAt, matchNum_quote, matchSq, hm]
  have hl := (lex_tok (rfl : isSpace '"' = false) ht').symm.trans ht
  replace hl := hl.symm
  simp only [List.cons.injEq, Tok.atom.injEq, Val.str.injEq] at hl
  have hlen := unescape_length b
  rcases hb' with rfl | rfl
  · have h1 : (unescape (s' ++ [sep])).length = (s' ++ [sep]).length := by rw [← hl.1]; simp
    have h2 := unescape_eq_of_length h1
    rw [← hl.1] at h2
    have h3 := hb sep (by rw [h2]; simp)
    rw [hs] at h3
    exact absurd h3.2.2.2 (by simp)
  · rw [← hl.1] at hlen
    simp at hlen; omega

/-! ## Quoted texts -/

/-- The body of a quoted text in which nothing is escaped has no quotes. -/
theorem matchSqBody_noQuote {s b rest : Str} {p : Char} (h : matchSqBody p s = some (b, rest)) (hu : unescape b = b)
    (hp : p = '\\' → b.head? ≠ some '"') : '"' ∉ b := by
  induction s generalizing p b with
  | nil => simp [matchSqBody] at h
  | cons c s ih =>
    have key : ∀ b', matchSqBody c s = some (b', rest) → unescape (c :: b') = c :: b' → '"' ∉ b' := by
      intro b' hb' hu'
      refine ih hb' ?_ ?_
      · by_cases hc : c = '\\' ∧ b'.head? = some '"'
        · obtain ⟨rfl, hq⟩ := hc
          cases b' with
          | nil => simp at hq
          | cons q b' =>
            simp at hq; subst hq
            have := unescape_length b'
            rw [unescape] at hu'
            simp at hu'
        · rw [not_and_or] at hc
          rcases hc with hc | hc
          · rw [unescape_cons_ne hc] at hu'; simpa using hu'
          · rw [unescape_cons hc] at hu'; simpa using hu'
      · rintro rfl hq
        cases b' with
        | nil => simp at hq
        | cons q b' =>
          simp at hq; subst hq
          rw [unescape] at hu'
          simp at hu'
    rw [matchSqBody] at h
    by_cases hc : c = '"'
    · subst hc
      simp only [show ('"' != '"') = false from rfl, Bool.false_eq_true, if_false] at h
      split at h
      · rename_i hp'
        split at h
        · simp at h; obtain ⟨rfl, rfl⟩ := h
          exact absurd rfl (hp (by simpa using hp'))
        · split at h <;> simp at h
          rw [h.1]; simp
      · split at h <;> simp at h
        rw [h.1]; simp
    · simp only [show (c != '"') = true by simpa using hc, if_true] at h
      split at h
      · rename_i b' rest' hm
        simp at h; obtain ⟨rfl, rfl⟩ := h
        have := key b' hm hu
        simp [this]; exact fun e => hc e.symm
      · simp at h

theorem ReadAs.not_backslash {sep : Char} (hs : isSpace sep = true) {s : Str}
    (h : ReadAs sep ('"' :: (dequote s ++ ['"'])) (.str s)) : s.getLast? ≠ some '\\' := by
  intro hl
  obtain ⟨ts, ht⟩ := h.tokens (by simp) [' '] (by decide)
  have h1 := C04_backslash_merges s [] k!"\")" sep ' ' hl (by simp) (.inr hs) (.inr rfl)
    (by rintro e; simp at e; subst e; exact absurd hs (by decide))
  have h2 : lex ('"' :: (dequote s ++ '"' :: sep :: ([] ++ '"' :: ' ' :: k!"\")"))) = .atom (.str s) :: .atom (.str [' ']) :: .cl :: ts := by
    rw [← ht]; simp [dequote]
  rw [h1] at h2
  simp only [List.cons.injEq, Tok.atom.injEq, Val.str.injEq] at h2
  rw [← h2.1, unescape_cons (by simp)] at hl
  simp [unescape] at hl
  subst hl
  exact absurd hs (by decide)

/-! ## C70 -/

/-- C70, values without quotes: a value (a float being a double) written with `str` and followed by a blank is read back as the same
value – an integral float as the equal int – if and only if it is an int `± m * 2 ^ e` with `m < 2 ^ 53`, a float that is zero or from
0.0001 up to 1e16, or a safe word. -/
theorem C70_bare (v : Val) (hv : ∀ f, v = .flt f → f.Valid) : ReadAs ' ' v.pyStr v.canon ↔ BareSafe v := by
  cases v with
  | int n =>
    show ReadAs ' ' (intStr n) (.int n) ↔ _
    rw [BareSafe, ← exactInt_iff]
    constructor
    · intro h
      obtain ⟨ts, h1⟩ := h.tokens (by simp) [] (by simp)
      rw [C05_int_general n _ ' ' (.inl rfl)] at h1
      simp only [List.cons.injEq, Tok.atom.injEq] at h1
      exact h1.1
    · intro h
      refine .of_lex rfl fun r => ?_
      rw [C05_int_general n _ ' ' (.inl rfl), show Val.canon _ = Val.int n from h]
  | flt f =>
    show ReadAs ' ' f.repr _ ↔ f.InRange
    constructor
    · intro h
      refine Classical.byContradiction fun hr => ?_
      obtain ⟨ts, h1⟩ := h.tokens (by intro x; simp only [Val.canon]; split <;> simp) [] (by simp)
      rw [C05_float_outside f _ ' ' (hv f rfl) hr (.inl rfl)] at h1
      simp only [List.cons.injEq, Tok.atom.injEq] at h1
      exact canon_ne_str _ _ h1.1.symm
    · intro h
      exact .of_lex rfl fun r => C05_float_range f r ' ' (hv f rfl) h (.inl rfl)
  | str s =>
    show ReadAs ' ' s (.str s) ↔ WordSafe s
    constructor
    · intro h
      refine ⟨h.word rfl, ?_⟩
      rintro ⟨n, hn, rfl⟩
      obtain ⟨ts, h1⟩ := h.tokens (by simp) [] (by simp)
      rw [lex_num hn rfl] at h1
      simp only [List.cons.injEq, Tok.atom.injEq] at h1
      exact canon_ne_str _ _ h1.1
    · intro h
      have hb : ∀ c ∈ s, isBare c = true := fun c hc => isBare_iff.2 (h.1.2.1 c hc)
      exact .of_lex rfl fun r => lex_safe h.1 (matchNum_word hb (not_looksNumeric hb h.2) rfl) rfl
  | list l =>
    refine ⟨fun h => ?_, False.elim⟩
    have h1 := h [] (by simp)
    rw [parseSexp, lex_entry] at h1
    obtain ⟨w, rest, hw⟩ : ∃ w rest, lex ((Val.list l).pyStr ++ ' ' :: '"' :: (dequote [] ++ k!"\")")) = .atom (.str w) :: lex rest := by
      rw [Val.pyStr, List.cons_append]
      refine ⟨('[' :: (Val.pyStrL l ++ [']'] ++ ' ' :: '"' :: (dequote [] ++ k!"\")"))).takeWhile isBare,
        ('[' :: (Val.pyStrL l ++ [']'] ++ ' ' :: '"' :: (dequote [] ++ k!"\")"))).dropWhile isBare,
        lex_tok (src := ('[' :: (Val.pyStrL l ++ [']'] ++ ' ' :: '"' :: (dequote [] ++ k!"\")"))).takeWhile isBare) rfl ?_⟩
      rw [tokenAt, matchNum_of_head (by decide) (by decide) (by decide)]
      rfl
    rw [hw, run, run, run] at h1
    obtain ⟨l', h2, _⟩ := run_level (pre := []) (o := [.str k!"k", .str w]) rfl h1
    simp [Val.canon] at h2

example : BareSafe (.int (-9007199254740994)) := ⟨4503599627370497, 1, by decide, by decide, by decide⟩
example : BareSafe (.flt (.fin false 5764607523034235 (-51))) := ⟨⟨_, _, _, rfl⟩, .inr (by norm_num [F64.absVal])⟩
example : ∀ f, Val.flt (.fin false 5764607523034235 (-51)) = .flt f → f.Valid := by
  rintro f h; cases h; exact ⟨by decide, by decide, by decide, .inl (by decide)⟩
example : BareSafe (.str k!"F.Cu") := ⟨⟨by decide, by decide, .inl (by decide)⟩, not_isNumeral (by decide)⟩
/-- A word that begins with a quote and is safe nevertheless. -/
example : parseSexp k!"(k \"a\"b \"t\")" = .ok (.list [.str k!"k", .str k!"\"a\"b", .str k!"t"]) := rfl
example : LineSafe k!"\"a\"b" := ⟨by decide, by decide, .inr ⟨k!"a", 'b', [], rfl, by decide⟩⟩
/-- A word that is not: it is read as written before some texts, but not before others. -/
example : parseSexp k!"(k \"a \"t\")" = .ok (.list [.str k!"k", .str k!"\"a", .str k!"t"]) := rfl
example : parseSexp k!"(k \"a \" t \")" = .ok (.list [.str k!"k", .str k!"a ", .str k!"t", .str k!"\""]) := rfl

/-- C70, words at the end of a line: there a word may have the form of a number. -/
theorem C70_line (s : Str) : ReadAs '\n' s (.str s) ↔ LineSafe s := by
  refine ⟨fun h => h.word rfl, fun h => .of_lex rfl fun r => lex_safe h ?_ rfl⟩
  have hb : ∀ c ∈ s, isBare c = true := fun c hc => isBare_iff.2 (h.2.1 c hc)
  rcases hm : matchNum (s ++ '\n' :: r) with _ | ⟨n, rest⟩
  · rfl
  · have h1 := matchNum_spec hm
    have h2 := matchNum_wf hm
    have := bare_cut h1.1 (NumLit.src_bare h2) hb (bareEnd_of_numEnd h1.2.2) rfl
    rw [this.2] at h1
    exact absurd h1.2.2 (by simp [numEnd])

example : LineSafe k!"007" := ⟨by decide, by decide, .inl (by decide)⟩

/-- C70, texts in quotes written with `dequote`: read back whatever follows if and only if they do not end in a backslash. -/
theorem C70_quoted (sep : Char) (hs : isSpace sep = true) (s : Str) :
    ReadAs sep ('"' :: (dequote s ++ ['"'])) (.str s) ↔ s.getLast? ≠ some '\\' := by
  refine ⟨fun h => h.not_backslash hs, fun h => .of_lex hs fun r => ?_⟩
  rw [← C03_quoted_text s r sep h (.inr hs)]
  simp

example : k!"a \"b\" \\ (c".getLast? ≠ some '\\' := by decide

/-- C70, texts in quotes written without `dequote`: read back whatever follows if and only if they have no quotes and do not end in a
backslash. -/
theorem C70_raw (sep : Char) (hs : isSpace sep = true) (s : Str) :
    ReadAs sep ('"' :: (s ++ ['"'])) (.str s) ↔ '"' ∉ s ∧ s.getLast? ≠ some '\\' := by
  constructor
  · intro h
    have hq : '"' ∉ s := by
      obtain ⟨x, c, r, src, rest, e1, e2, e3, e4, e5⟩ := h.first
      cases x with
      | cons a x =>
        simp at e1
        obtain ⟨rfl, _⟩ := e1
        exact absurd (e2 '"' (by simp)) (by decide)
      | nil =>
        simp only [List.nil_append, List.cons_append, List.cons.injEq] at e1
        obtain ⟨rfl, rfl⟩ := e1
        simp only [tokenAt, matchNum_quote, matchSq] at e4
        simp only [show ('"' == '(') = false from rfl, show ('"' == ')') = false from rfl, Bool.false_eq_true, if_false] at e4
        rcases hm : matchSqBody '"' (s ++ ['"'] ++ sep :: k!"\"\")") with _ | ⟨b, rest'⟩
        · rw [hm] at e4
          simp only [show isBare '"' = true from rfl, if_true, Option.some.injEq, Prod.mk.injEq, Tok.atom.injEq, Val.str.injEq] at e4
          obtain ⟨_, e4, _⟩ := e4
          have hb : ∀ c ∈ '"' :: (s ++ ['"']), isBare c = true := by
            intro c hc
            simp at hc
            rcases hc with rfl | hc | rfl
            · rfl
            · rw [← e4] at hc; exact mem_takeWhile c hc
            · rfl
          have h1 := (takeWhile_append_stop (r := sep :: k!"\"\")") hb (by rintro d hd; simp at hd; subst hd; simp [isBare, hs])).1
          rw [List.cons_append, e4] at h1
          have := congrArg List.length h1
          simp at this
          omega
        · rw [hm] at e4
          simp only [Option.some.injEq, Prod.mk.injEq, Tok.atom.injEq, Val.str.injEq] at e4
          obtain ⟨rfl, e4, rfl⟩ := e4
          have h1 := matchSqBody_spec hm
          have h2 := unescape_length b
          rw [e4] at h2
          simp at e5
          have h3 : b = s := by
            rw [List.append_assoc] at h1
            by_cases hl : b.length = s.length
            · exact (List.append_inj h1.1 hl).1
            · have h5 : b ++ ('"' :: rest') = (s ++ ['"']) ++ sep :: k!"\"\")" := by simpa using h1.1
              have h6 := (List.append_inj h5 (by simp; omega)).2
              simp at h6
              rw [← h6.1] at hs
              exact absurd hs (by decide)
          subst h3
          exact matchSqBody_noQuote hm e4 (by simp)
    refine ⟨hq, ?_⟩
    exact ReadAs.not_backslash hs (by rw [dequote_noQuote s hq]; exact h)
  · rintro ⟨hq, hl⟩
    have := (C70_quoted sep hs s).2 hl
    rwa [dequote_noQuote s hq] at this
example : '"' ∉ k!"F.Cu \\ (a" ∧ k!"F.Cu \\ (a".getLast? ≠ some '\\' := by decide

end Kiutils
