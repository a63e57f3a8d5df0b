import Verif.Sexpr
/-!
# Lemmas about the scanner
-/
namespace Kiutils

theorem NumLit.src_ne_nil_of {n : NumLit} (h : n.ip ≠ []) : n.src ≠ [] := by
  unfold NumLit.src
  intro h'
  simp at h'
  exact h h'.2.1

theorem splitSign_append (p : Char → Bool) (s : Str) : (splitSign p s).1.toList ++ (splitSign p s).2 = s := by
  cases s with
  | nil => rfl
  | cons c r => simp only [splitSign]; split <;> rfl

theorem isEmpty_not {α} {l : List α} (h : (!l.isEmpty) = true) : l ≠ [] := by
  cases l <;> simp_all

theorem matchFloat_spec {s rest : Str} {n : NumLit} (h : matchFloat s = some (n, rest)) :
    n.src ++ rest = s ∧ n.ip ≠ [] ∧ numEnd rest = true := by
  unfold matchFloat at h
  simp only at h
  split at h
  · rename_i r hr
    split at h
    · rename_i hc
      simp only [Option.some.injEq, Prod.mk.injEq] at h
      obtain ⟨rfl, rfl⟩ := h
      simp only [Bool.and_eq_true] at hc
      refine ⟨?_, isEmpty_not hc.1.1, hc.2⟩
      have h1 : (splitSign (fun c => c == '+' || c == '-') s).2 = _ := (List.takeWhile_append_dropWhile (p := isDigit)).symm
      have h2 := splitSign_append (fun c => c == '+' || c == '-') s
      rw [h1, hr] at h2
      simp only [NumLit.src]
      rw [List.append_assoc, List.append_assoc, List.cons_append, List.takeWhile_append_dropWhile]
      exact h2
    · simp at h
  · simp at h

theorem matchInt_spec {s rest : Str} {n : NumLit} (h : matchInt s = some (n, rest)) :
    n.src ++ rest = s ∧ n.ip ≠ [] ∧ numEnd rest = true := by
  unfold matchInt at h
  simp only at h
  split at h
  · rename_i hc
    simp only [Option.some.injEq, Prod.mk.injEq] at h
    obtain ⟨rfl, rfl⟩ := h
    simp only [Bool.and_eq_true] at hc
    refine ⟨?_, isEmpty_not hc.1, hc.2⟩
    have h2 := splitSign_append (fun c => c == '-') s
    simp only [NumLit.src, List.append_nil]
    rw [List.append_assoc, List.takeWhile_append_dropWhile]
    exact h2
  · simp at h

theorem matchNum_spec {s rest : Str} {n : NumLit} (h : matchNum s = some (n, rest)) :
    n.src ++ rest = s ∧ n.ip ≠ [] ∧ numEnd rest = true := by
  unfold matchNum at h
  rcases hf : matchFloat s with _ | ⟨n', rest'⟩
  · rw [hf] at h
    exact matchInt_spec (by simpa using h)
  · rw [hf] at h
    simp at h
    obtain ⟨rfl, rfl⟩ := h
    exact matchFloat_spec hf

theorem matchSqBody_spec {prev : Char} {s b rest : Str} (h : matchSqBody prev s = some (b, rest)) :
    b ++ '"' :: rest = s ∧ sqEnd rest = true := by
  induction s generalizing prev b with
  | nil => simp [matchSqBody] at h
  | cons c r ih =>
    unfold matchSqBody at h
    split at h
    · split at h
      · rename_i b' rest' hb
        simp at h
        obtain ⟨rfl, rfl⟩ := h
        have := ih hb
        simp [this]
      · simp at h
    · rename_i hc
      have hc' : c = '"' := by simpa using hc
      subst hc'
      split at h
      · split at h
        · rename_i b' rest' hb
          simp at h
          obtain ⟨rfl, rfl⟩ := h
          have := ih hb
          simp [this]
        · split at h
          · simp at h; obtain ⟨rfl, rfl⟩ := h; rename_i hs; simp [hs]
          · simp at h
      · split at h
        · simp at h; obtain ⟨rfl, rfl⟩ := h; rename_i hs; simp [hs]
        · simp at h

theorem matchSq_spec {s b rest : Str} (h : matchSq s = some (b, rest)) :
    '"' :: (b ++ '"' :: rest) = s ∧ sqEnd rest = true := by
  unfold matchSq at h
  split at h
  · have := matchSqBody_spec h
    simp [this]
  · simp at h

/-- A matched token is a non-empty prefix of the text. -/
theorem tokenAt_spec {s src rest : Str} {t : Tok} (h : tokenAt s = some (src, t, rest)) : src ++ rest = s ∧ src ≠ [] := by
  unfold tokenAt at h
  split at h
  · simp at h
  · rename_i c r
    split at h
    · rename_i hc
      simp at h hc; obtain ⟨rfl, _, rfl⟩ := h; subst hc; simp
    · split at h
      · rename_i hc
        simp at h hc; obtain ⟨rfl, _, rfl⟩ := h; subst hc; simp
      · split at h
        · rename_i n rest' hn
          simp at h
          obtain ⟨rfl, _, rfl⟩ := h
          have := matchNum_spec hn
          exact ⟨this.1, NumLit.src_ne_nil_of this.2.1⟩
        · split at h
          · rename_i b rest' hb
            simp at h
            obtain ⟨rfl, _, rfl⟩ := h
            have := matchSq_spec hb
            refine ⟨?_, by simp⟩
            rw [← this.1]; simp
          · split at h
            · rename_i hb
              simp only [Option.some.injEq, Prod.mk.injEq] at h
              obtain ⟨rfl, _, rfl⟩ := h
              refine ⟨List.takeWhile_append_dropWhile, ?_⟩
              simp [hb]
            · simp at h

theorem tokenAt_length {s src rest : Str} {t : Tok} (h : tokenAt s = some (src, t, rest)) : rest.length < s.length := by
  have ⟨h1, h2⟩ := tokenAt_spec h
  rw [← h1]
  have : 0 < src.length := List.length_pos_iff.mpr h2
  simp; omega

theorem scan_fuel (f g : Nat) (s : Str) (hf : s.length ≤ f) (hg : s.length ≤ g) : scan f s = scan g s := by
  induction f generalizing g s with
  | zero =>
    have : s = [] := by cases s <;> simp_all
    subst this
    cases g <;> rfl
  | succ f ih =>
    cases s with
    | nil => cases g <;> rfl
    | cons c r =>
      cases g with
      | zero => simp at hg
      | succ g =>
        simp only [List.length_cons] at hf hg
        unfold scan
        split
        · rw [ih g r (by omega) (by omega)]
        · rcases ht : tokenAt (c :: r) with _ | ⟨src, t, rest⟩
          · simp only []
            rw [ih g r (by omega) (by omega)]
          · simp only []
            have := tokenAt_length ht
            simp at this
            rw [ih g rest (by omega) (by omega)]

/-- All pieces of a text. -/
def pieces (s : Str) : List Piece := scan s.length s

theorem pieces_nil : pieces [] = [] := rfl

theorem pieces_space {c : Char} {r : Str} (h : isSpace c = true) : pieces (c :: r) = .skip c :: pieces r := by
  simp [pieces, scan, h]

theorem pieces_tok {c : Char} {r src rest : Str} {t : Tok} (h : isSpace c = false)
    (ht : tokenAt (c :: r) = some (src, t, rest)) : pieces (c :: r) = .tok src t :: pieces rest := by
  have := tokenAt_length ht
  simp only [List.length_cons] at this
  simp only [pieces, List.length_cons]
  rw [scan, h, ht]
  simp only [Bool.false_eq_true, if_false]
  rw [scan_fuel r.length rest.length rest (by omega) (by omega)]

theorem pieces_skip {c : Char} {r : Str} (h : isSpace c = false) (ht : tokenAt (c :: r) = none) :
    pieces (c :: r) = .skip c :: pieces r := by
  simp only [pieces, List.length_cons]
  rw [scan, h, ht]
  simp

theorem lex_def (s : Str) : lex s = (pieces s).filterMap Piece.tok? := rfl

theorem lex_nil : lex [] = [] := rfl

theorem lex_space {c : Char} {r : Str} (h : isSpace c = true) : lex (c :: r) = lex r := by
  rw [lex_def, pieces_space h, List.filterMap_cons]; rfl

theorem lex_tok {c : Char} {r src rest : Str} {t : Tok} (h : isSpace c = false)
    (ht : tokenAt (c :: r) = some (src, t, rest)) : lex (c :: r) = t :: lex rest := by
  simp [lex_def, pieces_tok h ht, Piece.tok?]

theorem lex_op (r : Str) : lex ('(' :: r) = .op :: lex r :=
  lex_tok (src := ['(']) (by rfl) rfl

theorem lex_cl (r : Str) : lex (')' :: r) = .cl :: lex r :=
  lex_tok (src := [')']) (by rfl) rfl

theorem lex_blank (r : Str) : lex (' ' :: r) = lex r := lex_space rfl
theorem lex_newline (r : Str) : lex ('\n' :: r) = lex r := lex_space rfl

theorem lex_spaces {w : Str} (h : ∀ c ∈ w, isSpace c = true) (r : Str) : lex (w ++ r) = lex r := by
  induction w with
  | nil => rfl
  | cons c w ih =>
    rw [List.cons_append, lex_space (h c (by simp)), ih (fun d hd => h d (by simp [hd]))]

theorem lex_replicate (n : Nat) (r : Str) : lex (List.replicate n ' ' ++ r) = lex r :=
  lex_spaces (by intro c hc; rw [(List.mem_replicate.mp hc).2]; rfl) r

/-! ## Quoted strings -/

theorem dequote_cons_ne {c : Char} (r : Str) (h : c ≠ '"') : dequote (c :: r) = c :: dequote r := by
  rw [dequote]
  intro h'
  exact h h'

theorem dequote_cons_quote (r : Str) : dequote ('"' :: r) = '\\' :: '"' :: dequote r := by
  rw [dequote]

theorem dequote_head (s : Str) : (dequote s).head? ≠ some '"' := by
  cases s with
  | nil => simp [dequote]
  | cons c r =>
    by_cases h : c = '"'
    · subst h; simp [dequote_cons_quote]
    · rw [dequote_cons_ne r h]; simpa using h

theorem unescape_cons {c : Char} {r : Str} (h : r.head? ≠ some '"') : unescape (c :: r) = c :: unescape r := by
  rw [unescape]
  intro r' _ hr
  subst hr
  simp at h

theorem unescape_cons_ne {c : Char} {r : Str} (h : c ≠ '\\') : unescape (c :: r) = c :: unescape r := by
  rw [unescape]
  intro r' hc
  exact absurd hc h

/-- Reading undoes the escaping of quotes, for every string. -/
theorem unescape_dequote (s : Str) : unescape (dequote s) = s := by
  induction s with
  | nil => rfl
  | cons c r ih =>
    by_cases h : c = '"'
    · subst h; rw [dequote_cons_quote, unescape, ih]
    · rw [dequote_cons_ne r h, unescape_cons (dequote_head r), ih]

/-- The scanner recognises an escaped body: `prev` is the character before it; the whole must not end in a backslash. -/
theorem matchSqBody_dequote (s : Str) (prev : Char) (r : Str) (hr : sqEnd r = true)
    (hs : (prev :: s).getLast? ≠ some '\\') : matchSqBody prev (dequote s ++ '"' :: r) = some (dequote s, r) := by
  induction s generalizing prev with
  | nil =>
    have hp : (prev == '\\') = false := by simpa using hs
    simp [dequote, matchSqBody, hp, hr]
  | cons c s ih =>
    by_cases h : c = '"'
    · subst h
      rw [dequote_cons_quote]
      simp only [List.cons_append]
      have h1 : matchSqBody '"' (dequote s ++ '"' :: r) = some (dequote s, r) :=
        ih '"' (by simpa [List.getLast?_cons] using hs)
      rw [matchSqBody]
      simp only [show ('\\' != '"') = true from rfl, if_true]
      rw [matchSqBody]
      simp [h1]
    · rw [dequote_cons_ne s h]
      simp only [List.cons_append]
      rw [matchSqBody]
      have hc : (c != '"') = true := by simpa using h
      rw [ih c (by simpa [List.getLast?_cons] using hs)]
      simp [hc]

theorem matchNum_quote (r : Str) : matchNum ('"' :: r) = none := by
  have h : isDigit '"' = false := rfl
  simp [matchNum, matchFloat, matchInt, splitSign, h]

theorem lex_quoted (s r : Str) (hs : s.getLast? ≠ some '\\') (hr : sqEnd r = true) :
    lex ('"' :: (dequote s ++ '"' :: r)) = .atom (.str s) :: lex r := by
  have hm : matchSqBody '"' (dequote s ++ '"' :: r) = some (dequote s, r) :=
    matchSqBody_dequote s '"' r hr (by
      cases s with
      | nil => simp
      | cons c s => simpa [List.getLast?_cons] using hs)
  refine lex_tok (src := '"' :: (dequote s ++ ['"'])) rfl ?_
  simp [tokenAt, matchNum_quote, matchSq, hm, unescape_dequote]

theorem matchSqBody_skip (m r : Str) (h : '"' ∉ m) (p : Char) :
    matchSqBody p (m ++ r) = (matchSqBody ((p :: m).getLast (by simp)) r).map (fun q => (m ++ q.1, q.2)) := by
  induction m generalizing p with
  | nil => simp
  | cons c m ih =>
    simp at h
    have h1 : c ≠ '"' := fun e => h.1 e.symm
    simp only [List.cons_append, matchSqBody]
    simp only [bne_iff_ne, ne_eq, h1, not_false_eq_true, if_true]
    rw [ih h.2 c]
    simp only [List.getLast_cons_cons]
    cases matchSqBody ((c :: m).getLast (by simp)) r <;> rfl

/-- The scanner in the body of a quoted text that ends in a backslash: everything hinges on what a longer match finds. -/
theorem matchSqBody_backslash (s : Str) (prev : Char) (r : Str) (hr : sqEnd r = true)
    (hs : (prev :: s).getLast? = some '\\') :
    matchSqBody prev (dequote s ++ '"' :: r) =
      ((matchSqBody '"' r).map (fun q => (dequote s ++ '"' :: q.1, q.2))).or (some (dequote s, r)) := by
  induction s generalizing prev with
  | nil =>
    have hp : prev = '\\' := by simpa using hs
    subst hp
    simp [dequote, matchSqBody, hr]
    cases matchSqBody '"' r <;> rfl
  | cons c s ih =>
    by_cases h : c = '"'
    · subst h
      rw [dequote_cons_quote]
      simp only [List.cons_append]
      have h1 := ih '"' (by simpa [List.getLast?_cons] using hs)
      rw [matchSqBody]
      simp only [show ('\\' != '"') = true from rfl, if_true]
      rw [matchSqBody]
      simp only [show ('"' != '"') = false from rfl, Bool.false_eq_true, if_false, beq_self_eq_true, if_true]
      rw [h1]
      cases matchSqBody '"' r <;> rfl
    · rw [dequote_cons_ne s h]
      simp only [List.cons_append]
      rw [matchSqBody]
      have hc : (c != '"') = true := by simpa using h
      rw [ih c (by simpa [List.getLast?_cons] using hs)]
      simp only [hc, if_true]
      cases matchSqBody '"' r <;> rfl

theorem lex_quoted_of {s r b rest : Str} (h : matchSqBody '"' (dequote s ++ '"' :: r) = some (b, rest)) :
    lex ('"' :: (dequote s ++ '"' :: r)) = .atom (.str (unescape b)) :: lex rest := by
  refine lex_tok (src := '"' :: (b ++ ['"'])) rfl ?_
  simp [tokenAt, matchNum_quote, matchSq, h]

theorem getLast_cons_backslash {s : Str} (hs : s.getLast? = some '\\') : ('"' :: s).getLast? = some '\\' := by
  cases s with
  | nil => simp at hs
  | cons c s => simpa [List.getLast?_cons] using hs

/-! ## Bare words -/

/-- Text directly after a bare word: nothing, a bracket, `^` or white space. -/
def bareEnd : Str → Bool
  | c :: _ => !isBare c
  | [] => true

theorem takeWhile_append_stop {p : Char → Bool} {w r : Str} (hw : ∀ c ∈ w, p c = true) (hr : ∀ c, r.head? = some c → p c = false) :
    (w ++ r).takeWhile p = w ∧ (w ++ r).dropWhile p = r := by
  induction w with
  | nil =>
    cases r with
    | nil => simp
    | cons c r => have := hr c rfl; simp [this]
  | cons c w ih =>
    have h1 := hw c (by simp)
    have h2 := ih (fun d hd => hw d (by simp [hd]))
    simp [h1, h2]

theorem bareEnd_head {r : Str} (h : bareEnd r = true) : ∀ c, r.head? = some c → isBare c = false := by
  intro c hc
  cases r with
  | nil => simp at hc
  | cons d r => simp at hc; subst hc; simpa [bareEnd] using h

theorem lex_bare_of_noNum (w r : Str) (hne : w ≠ []) (hw : ∀ c ∈ w, isBare c = true) (hq : w.head? ≠ some '"')
    (hn : matchNum (w ++ r) = none) (hr : bareEnd r = true) : lex (w ++ r) = .atom (.str w) :: lex r := by
  have htd := takeWhile_append_stop hw (bareEnd_head hr)
  cases w with
  | nil => simp at hne
  | cons c w =>
    have hc := hw c (by simp)
    have hc' := hc
    simp only [isBare, Bool.and_eq_true, bne_iff_ne, ne_eq, Bool.not_eq_true'] at hc'
    obtain ⟨⟨⟨h1, _⟩, h3⟩, h4⟩ := hc'
    refine lex_tok (src := c :: w) h4 ?_
    have hsq : matchSq (c :: (w ++ r)) = none := by
      unfold matchSq
      split
      · rename_i heq; simp at heq; simp [heq.1] at hq
      · rfl
    rw [List.cons_append] at hn htd
    simp [tokenAt, h1, h3, hn, hsq, hc]
    simp only [List.takeWhile_cons, hc, List.dropWhile_cons] at htd
    simpa using htd

/-- A word that cannot start a number and has no quotes. -/
def isKeyword (w : Str) : Bool :=
  match w with
  | [] => false
  | c :: _ => w.all isBare && !w.contains '"' && !isDigit c && c != '+' && c != '-'

theorem splitSign_none {p : Char → Bool} {c : Char} {r : Str} (h : p c = false) : splitSign p (c :: r) = (none, c :: r) := by
  simp [splitSign, h]

theorem matchFloat_none_of {s : Str} (h : (splitSign (fun c => c == '+' || c == '-') s).2.takeWhile isDigit = []) :
    matchFloat s = none := by
  unfold matchFloat
  simp only [h]
  split <;> simp

theorem matchInt_none_of {s : Str} (h : (splitSign (fun c => c == '-') s).2.takeWhile isDigit = []) :
    matchInt s = none := by
  unfold matchInt
  simp [h]

theorem matchNum_of_head {c : Char} {r : Str} (h1 : isDigit c = false) (h2 : c ≠ '+') (h3 : c ≠ '-') :
    matchNum (c :: r) = none := by
  have e1 : (c == '+' || c == '-') = false := by simp [h2, h3]
  have e2 : (c == '-') = false := by simp [h3]
  have f1 : matchFloat (c :: r) = none := matchFloat_none_of (by rw [splitSign_none e1]; simp [h1])
  have f2 : matchInt (c :: r) = none := matchInt_none_of (by rw [splitSign_none (p := fun c => c == '-') e2]; simp [h1])
  rw [matchNum, f1, f2]; rfl

theorem lex_keyword (w r : Str) (hw : isKeyword w = true) (hr : bareEnd r = true) :
    lex (w ++ r) = .atom (.str w) :: lex r := by
  cases w with
  | nil => simp [isKeyword] at hw
  | cons c w =>
    simp only [isKeyword, Bool.and_eq_true, bne_iff_ne, ne_eq, Bool.not_eq_true', List.all_eq_true] at hw
    obtain ⟨⟨⟨⟨h1, h2⟩, h3⟩, h4⟩, h5⟩ := hw
    exact lex_bare_of_noNum (c :: w) r (by simp) h1 (fun e => by simp at e; subst e; simp at h2) (matchNum_of_head h3 h4 h5) hr

theorem isKeyword_noQuote {w : Str} (hw : isKeyword w = true) : '"' ∉ w := by
  cases w with
  | nil => simp
  | cons c w =>
    simp only [isKeyword, Bool.and_eq_true, Bool.not_eq_true'] at hw
    intro e
    have := hw.1.1.1.2
    simp [e] at this

end Kiutils
