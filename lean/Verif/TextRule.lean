import Verif.Numbers
/-!
# What texts an object may hold

The reader takes a quote after a backslash for a part of the text, if it finds a later quote that can close it (C04). So an object
cannot hold *all* texts, if it is to be read back as it was. There are two simple rules, either of which is enough:

* `TextRule.plain`, the default: no text ends in a backslash;
* `TextRule.backslash`: texts may end in a backslash, but none begins with white space or `)`, and words written without quotes
  have no quotes in them.

The conditions on objects (`Verif/Format/*.lean`), the texts of trees (C06) and the theorems about what is read and written
(C12–C21, C24, C30, C38, C40, C41, C48, C49, C61, C65–C68, C76–C79) are for any rule; where no rule is named, the default is meant.
`Verif/Props/Backslash.lean` has the second rule.
-/
namespace Kiutils

/-- A rule for the texts of an object, with what the proofs need of it. -/
class TextRule where
  /-- texts written in quotes -/
  text : Str → Prop
  /-- words written without quotes -/
  word : Str → Prop
  /-- nickname and entry name of an identifier, written as one text -/
  named : Str → Str → Prop
  /-- entry name of a unit, written as one text with the numbers of unit and style -/
  begins : Str → Prop
  /-- what is to be known of the rest of the file to end a text before it -/
  next : Str → Prop
  next_nil : next []
  next_sep : ∀ {c s}, c = '(' ∨ c = ')' ∨ isSpace c = true → next s → next (c :: s)
  next_word : ∀ {w s}, word w → bareEnd s = true → next s → next (w ++ s)
  next_text : ∀ {w s}, text w → next ('"' :: (dequote w ++ '"' :: s))
  lex_text : ∀ {w s}, text w → sqEnd s = true → next s → lex ('"' :: (dequote w ++ '"' :: s)) = .atom (.str w) :: lex s
  word_head : ∀ {w}, word w → w.head? ≠ some '"'
  word_noQuote : ∀ {w}, '"' ∉ w → word w
  text_named : ∀ {n e}, n ≠ [] → e ≠ [] → named n e → text (n ++ ':' :: e)
  begins_ne : ∀ {e}, begins e → e ≠ []
  text_unit : ∀ {e r : Str}, begins e → r ≠ [] → (e ++ r).getLast? ≠ some '\\' → text (e ++ r)

/-- The default: no text ends in a backslash. -/
@[reducible] instance TextRule.plain : TextRule where
  text s := s.getLast? ≠ some '\\'
  word s := s.head? ≠ some '"'
  named _ e := e.getLast? ≠ some '\\'
  begins e := e ≠ []
  next _ := True
  next_nil := trivial
  next_sep _ _ := trivial
  next_word _ _ _ := trivial
  next_text _ := trivial
  lex_text h hs _ := lex_quoted _ _ h hs
  word_head h := h
  word_noQuote {w} h := by
    cases w with
    | nil => simp
    | cons c w => intro e; simp at e; subst e; simp at h
  text_named {n e} _ he h := by
    cases e with
    | nil => exact absurd rfl he
    | cons c e => simpa [List.getLast?_append, List.getLast?_cons] using h
  begins_ne h := h
  text_unit _ _ h := h

instance (s : Str) : Decidable (TextRule.plain.text s) := inferInstanceAs (Decidable (_ ≠ _))
instance (s : Str) : Decidable (TextRule.plain.word s) := inferInstanceAs (Decidable (_ ≠ _))
instance (s t : Str) : Decidable (TextRule.plain.named s t) := inferInstanceAs (Decidable (_ ≠ _))
instance (s : Str) : Decidable (TextRule.plain.begins s) := inferInstanceAs (Decidable (_ ≠ _))

theorem matchSqBody_prev {p q : Char} {s : Str} (h : s.head? ≠ some '"') : matchSqBody p s = matchSqBody q s := by
  cases s with
  | nil => rfl
  | cons c s =>
    have hc : (c != '"') = true := by simpa using h
    simp only [matchSqBody, hc, if_true]

theorem matchSqBody_cons {p c : Char} {s : Str} (hc : c ≠ '"') (h : matchSqBody c s = none) : matchSqBody p (c :: s) = none := by
  simp [matchSqBody, hc, h]

/-- Texts may end in a backslash, but none begins with white space or `)`. -/
@[reducible] def TextRule.backslash : TextRule where
  text s := sqEnd s = false
  word s := '"' ∉ s
  named n _ := sqEnd n = false
  begins e := e ≠ [] ∧ sqEnd e = false
  next s := ∀ p, p ≠ '\\' → matchSqBody p s = none
  next_nil _ _ := rfl
  next_sep {c s} hc hs p hp := by
    have h : c ≠ '"' ∧ c ≠ '\\' := by
      rcases hc with rfl | rfl | hc
      · decide
      · decide
      · constructor <;> (rintro rfl; revert hc; decide)
    exact matchSqBody_cons h.1 (hs _ h.2)
  next_word {w s} hw hs h p hp := by
    rw [matchSqBody_skip w s hw]
    have hh : s.head? ≠ some '"' := fun e => by
      have := bareEnd_head hs _ e
      exact absurd this (by decide)
    rw [matchSqBody_prev (q := ' ') hh, h ' ' (by decide)]
    rfl
  next_text {w s} h p hp := by
    have hp : (p == '\\') = false := by simpa using hp
    have : sqEnd (dequote w ++ '"' :: s) = false := by
      cases w with
      | nil => rfl
      | cons c w =>
        by_cases hc : c = '"'
        · subst hc; rw [dequote_cons_quote]; rfl
        · rw [dequote_cons_ne w hc]; exact h
    rw [matchSqBody]
    simp [hp, this]
  lex_text {w s} _ hs h := by
    by_cases he : w.getLast? = some '\\'
    · have h2 := matchSqBody_backslash w '"' s hs (getLast_cons_backslash he)
      rw [h '"' (by decide)] at h2
      have := lex_quoted_of h2
      rwa [unescape_dequote] at this
    · exact lex_quoted _ _ he hs
  word_head {w} h := by
    cases w with
    | nil => simp
    | cons c w => intro e; simp at e; subst e; simp at h
  word_noQuote h := h
  text_named {n e} hn _ h := by
    cases n with
    | nil => exact absurd rfl hn
    | cons c n => exact h
  begins_ne h := h.1
  text_unit {e r} h _ _ := by
    cases e with
    | nil => exact absurd rfl h.1
    | cons c n => exact h.2

end Kiutils
