import Verif.Props.FileFormat
/-!
# Texts of trees

The theorems about files in the documented format (C49, C61, C65, C66) speak of all texts of the tree of an object. Here one such text
is written down for every tree, so that the examples of these theorems can name a file.
-/
namespace Kiutils

/-- Python's text of a float has digits before and after the point, and is read as the same float. -/
def plainFloat (f : F64) : Bool :=
  let neg := f.repr.head? == some '-'
  let r := if neg then f.repr.drop 1 else f.repr
  let ip := r.takeWhile isDigit
  let fp := (r.dropWhile isDigit).drop 1
  !ip.isEmpty && !fp.isEmpty && fp.all isDigit && (f.repr == (if neg then ['-'] else []) ++ ip ++ '.' :: fp) &&
    decide (F64.ofDecimal neg ip fp = f) && (match Val.canon (.flt f) with | .flt g => decide (g = f) | _ => false)

mutual
/-- A text of a tree in one line: strings in quotes, one blank before every child. -/
def spell [TextRule] [DecidablePred TextRule.text] : Val → Option Str
  | .int n => if n.natAbs ≤ 2 ^ 53 then some (intStr n) else none
  | .flt f => if plainFloat f then some f.repr else none
  | .str s => if TextRule.text s then some ('"' :: (dequote s ++ ['"'])) else none
  | .list l => match spellSeq l with
    | some b => some ('(' :: (b ++ [')']))
    | none => none
def spellSeq [TextRule] [DecidablePred TextRule.text] : List Val → Option Str
  | [] => some []
  | v :: vs => match spell v, spellSeq vs with
    | some a, some b => some (' ' :: (a ++ b))
    | _, _ => none
end

theorem plainFloat_ok {f : F64} (h : plainFloat f = true) : f.Plain ∧ Val.canon (.flt f) = .flt f := by
  unfold plainFloat at h
  generalize hneg : (f.repr.head? == some '-') = neg at h
  generalize hip : (if neg then f.repr.drop 1 else f.repr).takeWhile isDigit = ip at h
  generalize hfp : ((if neg then f.repr.drop 1 else f.repr).dropWhile isDigit).drop 1 = fp at h
  simp only [Bool.and_eq_true, Bool.not_eq_true', List.isEmpty_eq_false_iff, List.all_eq_true, beq_iff_eq, decide_eq_true_eq, hip, hfp] at h
  obtain ⟨⟨⟨⟨⟨h1, h2⟩, h3⟩, h4⟩, h5⟩, h6⟩ := h
  refine ⟨⟨neg, ip, fp, h1, h2, ?_, h3, h4, h5⟩, ?_⟩
  · rw [← hip]
    intro c hc
    exact List.all_eq_true.1 List.all_takeWhile c hc
  · split at h6
    · next e => rw [e, of_decide_eq_true h6]
    · cases h6

theorem blank_one : Blank [' '] := fun c hc => by
  cases List.mem_singleton.1 hc; decide

theorem spellSeq_head [TextRule] [DecidablePred TextRule.text] {vs : List Val} {y : Str} (h : spellSeq vs = some y) : y = [] ∨ ∃ r, y = ' ' :: r := by
  cases vs with
  | nil => simp only [spellSeq, Option.some.injEq] at h; exact .inl h.symm
  | cons v vs =>
    simp only [spellSeq] at h
    split at h
    · cases h; exact .inr ⟨_, rfl⟩
    · cases h

mutual
theorem spell_prints [TextRule] [DecidablePred TextRule.text] (v : Val) (vs : List Val) (a y : Str) (ha : spell v = some a) (hy : PrintsSeq vs y)
    (he : y = [] ∨ ∃ r, y = ' ' :: r) : PrintsSeq (v :: vs) (' ' :: (a ++ y)) := by
  have hn : numEnd (y ++ [')']) = true ∧ sqEnd (y ++ [')']) = true := by
    rcases he with rfl | ⟨r, rfl⟩ <;> exact ⟨rfl, by simp [sqEnd]; try decide⟩
  match v with
  | .int n =>
    simp only [spell] at ha
    split at ha
    · next h => cases ha; exact .int [' '] y n vs blank_one (exactInt_of_le h) hn.1 hy
    · cases ha
  | .flt f =>
    simp only [spell] at ha
    split at ha
    · next h =>
      cases ha
      obtain ⟨h1, h2⟩ := plainFloat_ok h
      have := PrintsSeq.flt [' '] y f vs blank_one h1 hn.1 hy
      rwa [h2] at this
    · cases ha
  | .str s =>
    simp only [spell] at ha
    split at ha
    · next h =>
      cases ha
      have := PrintsSeq.text [' '] s y vs blank_one h hn.2 hy
      simpa using this
    · cases ha
  | .list l =>
    simp only [spell] at ha
    split at ha
    · next b hb =>
      cases ha
      have := PrintsSeq.list [' '] b y l vs blank_one (spellSeq_prints l b hb) hy
      simpa using this
    · cases ha
theorem spellSeq_prints [TextRule] [DecidablePred TextRule.text] (vs : List Val) (b : Str) (h : spellSeq vs = some b) : PrintsSeq vs b := by
  match vs with
  | [] => simp only [spellSeq, Option.some.injEq] at h; subst h; exact .nil _ fun _ h => absurd h List.not_mem_nil
  | v :: vs =>
    simp only [spellSeq] at h
    split at h
    · next a y ha hy =>
      cases h
      exact spell_prints v vs a y ha (spellSeq_prints vs y hy) (spellSeq_head hy)
    · cases h
end

theorem spell_textOf [TextRule] [DecidablePred TextRule.text] {l : List Val} {s : Str} (h : spell (.list l) = some s) : TextOf (.list l) s := by
  simp only [spell] at h
  split at h
  · next b hb =>
    cases h
    exact ⟨l, rfl, [], b, fun _ h => absurd h List.not_mem_nil, spellSeq_prints l b hb, rfl⟩
  · cases h

/-! ## A file with such a text -/

/-- The text of the tree (empty if there is none). -/
def spelled [TextRule] [DecidablePred TextRule.text] (v : Val) : Str := (spell v).getD []

/-- The tree has such a text, in Latin-1 and without carriage returns. -/
def spellable [TextRule] [DecidablePred TextRule.text] (v : Val) : Bool :=
  match v, spell v with
  | .list _, some s => s.all fun c => decide (c.toNat < 256 ∧ c ≠ '\r')
  | _, _ => false

theorem spelled_textOf [TextRule] [DecidablePred TextRule.text] {v : Val} (h : spellable v = true) : TextOf v (spelled v) := by
  unfold spellable at h
  split at h
  · next l s hs =>
    unfold spelled
    rw [hs]
    exact spell_textOf hs
  · cases h

theorem spelled_chars [TextRule] [DecidablePred TextRule.text] {v : Val} (h : spellable v = true) : ∀ c ∈ spelled v, c.toNat < 256 ∧ c ≠ '\r' := by
  unfold spellable at h
  split at h
  · next l s hs =>
    unfold spelled
    rw [hs]
    exact fun c hc => of_decide_eq_true (List.all_eq_true.1 h c hc)
  · cases h

end Kiutils
