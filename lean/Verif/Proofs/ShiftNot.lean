import Verif.Proofs.ShiftAll
/-!
# Texts that are not moved

Rules for the `_exactly` theorems of C72: a line with text that is not moved by `k` blanks, behind equally many line feeds in both
texts.
-/
namespace Kiutils

/-- The number of line feeds. -/
def feeds (s : Str) : Nat := s.count '\n'

theorem feeds_append (s t : Str) : feeds (s ++ t) = feeds s + feeds t := List.count_append
theorem feeds_indents (n : Nat) : feeds (indents n) = 0 := List.count_eq_zero.2 indents_oneLine
theorem feeds_cons (c : Char) (s : Str) : feeds (c :: s) = feeds s + if c = '\n' then 1 else 0 := by
  rw [feeds, List.count_cons, feeds]; simp only [beq_iff_eq]
theorem feeds_nil : feeds [] = 0 := rfl

theorem lines_ne (s : Str) : ∃ l r, lines s = l :: r := by
  induction s with
  | nil => exact ⟨_, _, rfl⟩
  | cons c s ih =>
    obtain ⟨l, r, e⟩ := ih
    by_cases hc : c = '\n'
    · subst hc; exact ⟨_, _, lines_nl s⟩
    · exact ⟨_, _, lines_char hc e⟩

/-- Behind a line feed the lines are those of the rest. -/
theorem lines_behind (a : Str) : ∃ r, r.length = feeds a + 1 ∧ ∀ x, lines (a ++ '\n' :: x) = r ++ lines x := by
  induction a with
  | nil => exact ⟨[[]], rfl, lines_nl⟩
  | cons c a ih =>
    obtain ⟨r, hr, e⟩ := ih
    rw [feeds_cons]
    by_cases hc : c = '\n'
    · subst hc; exact ⟨[] :: r, by simp [hr], fun x => by rw [List.cons_append, lines_nl, e]; rfl⟩
    · cases r with
      | nil => cases hr
      | cons l r => exact ⟨(c :: l) :: r, by simpa [hc] using hr, fun x => lines_char hc (e x)⟩

theorem MovedLines.take {k : Nat} : ∀ {a a' r r' : List Str}, a.length = a'.length → MovedLines k (a ++ r) (a' ++ r') →
    ∀ {t t' : List Str}, MovedLines k t t' → MovedLines k (a ++ t) (a' ++ t')
  | [], [], _, _, _, _, _, _, h => h
  | [], _ :: _, _, _, e, _, _, _, _ => nomatch e
  | _ :: _, [], _, _, e, _, _, _, _ => nomatch e
  | _ :: _, _ :: _, _, _, e, h, _, _, ht => by
    cases h with
    | moved h => exact .moved (MovedLines.take (Nat.succ.inj e) h ht)
    | blank hl hl' h => exact .blank hl hl' (MovedLines.take (Nat.succ.inj e) h ht)

theorem MovedLines.drop {k : Nat} : ∀ {a a' r r' : List Str}, a.length = a'.length → MovedLines k (a ++ r) (a' ++ r') → MovedLines k r r'
  | [], [], _, _, _, h => h
  | [], _ :: _, _, _, e, _ => nomatch e
  | _ :: _, [], _, _, e, _ => nomatch e
  | _ :: _, _ :: _, _, _, e, h => by
    cases h with
    | moved h => exact MovedLines.drop (Nat.succ.inj e) h
    | blank _ _ h => exact MovedLines.drop (Nat.succ.inj e) h

/-- What follows equally many line feeds is moved, if the whole is. -/
theorem Shifted.behind {k : Nat} {a a' x x' : Str} (h : Shifted k (a ++ '\n' :: x) (a' ++ '\n' :: x')) (e : feeds a = feeds a') :
    Shifted k x x' := by
  obtain ⟨r, hr, el⟩ := lines_behind a
  obtain ⟨r', hr', el'⟩ := lines_behind a'
  rw [Shifted, el, el'] at h
  exact h.drop (by rw [hr, hr', e])

/-- What precedes equally many line feeds is moved, if the whole is. -/
theorem Shifted.cut {k : Nat} {a a' x x' : Str} (h : Shifted k (a ++ '\n' :: x) (a' ++ '\n' :: x')) (e : feeds a = feeds a') :
    Shifted k (a ++ ['\n']) (a' ++ ['\n']) := by
  obtain ⟨r, hr, el⟩ := lines_behind a
  obtain ⟨r', hr', el'⟩ := lines_behind a'
  rw [Shifted, el, el'] at h ⊢
  exact h.take (by rw [hr, hr', e]) (.blank nofun nofun .nil)

/-- The text ends with a line feed. -/
def FeedEnd (s : Str) : Prop := ∃ a, s = a ++ ['\n']

theorem FeedEnd.append {s t : Str} (h : FeedEnd t) : FeedEnd (s ++ t) := by
  obtain ⟨a, rfl⟩ := h
  exact ⟨s ++ a, (List.append_assoc ..).symm⟩
theorem FeedEnd.cons {c : Char} {t : Str} (h : FeedEnd t) : FeedEnd (c :: t) := FeedEnd.append (s := [c]) h
theorem FeedEnd.nl : FeedEnd ['\n'] := ⟨[], rfl⟩

/-- A text that is moved can be split behind a line feed. -/
theorem Shifted.split {k : Nat} {s s' x x' : Str} (h : Shifted k (s ++ x) (s' ++ x')) (hs : FeedEnd s) (hs' : FeedEnd s') (e : feeds s = feeds s') :
    Shifted k s s' ∧ Shifted k x x' := by
  obtain ⟨a, rfl⟩ := hs
  obtain ⟨a', rfl⟩ := hs'
  rw [feeds_append, feeds_append] at e
  rw [List.append_assoc, List.append_assoc] at h
  exact ⟨h.cut (Nat.add_right_cancel e), h.behind (Nat.add_right_cancel e)⟩

theorem Shifted.items {k : Nat} {α : Type} {l : List α} {f f' : α → Str} {x x' : Str} (h : Shifted k (forS l f ++ x) (forS l f' ++ x'))
    (hs : ∀ a ∈ l, FeedEnd (f a) ∧ FeedEnd (f' a) ∧ feeds (f a) = feeds (f' a)) : (∀ a ∈ l, Shifted k (f a) (f' a)) ∧ Shifted k x x' := by
  induction l with
  | nil => exact ⟨nofun, h⟩
  | cons a l ih =>
    simp only [forS, List.flatMap_cons, List.append_assoc] at h
    obtain ⟨c, c', e⟩ := hs a (List.mem_cons_self ..)
    obtain ⟨h1, h2⟩ := Shifted.split h c c' e
    obtain ⟨h3, h4⟩ := ih h2 fun b hb => hs b (List.mem_cons_of_mem _ hb)
    exact ⟨fun b hb => (List.mem_cons.1 hb).elim (fun e => e ▸ h1) (h3 b), h4⟩

theorem feeds_forS {α : Type} {l : List α} {f f' : α → Str} (h : ∀ a ∈ l, feeds (f a) = feeds (f' a)) : feeds (forS l f) = feeds (forS l f') := by
  induction l with
  | nil => rfl
  | cons a l ih =>
    simp only [forS, List.flatMap_cons, feeds_append]
    rw [h a (List.mem_cons_self ..)]
    exact congrArg _ (ih fun b hb => h b (List.mem_cons_of_mem _ hb))

/-- Moved texts have equally many line feeds. -/
theorem MovedLines.length {k : Nat} {r r' : List Str} (h : MovedLines k r r') : r.length = r'.length := by
  induction h with
  | nil => rfl
  | moved _ ih => exact congrArg (· + 1) ih
  | blank _ _ _ ih => exact congrArg (· + 1) ih
theorem lines_length (s : Str) : (lines s).length = feeds s + 1 := by
  induction s with
  | nil => rfl
  | cons c s ih =>
    obtain ⟨l, r, e⟩ := lines_ne s
    rw [e] at ih
    rw [feeds_cons]
    by_cases hc : c = '\n'
    · subst hc; rw [lines_nl, e]; simp only [List.length_cons, if_true] at ih ⊢; omega
    · rw [lines_char hc e, if_neg hc]; exact ih
theorem Shifted.feeds {k : Nat} {s s' : Str} (h : Shifted k s s') : feeds s = feeds s' := by
  have := MovedLines.length h
  rw [lines_length, lines_length] at this
  exact Nat.succ.inj this

theorem lines_oneLine {p : Str} (hp : OneLine p) {y l : Str} {r : List Str} (h : lines y = l :: r) : lines (p ++ y) = (p ++ l) :: r := by
  induction p with
  | nil => exact h
  | cons c p ih => exact lines_char (fun e => hp (e ▸ List.mem_cons_self ..)) (ih fun m => hp (List.mem_cons_of_mem _ m))

/-- The lines of a text make up the text again. -/
theorem lines_first {s l : Str} {r : List Str} (h : lines s = l :: r) : ∃ y, s = l ++ y := by
  induction s generalizing l r with
  | nil => cases h; exact ⟨[], rfl⟩
  | cons c s ih =>
    obtain ⟨l', r', e⟩ := lines_ne s
    by_cases hc : c = '\n'
    · subst hc; rw [lines_nl] at h; cases h; exact ⟨_, rfl⟩
    · rw [lines_char hc e] at h; cases h
      obtain ⟨y, hy⟩ := ih e
      exact ⟨y, congrArg (c :: ·) hy⟩

/-- If a moved text begins with some text within a line, then the other one begins with `k` more blanks and the same text. -/
theorem Shifted.begins {k : Nat} {p y x' : Str} (h : Shifted k (p ++ y) x') (hp : OneLine p) {c : Char} (hc : c ∈ p) (hb : c ≠ ' ') :
    ∃ y', x' = indents k ++ (p ++ y') := by
  obtain ⟨l, r, e⟩ := lines_ne y
  obtain ⟨l', r', e'⟩ := lines_ne x'
  rw [Shifted, lines_oneLine hp e, e'] at h
  obtain ⟨y', hy⟩ := lines_first e'
  cases h with
  | moved _ => exact ⟨l ++ y', by rw [hy]; simp only [List.append_assoc]⟩
  | blank hl _ _ => exact absurd (hl c (List.mem_append_left _ hc)) hb

theorem indents_add (n m : Nat) : indents (n + m) = indents n ++ indents m := List.replicate_append_replicate.symm

/-- The number of blanks at the beginning is determined. -/
theorem blanks_eq {n m : Nat} {c d : Char} {s t : Str} (hc : c ≠ ' ') (hd : d ≠ ' ') (h : indents n ++ c :: s = indents m ++ d :: t) : n = m := by
  induction n generalizing m with
  | zero =>
    cases m with
    | zero => rfl
    | succ m => injection h with h; exact absurd h hc
  | succ n ih =>
    cases m with
    | zero => injection h with h; exact absurd h.symm hd
    | succ m => injection h with _ h; exact congrArg _ (ih h)

/-- A line that begins with `n` blanks and some text is moved to one that begins with `n + k` blanks. -/
theorem Shifted.blanks {k n m : Nat} {c d : Char} {y y' : Str} (h : Shifted k (indents n ++ c :: y) (indents m ++ d :: y'))
    (hc : c ≠ ' ') (hn : c ≠ '\n') (hd : d ≠ ' ') : m = n + k := by
  obtain ⟨z, hz⟩ := Shifted.begins (p := indents n ++ [c]) (y := y) (by simpa using h)
    (indents_oneLine.append (.cons hn .nil)) (List.mem_append_right _ (List.mem_singleton.2 rfl)) hc
  have : indents m ++ d :: y' = indents (k + n) ++ c :: z := by rw [hz, indents_add]; simp
  rw [blanks_eq hd hc this, Nat.add_comm]

/-- The texts are moved behind equally many line feeds. -/
def Within (k : Nat) (x x' : Str) : Prop := ∃ a a', feeds a = feeds a' ∧ Shifted k (a ++ x) (a' ++ x')

theorem Shifted.within {k : Nat} {x x' : Str} (h : Shifted k x x') : Within k x x' := ⟨[], [], rfl, h⟩
theorem Within.part {k : Nat} {s s' x x' : Str} (h : Within k (s ++ x) (s' ++ x')) (e : feeds s = feeds s') : Within k x x' := by
  obtain ⟨a, a', ea, h⟩ := h
  exact ⟨a ++ s, a' ++ s', by rw [feeds_append, feeds_append, ea, e], by simpa only [List.append_assoc] using h⟩
theorem Within.same {k : Nat} {s x x' : Str} (h : Within k (s ++ x) (s ++ x')) : Within k x x' := h.part rfl
theorem Within.char {k : Nat} {c : Char} {x x' : Str} (h : Within k (c :: x) (c :: x')) : Within k x x' := Within.part (s := [c]) (s' := [c]) h rfl
theorem Within.indents {k n m : Nat} {x x' : Str} (h : Within k (indents n ++ x) (indents m ++ x')) : Within k x x' :=
  h.part (by rw [feeds_indents, feeds_indents])
theorem Within.feed {k : Nat} {x x' : Str} (h : Within k ('\n' :: x) ('\n' :: x')) : Shifted k x x' := by
  obtain ⟨a, a', ea, h⟩ := h
  exact h.behind ea

/-- Go to the next line. -/
macro "next_line" h:ident : tactic => `(tactic| (
  replace $h := Shifted.within $h
  repeat first
    | replace $h := Within.feed $h
    | replace $h := Within.char $h
    | replace $h := Within.same $h
    | replace $h := Within.indents $h))

theorem ShiftedM.both {k : Nat} {m m' : PyM Str} (h : ShiftedM k m m') {s : Str} (hs : m = .ok s) : ∃ s', m' = .ok s' ∧ Shifted k s s' := by
  subst hs
  cases m' with
  | error e => exact h.elim
  | ok s' => exact ⟨s', rfl, h⟩
theorem split_ok {α β : Type} {m : PyM α} {f : α → PyM β} {b : β} (h : (m >>= f) = .ok b) : ∃ a, m = .ok a ∧ f a = .ok b := by
  cases m with
  | error e => cases h
  | ok a => exact ⟨a, rfl, h⟩
theorem forSM_cons_ok {α : Type} {x : α} {l : List α} {f : α → PyM Str} {s : Str} (h : forSM (x :: l) f = .ok s) :
    ∃ a b, f x = .ok a ∧ forSM l f = .ok b ∧ s = a ++ b := by
  obtain ⟨a, ha, h⟩ := split_ok h
  obtain ⟨b, hb, h⟩ := split_ok h
  cases h
  exact ⟨a, b, ha, hb, rfl⟩

/-- Two texts of equally many whole lines. -/
def Rows (s s' : Str) : Prop := (s = [] ∧ s' = []) ∨ (FeedEnd s ∧ FeedEnd s' ∧ feeds s = feeds s')

theorem Rows.nil : Rows [] [] := .inl ⟨rfl, rfl⟩
theorem Rows.append {s s' t t' : Str} (h : Rows s s') (h' : Rows t t') : Rows (s ++ t) (s' ++ t') := by
  rcases h' with ⟨rfl, rfl⟩ | ⟨a, b, c⟩
  · simpa only [List.append_nil] using h
  · refine .inr ⟨a.append, b.append, ?_⟩
    rcases h with ⟨rfl, rfl⟩ | ⟨_, _, c'⟩
    · exact c
    · rw [feeds_append, feeds_append, c, c']
theorem Rows.optS {α : Type} {x : Option α} {f f' : α → Str} (h : ∀ a, x = some a → Rows (f a) (f' a)) : Rows (optS x f) (optS x f') := by
  cases x with
  | none => exact .nil
  | some a => exact h a rfl
theorem Rows.forS {α : Type} {l : List α} {f f' : α → Str} (h : ∀ a ∈ l, Rows (f a) (f' a)) : Rows (forS l f) (forS l f') := by
  induction l with
  | nil => exact .nil
  | cons a l ih =>
    simp only [Kiutils.forS, List.flatMap_cons]
    exact (h a (List.mem_cons_self ..)).append (ih fun b hb => h b (List.mem_cons_of_mem _ hb))
theorem Rows.of_shifted {k : Nat} {s s' : Str} (h : Shifted k s s') (hs : FeedEnd s) (hs' : FeedEnd s') : Rows s s' := .inr ⟨hs, hs', h.feeds⟩

theorem Shifted.part {k : Nat} {s s' x x' : Str} (h : Shifted k (s ++ x) (s' ++ x')) (hs : Rows s s') : Shifted k x x' := by
  rcases hs with ⟨rfl, rfl⟩ | ⟨a, b, c⟩
  · exact h
  · exact (h.split a b c).2
theorem Shifted.head {k : Nat} {s s' x x' : Str} (h : Shifted k (s ++ x) (s' ++ x')) (hs : Rows s s') : Shifted k s s' := by
  rcases hs with ⟨rfl, rfl⟩ | ⟨a, b, c⟩
  · exact .blank nofun nofun .nil
  · exact (h.split a b c).1
theorem Shifted.each {k : Nat} {α : Type} {l : List α} {f f' : α → Str} {x x' : Str} (h : Shifted k (forS l f ++ x) (forS l f' ++ x'))
    (hs : ∀ a ∈ l, Rows (f a) (f' a)) : ∀ a ∈ l, Shifted k (f a) (f' a) := by
  induction l with
  | nil => exact nofun
  | cons a l ih =>
    simp only [forS, List.flatMap_cons, List.append_assoc] at h
    intro b hb
    rcases List.mem_cons.1 hb with rfl | hb
    · exact h.head (hs b (List.mem_cons_self ..))
    · exact ih (h.part (hs a (List.mem_cons_self ..))) (fun c hc => hs c (List.mem_cons_of_mem _ hc)) b hb
/-- Within a line: what follows whole lines is moved. -/
theorem Within.closed {k : Nat} {s s' x x' : Str} (h : Within k (s ++ x) (s' ++ x')) (hs : FeedEnd s) (hs' : FeedEnd s') (e : feeds s = feeds s') :
    Shifted k x x' := by
  obtain ⟨a, rfl⟩ := hs
  obtain ⟨a', rfl⟩ := hs'
  rw [feeds_append, feeds_append] at e
  rw [List.append_assoc, List.append_assoc] at h
  exact (h.part (Nat.add_right_cancel e)).feed

/-- The text ends with a line feed, by its structure. -/
macro "feed_end" : tactic => `(tactic| (
  repeat first
    | exact FeedEnd.nl
    | assumption
    | refine FeedEnd.cons ?_
    | refine FeedEnd.append ?_))

/-- The items of a list that can be written. -/
theorem forSM_each {k : Nat} {α : Type} {l : List α} {f f' : α → PyM Str} {s s' x x' : Str} (hs : forSM l f = .ok s) (hs' : forSM l f' = .ok s')
    (hr : ∀ a ∈ l, ∀ t t', f a = .ok t → f' a = .ok t' → Rows t t') (h : Shifted k (s ++ x) (s' ++ x')) :
    (∀ a ∈ l, ∃ t t', f a = .ok t ∧ f' a = .ok t' ∧ Shifted k t t') ∧ Shifted k x x' := by
  induction l generalizing s s' with
  | nil => cases hs; cases hs'; exact ⟨nofun, h⟩
  | cons a l ih =>
    obtain ⟨t, r, ht, hr1, rfl⟩ := forSM_cons_ok hs
    obtain ⟨t', r', ht', hr2, rfl⟩ := forSM_cons_ok hs'
    rw [List.append_assoc, List.append_assoc] at h
    have hh := hr a (List.mem_cons_self ..) t t' ht ht'
    obtain ⟨h1, h2⟩ := ih hr1 hr2 (fun b hb => hr b (List.mem_cons_of_mem _ hb)) (h.part hh)
    refine ⟨fun b hb => ?_, h2⟩
    rcases List.mem_cons.1 hb with rfl | hb
    · exact ⟨t, t', ht, ht', h.head hh⟩
    · exact h1 b hb

end Kiutils
