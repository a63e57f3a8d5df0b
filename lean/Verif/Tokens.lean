import Verif.Fold
import Verif.Post
/-!
# How the fields of a loaded object depend on the items of the list

Vocabulary for statements about `from_sexpr`: which items of a list carry a token, what a field is after all items were looked
at, and when two lists differ only in the order of unrelated items.
-/
namespace Kiutils

/-- The item is a list that starts with the token `k`. -/
def tok (k : Str) (x : Val) : Bool :=
  match x with
  | .list (h :: _) => h.is k
  | _ => false

/-- The item is a list that starts with one of the tokens `ks`. -/
def tokIn (ks : List Str) (x : Val) : Bool := ks.any (tok · x)

/-- The item is one of the words `ks`. -/
def wordIn (ks : List Str) (x : Val) : Bool := ks.any (x.is ·)

/-- The field is read from the last of the items selected by `key`; without such an item it has the value `d`. -/
def LastWins {β : Type} (key : Val → Bool) (read : Val → PyM β) (xs : List Val) (d v : β) : Prop :=
  match (xs.filter key).getLast? with
  | some x => read x = .ok v
  | none => v = d

/-- The list consists of what `read` makes of the items selected by `key`: all of them, once each, in the order of the items. -/
def Collected {β : Type} (key : Val → Bool) (read : Val → PyM β) (xs : List Val) (v : List β) : Prop :=
  mapM' read (xs.filter key) = .ok v

/-- As `Collected`, for items that contribute several elements each. -/
def CollectedAll {β : Type} (key : Val → Bool) (read : Val → PyM (List β)) (xs : List Val) (v : List β) : Prop :=
  ∃ vs, mapM' read (xs.filter key) = .ok vs ∧ v = vs.flatten

/-- The field is the result of applying `upd` for each item selected by `key`, in order, starting from `d`. -/
def FoldsTo {β : Type} (key : Val → Bool) (upd : β → Val → PyM β) (xs : List Val) (d v : β) : Prop :=
  forM upd d (xs.filter key) = .ok v

/-- `ys` consists of the same items as `xs`, and only unrelated items have changed places: the items with the same token are in
the same order, so are the words, and so are the items with tokens of one of the groups `together`. -/
structure Reordered (together : List (List Str)) (xs ys : List Val) : Prop where
  perm : xs.Perm ys
  tokens : ∀ k, xs.filter (tok k) = ys.filter (tok k)
  words : xs.filter (!·.isList) = ys.filter (!·.isList)
  groups : ∀ g ∈ together, xs.filter (tokIn g) = ys.filter (tokIn g)

/-! ## One round of the loop -/

/-- What one round of the loop over the item `x` does to a field: `upd` if the item is selected by `key`, else nothing. -/
def Track {β : Type} (key : Val → Bool) (upd : β → Val → PyM β) (x : Val) (old new : β) : Prop :=
  match key x with
  | true => upd old x = .ok new
  | false => new = old

theorem track_other {β : Type} {key : Val → Bool} {upd : β → Val → PyM β} {x : Val} {old : β} (h : key x = false) :
    Track key upd x old old := by
  simp only [Track, h]

theorem track_own {β : Type} {key : Val → Bool} {upd : β → Val → PyM β} {x : Val} {old new : β} (h : key x = true)
    (hu : upd old x = .ok new) : Track key upd x old new := by
  simp only [Track, h]; exact hu

section
variable {σ β : Type} {step : σ → Val → PyM σ} {get : σ → β} {key : Val → Bool} {upd : β → Val → PyM β} {o o' : σ}
  {xs : List Val}

theorem Track.folds (h : ∀ o x, Post (step o x) fun o' => Track key upd x (get o) (get o'))
    (hs : forM step o xs = .ok o') : FoldsTo key upd xs (get o) (get o') := by
  induction xs generalizing o with
  | nil => cases hs; rfl
  | cons x xs ih =>
    simp only [forM] at hs
    cases hx : step o x with
    | error e => simp only [hx] at hs; cases hs
    | ok o1 =>
      simp only [hx] at hs
      have ht := h o x o1 hx
      have ih' := ih hs
      cases hk : key x with
      | true =>
        simp only [Track, hk] at ht
        simp only [FoldsTo, List.filter_cons, hk, if_true, forM, ht] at ih' ⊢
        exact ih'
      | false =>
        simp only [Track, hk] at ht
        simp only [FoldsTo, List.filter_cons, hk] at ih' ⊢
        rw [ht] at ih'
        exact ih'

theorem FoldsTo.last {read : Val → PyM β} {d v : β} (h : FoldsTo key (fun _ x => read x) xs d v) : LastWins key read xs d v := by
  simp only [FoldsTo, LastWins] at *
  generalize xs.filter key = ys at *
  induction ys generalizing d with
  | nil => cases h; rfl
  | cons y ys ih =>
    simp only [forM] at h
    cases hy : read y with
    | error e => simp only [hy] at h; cases h
    | ok a =>
      simp only [hy] at h
      have := ih h
      cases ys with
      | nil => cases h; exact hy
      | cons z zs => exact this

theorem FoldsTo.collected {γ : Type} {read : Val → PyM γ} {v : List γ}
    (h : FoldsTo key (fun l x => do return l ++ [← read x]) xs [] v) : Collected key read xs v := by
  have : ∀ (ys : List Val) (d : List γ), forM (fun l x => do return l ++ [← read x]) d ys = .ok v →
      ∃ w, mapM' read ys = .ok w ∧ v = d ++ w := by
    intro ys
    induction ys with
    | nil => intro d h; cases h; exact ⟨[], rfl, (List.append_nil _).symm⟩
    | cons y ys ih =>
      intro d h
      simp only [forM] at h
      cases hy : read y with
      | error e => simp only [hy] at h; cases h
      | ok a =>
        simp only [hy] at h
        obtain ⟨w, hw, hv⟩ := ih (d ++ [a]) h
        exact ⟨a :: w, by simp only [mapM', hy, hw]; rfl, by rw [hv, List.append_assoc]; rfl⟩
  obtain ⟨w, hw, hv⟩ := this _ _ h
  simp only [Collected, hw, hv]; rfl

theorem FoldsTo.collectedAll {γ : Type} {read : Val → PyM (List γ)} {v : List γ}
    (h : FoldsTo key (fun l x => do return l ++ (← read x)) xs [] v) : CollectedAll key read xs v := by
  have : ∀ (ys : List Val) (d : List γ), forM (fun l x => do return l ++ (← read x)) d ys = .ok v →
      ∃ w, mapM' read ys = .ok w ∧ v = d ++ w.flatten := by
    intro ys
    induction ys with
    | nil => intro d h; cases h; exact ⟨[], rfl, (List.append_nil _).symm⟩
    | cons y ys ih =>
      intro d h
      simp only [forM] at h
      cases hy : read y with
      | error e => simp only [hy] at h; cases h
      | ok a =>
        simp only [hy] at h
        obtain ⟨w, hw, hv⟩ := ih (d ++ a) h
        exact ⟨a :: w, by simp only [mapM', hy, hw]; rfl, by rw [hv, List.append_assoc]; rfl⟩
  obtain ⟨w, hw, hv⟩ := this _ _ h
  exact ⟨w, hw, hv⟩

end

/-! ## Going through the branches of a loop body, keeping what is known about the item -/

section
variable {α β : Type} {P : β → Prop}

theorem post_bindE {m : PyM α} {f : α → PyM β} (h : ∀ a, m = .ok a → Post (f a) P) : Post (m >>= f) P := by
  cases m with
  | error e => exact post_error
  | ok a => exact h a rfl

theorem Val.is_iff {k : Str} {v : Val} : v.is k = true → v = .str k := by
  cases v <;> simp [Val.is]

theorem post_is {k : Str} {v : Val} {m n : PyM β} (h : v = .str k → Post m P) (h' : v.is k = false → Post n P) :
    Post (if v.is k = true then m else n) P := by
  cases hk : v.is k with
  | true => exact h (Val.is_iff hk)
  | false => exact h' hk

theorem post_beq {k s : Str} {m n : PyM β} (h : Val.str s = .str k → Post m P) (h' : (Val.str s).is k = false → Post n P) :
    Post (if (s == k) = true then m else n) P := post_is h h'

theorem post_iteE {c : Prop} [Decidable c] {m n : PyM β} (h : c → Post m P) (h' : ¬c → Post n P) : Post (if c then m else n) P := by
  split
  · next hc => exact h hc
  · next hc => exact h' hc

theorem post_pure_ite {c : Prop} [Decidable c] {a b : β} (h : c → P a) (h' : ¬c → P b) : Post (pure (if c then a else b) : PyM β) P := by
  split
  · next hc => exact post_pure (h hc)
  · next hc => exact post_pure (h' hc)

theorem post_or {a b : Bool} {m n : PyM β} (h : Post (if a = true then m else if b = true then m else n) P) :
    Post (if (a || b) = true then m else n) P := by
  cases a <;> simpa using h

/-- `item[0]` and what follows. -/
theorem post_idx0 {x : Val} {f : Val → PyM β} (hw : ∀ c w, x = .str (c :: w) → Post (f (.str [c])) P)
    (hl : ∀ h r, x = .list (h :: r) → Post (f h) P) : Post (x.idx 0 >>= f) P := by
  cases x with
  | int n => exact post_error
  | flt n => exact post_error
  | str w =>
    cases w with
    | nil => exact post_error
    | cons c w => exact hw c w rfl
  | list l =>
    cases l with
    | nil => exact post_error
    | cons h r => exact hl h r rfl

end

theorem own_bind {α β : Type} {m : PyM α} {f : α → PyM β} {a : α} {r : PyM β} (h : m = .ok a) (hf : f a = r) :
    (m >>= f) = r := by
  rw [h]; exact hf
theorem own_true {β : Type} {c : Bool} {m n r : PyM β} (h : c = true) (hm : m = r) : (if c = true then m else n) = r := by
  rw [h]; exact hm
theorem own_false {β : Type} {c : Bool} {m n r : PyM β} (h : c = false) (hn : n = r) : (if c = true then m else n) = r := by
  rw [h]; exact hn

theorem own_pos {β : Type} {c : Prop} [Decidable c] {m n r : PyM β} (h : c) (hm : m = r) : (if c then m else n) = r := by
  rw [if_pos h]; exact hm
theorem own_neg {β : Type} {c : Prop} [Decidable c] {m n r : PyM β} (h : ¬c) (hn : n = r) : (if c then m else n) = r := by
  rw [if_neg h]; exact hn

theorem own_or {β : Type} {a b : Bool} {m n r : PyM β} (ha : a = false) (hb : b = false) (h : n = r) :
    (if (a || b) = true then m else n) = r := by
  rw [ha, hb]; exact h

/-- Goes through the branches of a loop body after `item[0]`. -/
macro "trackGo" : tactic => `(tactic|
  repeat' (with_reducible first
    | exact post_error
    | refine post_or ?_
    | refine post_is ?_ (fun _ => ?_)
    | refine post_beq ?_ (fun _ => ?_)
    | refine post_iteE (fun _ => ?_) (fun _ => ?_)
    | refine post_bindE (fun _ _ => ?_)
    | refine post_pure_ite (fun _ => ?_) (fun _ => ?_)
    | refine post_pure ?_
    | refine post_ok ?_
    | (intro hk; cases hk)))

/-- The new value of a field in the branch that changes it. -/
macro "trackOwn" : tactic => `(tactic|
  repeat' (first
    | with_reducible assumption
    | with_reducible (refine own_bind (by assumption) ?_)
    | refine own_true rfl ?_
    | refine own_false rfl ?_
    | refine own_or (by assumption) (by assumption) ?_
    | refine own_false (by assumption) ?_
    | refine own_pos (by assumption) ?_
    | refine own_neg (by assumption) ?_
    | with_reducible rfl
    | with_reducible apply own_bind
    | rfl))

/-- The state of all fields at the end of a branch. -/
macro "trackLeaf" : tactic => `(tactic|
  (and_intros
   all_goals first
    | exact track_other rfl
    | (refine track_own rfl ?_; trackOwn; done)
    | (refine track_other ?_; simp only [tok, tokIn, wordIn, List.any, Bool.or_false, *]; done)))

/-- Loop bodies that start with `item[0]`. -/
macro "trackItems" : tactic => `(tactic|
  (refine post_idx0 (fun c w hx => ?_) (fun h r hx => ?_) <;> subst hx
   all_goals trackGo
   all_goals trackLeaf))

/-- Loop bodies that distinguish lists and words. -/
macro "trackBoth" : tactic => `(tactic|
  (first
    | (refine post_idx0 (fun c w hx => ?_) (fun h r hx => ?_) <;> cases hx)
    | skip
   all_goals trackGo
   all_goals trackLeaf))

/-! ## Success does not depend on the object -/

/-- If the first computation succeeds, so does the second. -/
def Same {α : Type} (m n : PyM α) : Prop := (∃ a, m = .ok a) → ∃ b, n = .ok b

theorem same_error {α : Type} {e : PyErr} {n : PyM α} : Same (.error e) n := fun ⟨_, h⟩ => by cases h
theorem same_pure {α : Type} {m : PyM α} {a : α} : Same m (pure a) := fun _ => ⟨_, rfl⟩
theorem same_ok {α : Type} {m : PyM α} {a : α} : Same m (.ok a) := fun _ => ⟨_, rfl⟩
theorem same_bind {α β : Type} {m : PyM α} {f g : α → PyM β} (h : ∀ a, Same (f a) (g a)) : Same (m >>= f) (m >>= g) := by
  cases m with
  | error e => exact same_error
  | ok a => exact h a
theorem same_bind2 {α β : Type} {m n : PyM α} {f g : α → PyM β} (hm : Same m n) (h : ∀ a b, Same (f a) (g b)) :
    Same (m >>= f) (n >>= g) := by
  cases m with
  | error e => exact same_error
  | ok a =>
    obtain ⟨b, hb⟩ := hm ⟨a, rfl⟩
    rw [hb]; exact h a b
theorem same_ite {α : Type} {c : Prop} [Decidable c] {m n m' n' : PyM α} (h : Same m m') (h' : Same n n') :
    Same (if c then m else n) (if c then m' else n') := by
  split
  · exact h
  · exact h'
theorem same_update {β : Type} {d d' : Dict β} {k : Val} {v : β} : Same (d.update k v) (d'.update k v) := by
  cases k <;> first | exact same_error | exact same_ok

/-- Goes through the branches of a loop body. -/
macro "same" : tactic => `(tactic|
  repeat' (with_reducible first
    | exact same_error
    | exact same_pure
    | exact same_ok
    | exact same_update
    | refine same_ite ?_ ?_
    | refine same_bind (fun _ => ?_)
    | refine same_bind2 ?_ (fun _ _ => ?_)))

theorem forM_same {σ : Type} {step : σ → Val → PyM σ} (hi : ∀ o o' x, Same (step o x) (step o' x)) (xs : List Val) (o o' : σ) :
    Same (forM step o xs) (forM step o' xs) := by
  induction xs generalizing o o' with
  | nil => exact same_ok
  | cons x xs ih => exact same_bind2 (hi o o' x) (fun a b => ih a b)

section
variable {σ : Type} {step : σ → Val → PyM σ}

theorem forM_ok_iff (hi : ∀ o o' x, Same (step o x) (step o' x)) (xs : List Val) (o : σ) :
    (∃ a, forM step o xs = .ok a) ↔ ∀ x ∈ xs, ∃ a, step o x = .ok a := by
  induction xs generalizing o with
  | nil => exact ⟨fun _ x hx => (by cases hx), fun _ => ⟨o, rfl⟩⟩
  | cons x xs ih =>
    constructor
    · rintro ⟨a, h⟩ y hy
      simp only [forM] at h
      cases hx : step o x with
      | error e => simp only [hx] at h; cases h
      | ok o1 =>
        cases hy with
        | head => exact ⟨_, hx⟩
        | tail _ hy =>
          simp only [hx] at h
          exact hi _ _ _ ((ih o1).1 ⟨a, h⟩ y hy)
    · intro h
      obtain ⟨o1, hx⟩ := h x (List.mem_cons_self ..)
      simp only [forM, hx]
      exact (ih o1).2 fun y hy => hi _ _ _ (h y (List.mem_cons_of_mem _ hy))

theorem forM_perm (hi : ∀ o o' x, Same (step o x) (step o' x)) {xs ys : List Val} (hp : xs.Perm ys) {o a : σ}
    (h : forM step o xs = .ok a) : ∃ b, forM step o ys = .ok b :=
  (forM_ok_iff hi ys o).2 fun x hx => (forM_ok_iff hi xs o).1 ⟨a, h⟩ x (hp.mem_iff.2 hx)

end

/-! ## Reordering -/

theorem FoldsTo.unique {β : Type} {key : Val → Bool} {upd : β → Val → PyM β} {xs ys : List Val} {d a b : β}
    (h : FoldsTo key upd xs d a) (h' : FoldsTo key upd ys d b) (he : xs.filter key = ys.filter key) : a = b := by
  simp only [FoldsTo, he] at h h'
  rw [h] at h'
  cases h'; rfl

theorem Reordered.symm {g : List (List Str)} {xs ys : List Val} (h : Reordered g xs ys) : Reordered g ys xs :=
  ⟨h.perm.symm, fun k => (h.tokens k).symm, h.words.symm, fun t ht => (h.groups t ht).symm⟩

theorem Reordered.cons {g : List (List Str)} {xs ys : List Val} (v : Val) (h : Reordered g xs ys) : Reordered g (v :: xs) (v :: ys) :=
  ⟨h.perm.cons v, fun k => by simp only [List.filter_cons, h.tokens k], by simp only [List.filter_cons, h.words],
    fun t ht => by simp only [List.filter_cons, h.groups t ht]⟩

theorem Reordered.word {g : List (List Str)} {xs ys : List Val} (h : Reordered g xs ys) (ks : List Str) :
    xs.filter (wordIn ks) = ys.filter (wordIn ks) := by
  have key : ∀ zs : List Val, zs.filter (wordIn ks) = (zs.filter (!·.isList)).filter (wordIn ks) := by
    intro zs
    rw [List.filter_filter]
    refine List.filter_congr fun x _ => ?_
    cases x <;> simp [Val.isList, wordIn, Val.is]
  rw [key, key ys, h.words]

theorem filter_never {xs ys : List Val} : xs.filter (fun _ => false) = ys.filter (fun _ => false) := by
  rw [List.filter_eq_nil_iff.2 (fun _ _ h => by cases h), List.filter_eq_nil_iff.2 (fun _ _ h => by cases h)]

theorem FoldsTo.drop {β : Type} {key : Val → Bool} {upd : β → Val → PyM β} {v : Val} {xs : List Val} {d a : β}
    (h : FoldsTo key upd (v :: xs) d a) (hv : key v = false) : FoldsTo key upd xs d a := by
  rw [FoldsTo, List.filter_cons_of_neg (by rw [hv]; exact Bool.false_ne_true)] at h
  exact h

theorem FoldsTo.flag {key : Val → Bool} {xs : List Val} {v : Bool} (h : FoldsTo key (fun _ _ => .ok true) xs false v) :
    v = xs.any key := by
  have := h.last
  simp only [LastWins] at this
  cases hl : (xs.filter key).getLast? with
  | some x =>
    simp only [hl] at this
    cases this
    have hm := List.mem_filter.1 (List.mem_of_getLast? hl)
    exact (List.any_eq_true.2 ⟨x, hm.1, hm.2⟩).symm
  | none =>
    simp only [hl] at this
    rw [List.getLast?_eq_none_iff] at hl
    rw [this]
    refine (List.any_eq_false.2 fun x hx hk => ?_).symm
    have := List.mem_filter.2 ⟨hx, hk⟩
    rw [hl] at this
    cases this

theorem FoldsTo.const {β : Type} {xs : List Val} {d v : β} (h : FoldsTo (fun _ => false) (fun v _ => .ok v) xs d v) : v = d := by
  rw [FoldsTo, List.filter_eq_nil_iff.2 (fun _ _ h => by cases h)] at h
  cases h; rfl

/-! ## Unknown tokens -/

theorem is_false_of_ne {h : Val} {ks : List Str} (hu : ∀ k ∈ ks, h ≠ .str k) {k : Str} (hk : k ∈ ks) : h.is k = false := by
  cases he : h.is k with
  | false => rfl
  | true => exact absurd (Val.is_iff he) (hu k hk)

theorem forM_insert {σ : Type} {step : σ → Val → PyM σ} {x : Val} (hx : ∀ o, step o x = .ok o) (o : σ) (xs ys : List Val) :
    forM step o (xs ++ x :: ys) = forM step o (xs ++ ys) := by
  rw [forM_append, forM_append]
  congr 1
  funext o'
  simp only [forM, hx]
  rfl

/-- The branches of a loop body for an item with an unknown token. -/
macro "unknownHead " hu:term : tactic => `(tactic|
  (refine own_bind rfl ?_
   repeat (first
    | refine own_or (is_false_of_ne $hu (by decide)) (is_false_of_ne $hu (by decide)) ?_
    | refine own_false (is_false_of_ne $hu (by decide)) ?_)
   rfl))

theorem reordered_iff {σ : Type} {step : σ → Val → PyM σ} {g : List (List Str)} (hi : ∀ o o' x, Same (step o x) (step o' x))
    (he : ∀ {o a b : σ} {xs ys : List Val}, Reordered g xs ys → forM step o xs = .ok a → forM step o ys = .ok b → a = b)
    {init : σ} {xs ys : List Val} (hr : Reordered g xs ys) (o : σ) : forM step init xs = .ok o ↔ forM step init ys = .ok o := by
  constructor
  · intro h
    obtain ⟨b, hb⟩ := forM_perm hi hr.perm h
    rw [hb, he hr h hb]
  · intro h
    obtain ⟨b, hb⟩ := forM_perm hi hr.symm.perm h
    rw [hb, he hr.symm h hb]

end Kiutils
