import Verif.Model.Objects
/-!
# C54: objects are independent of each other

Two objects that were created or loaded separately share no list, dict or object, so that editing one of them never changes the
other. The only exception are netclass flags: the default of their position is the class `Position` itself, which all of them share.
-/
namespace Kiutils.Objects

/-! ## Specification -/

/-- What code does that works on objects: `Runs ok h l h' l'` says that code which holds the references `l` in the heap `h` can bring
about the heap `h'` and hold `l'` then. It can use constants, make lists and dicts, call the constructors of the classes in `ok`
with arguments that it holds, read attributes of what it holds, and store what it holds in attributes and lists that it holds. All
of `from_sexpr`, `from_file`, `create_new` and the code of a user are of this kind; there are no global variables. -/
inductive Runs (classes : Str → Nat) (ok : Str → Prop) (h : Heap) (l : List Ref) : Heap → List Ref → Prop
  | start : Runs classes ok h l h l
  | const {h' l'} (s : Str) (r : Runs classes ok h l h' l') : Runs classes ok h l h' (.const s :: l')
  | list {h' l'} (kind : Str) (r : Runs classes ok h l h' l') : Runs classes ok h l (h' ++ [⟨kind, []⟩]) (.obj h'.length :: l')
  | construct {h' l'} {fuel : Nat} {c : Str} {args : List (Str × Ref)} {a : Nat} {h'' : Heap} (r : Runs classes ok h l h' l')
      (hc : ok c) (ha : ∀ x ∈ args, x.2 ∈ l') (e : construct classes fuel c args h' = some (a, h'')) :
      Runs classes ok h l h'' (.obj a :: l')
  | read {h' l'} {a : Nat} {name : Str} {x : Ref} (r : Runs classes ok h l h' l') (ha : .obj a ∈ l') (e : h'.read a name = some x) :
      Runs classes ok h l h' (x :: l')
  | write {h' l'} {a : Nat} {x : Ref} (name : Str) (r : Runs classes ok h l h' l') (ha : .obj a ∈ l') (hx : x ∈ l') :
      Runs classes ok h l (h'.write a name x) l'

/-- All classes but `NetclassFlag`. -/
def NotFlag (c : Str) : Prop := c ≠ k!"NetclassFlag"

/-! ## Lemmas -/

/-- The cell refers only to addresses in `S`. -/
def Within (S : Nat → Prop) (slots : List (Str × Ref)) : Prop := ∀ s ∈ slots, ∀ b, s.2 = .obj b → S b

/-- What is in `S` refers only to what is in `S`. -/
def Closed (S : Nat → Prop) (h : Heap) : Prop := ∀ a c, S a → h[a]? = some c → Within S c.slots

/-- `S` and the addresses from `n` to `m`. -/
def Plus (S : Nat → Prop) (n m : Nat) (a : Nat) : Prop := S a ∨ (n ≤ a ∧ a < m)

theorem Plus.mono {S : Nat → Prop} {n n' m m' : Nat} (hn : n' ≤ n) (hm : m ≤ m') {a : Nat} (h : Plus S n m a) : Plus S n' m' a := by
  rcases h with h | h
  · exact .inl h
  · exact .inr ⟨by omega, by omega⟩

theorem Within.mono {S T : Nat → Prop} {l : List (Str × Ref)} (h : Within S l) (hST : ∀ a, S a → T a) : Within T l :=
  fun s hs b hb => hST b (h s hs b hb)

/-- The factory makes something new. -/
def Factory.fresh : Factory → Bool
  | .cls _ => false
  | .new c _ => c != k!"NetclassFlag"
  | _ => true

theorem table_fresh : classTable.all (fun e => e.1 == k!"NetclassFlag" || e.2.all (fun f => f.2.fresh)) = true := by
  decide +kernel

theorem lookup_mem {α β : Type} [BEq α] [LawfulBEq α] {a : α} {b : β} {l : List (α × β)} (h : l.lookup a = some b) : (a, b) ∈ l := by
  induction l with
  | nil => cases h
  | cons x l ih =>
    obtain ⟨k, v⟩ := x
    rw [List.lookup_cons] at h
    split at h
    · next e => cases h; rw [beq_iff_eq.mp e]; exact List.mem_cons_self
    · exact List.mem_cons_of_mem _ (ih h)

theorem lookup_fresh {c : Str} (hc : NotFlag c) {fields : List (Str × Factory)} (h : classTable.lookup c = some fields) :
    ∀ f ∈ fields, f.2.fresh = true := by
  have := List.all_eq_true.mp table_fresh _ (lookup_mem h)
  simp only [Bool.or_eq_true, beq_iff_eq] at this
  rcases this with e | e
  · exact absurd e hc
  · exact List.all_eq_true.mp e

/-- `h'` is `h` with new cells that refer to each other and to `S`. -/
def Extends (S : Nat → Prop) (h h' : Heap) : Prop :=
  ∃ new : Heap, h' = h ++ new ∧ ∀ c ∈ new, Within (Plus S h.length h'.length) c.slots

theorem Extends.le {S : Nat → Prop} {h h' : Heap} (e : Extends S h h') : h.length ≤ h'.length := by
  obtain ⟨new, rfl, -⟩ := e
  simp

theorem Extends.refl (S : Nat → Prop) (h : Heap) : Extends S h h := ⟨[], by simp, fun _ hc => absurd hc List.not_mem_nil⟩

theorem Extends.trans {S : Nat → Prop} {h h' h'' : Heap} (e : Extends S h h') (e' : Extends (Plus S h.length h'.length) h' h'') :
    Extends S h h'' := by
  have l1 := e.le
  have l2 := e'.le
  obtain ⟨n1, rfl, w1⟩ := e
  obtain ⟨n2, rfl, w2⟩ := e'
  refine ⟨n1 ++ n2, by simp, ?_⟩
  intro c hc
  rcases List.mem_append.mp hc with hc | hc
  · exact (w1 c hc).mono fun a ha => ha.mono (Nat.le_refl _) l2
  · refine (w2 c hc).mono fun a ha => ?_
    rcases ha with ha | ha
    · exact ha.mono (Nat.le_refl _) l2
    · exact .inr ⟨by omega, ha.2⟩

theorem Extends.push (S : Nat → Prop) (h : Heap) (c : Cell) (hc : Within (Plus S h.length (h.length + 1)) c.slots) : Extends S h (h ++ [c]) :=
  ⟨[c], rfl, fun x hx => by cases List.mem_singleton.mp hx; simpa using hc⟩

mutual
theorem construct_extends (classes : Str → Nat) (S : Nat → Prop) (fuel : Nat) (c : Str) (hc : NotFlag c) (args : List (Str × Ref)) (h : Heap)
    (a : Nat) (h' : Heap) (hargs : Within S args) (e : construct classes fuel c args h = some (a, h')) :
    Extends S h h' ∧ h.length ≤ a ∧ a < h'.length := by
  match fuel with
  | 0 => rw [construct] at e; cases e
  | fuel + 1 =>
    rw [construct] at e
    obtain ⟨fields, hl, e⟩ := Option.bind_eq_some_iff.mp e
    obtain ⟨⟨slots, h1⟩, hf, e⟩ := Option.bind_eq_some_iff.mp e
    cases e
    obtain ⟨e1, e2⟩ := fillIn_extends classes S fuel args fields (lookup_fresh hc hl) h slots h1 hargs hf
    have := e1.le
    refine ⟨e1.trans (Extends.push _ _ _ (e2.mono fun a ha => .inl ha)), this, by simp⟩
theorem fieldValue_extends (classes : Str → Nat) (S : Nat → Prop) (fuel : Nat) (arg : Option Ref) (f : Factory) (hfresh : f.fresh = true) (h : Heap)
    (r : Ref) (h' : Heap) (harg : ∀ b, arg = some (.obj b) → S b) (e : fieldValue classes fuel arg f h = some (r, h')) :
    Extends S h h' ∧ ∀ b, r = .obj b → Plus S h.length h'.length b := by
  match arg, f with
  | some r', _ =>
    rw [fieldValue] at e
    cases e
    exact ⟨Extends.refl _ _, fun b hb => .inl (harg b (hb ▸ rfl))⟩
  | none, .const s => rw [fieldValue] at e; cases e; exact ⟨Extends.refl _ _, nofun⟩
  | none, .list =>
    rw [fieldValue] at e
    cases e
    refine ⟨Extends.push _ _ _ (fun _ hs => absurd hs List.not_mem_nil), ?_⟩
    rintro b ⟨⟩
    exact .inr ⟨Nat.le_refl _, by simp⟩
  | none, .dict =>
    rw [fieldValue] at e
    cases e
    refine ⟨Extends.push _ _ _ (fun _ hs => absurd hs List.not_mem_nil), ?_⟩
    rintro b ⟨⟩
    exact .inr ⟨Nat.le_refl _, by simp⟩
  | none, .cls c => cases hfresh
  | none, .new c cargs =>
    rw [fieldValue] at e
    obtain ⟨⟨a, h1⟩, e3, e⟩ := Option.bind_eq_some_iff.mp e
    cases e
    have hw : Within S (cargs.map fun x => (x.1, Ref.const x.2)) := by
      intro s hs b hb
      obtain ⟨x, -, rfl⟩ := List.mem_map.mp hs
      cases hb
    obtain ⟨k1, k2, k3⟩ := construct_extends classes S fuel c (by simpa [Factory.fresh, NotFlag] using hfresh) _ h a _ hw e3
    refine ⟨k1, ?_⟩
    rintro b ⟨⟩
    exact .inr ⟨k2, k3⟩
theorem fillIn_extends (classes : Str → Nat) (S : Nat → Prop) (fuel : Nat) (args : List (Str × Ref)) (fields : List (Str × Factory))
    (hfresh : ∀ f ∈ fields, f.2.fresh = true) (h : Heap) (slots : List (Str × Ref)) (h' : Heap) (hargs : Within S args)
    (e : fillIn classes fuel args fields h = some (slots, h')) :
    Extends S h h' ∧ Within (Plus S h.length h'.length) slots := by
  match fields with
  | [] =>
    rw [fillIn] at e
    cases e
    exact ⟨Extends.refl _ _, fun _ hs => absurd hs List.not_mem_nil⟩
  | field :: fields =>
    rw [fillIn] at e
    obtain ⟨⟨r, h1⟩, e1, e⟩ := Option.bind_eq_some_iff.mp e
    obtain ⟨⟨slots1, h2⟩, e2, e⟩ := Option.bind_eq_some_iff.mp e
    cases e
    have key := fieldValue_extends classes S fuel _ field.2 (hfresh _ List.mem_cons_self) h r h1
      (fun b hb => hargs _ (lookup_mem hb) b rfl) e1
    obtain ⟨k1, k2⟩ := fillIn_extends classes (Plus S h.length h1.length) fuel args fields (fun f hf => hfresh f (List.mem_cons_of_mem _ hf)) h1 _ _
      (hargs.mono fun a ha => .inl ha) e2
    have l1 := key.1.le
    have l2 := k1.le
    refine ⟨key.1.trans k1, ?_⟩
    intro s hs b hb
    rcases List.mem_cons.mp hs with rfl | hs
    · exact (key.2 b hb).mono (Nat.le_refl _) l2
    · rcases k2 s hs b hb with hb' | hb'
      · exact hb'.mono (Nat.le_refl _) l2
      · exact .inr ⟨by omega, hb'.2⟩
end

/-- What code can reach and change: with references into a closed set `S`, it changes nothing outside of `S`, and holds references to
`S` and to what it made. -/
theorem Runs.confined {classes : Str → Nat} {h h' : Heap} {l l' : List Ref} (r : Runs classes NotFlag h l h' l') (S : Nat → Prop)
    (hS : Closed S h) (hl : ∀ b, .obj b ∈ l → S b) :
    h.length ≤ h'.length ∧ (∀ a, a < h.length → ¬ S a → h'[a]? = h[a]?) ∧ Closed (Plus S h.length h'.length) h' ∧
    ∀ b, .obj b ∈ l' → Plus S h.length h'.length b := by
  induction r with
  | start =>
    refine ⟨Nat.le_refl _, fun _ _ _ => rfl, ?_, fun b hb => .inl (hl b hb)⟩
    intro a c ha hc
    rcases ha with ha | ha
    · exact (hS a c ha hc).mono fun _ hx => .inl hx
    · omega
  | const s r ih =>
    obtain ⟨i1, i2, i3, i4⟩ := ih
    refine ⟨i1, i2, i3, fun b hb => ?_⟩
    rcases List.mem_cons.mp hb with hb | hb
    · cases hb
    · exact i4 b hb
  | @list h' l' kind r ih =>
    obtain ⟨i1, i2, i3, i4⟩ := ih
    refine ⟨by simp; omega, ?_, ?_, ?_⟩
    · intro a ha hs
      rw [List.getElem?_append_left (by omega), i2 a ha hs]
    · intro a c ha hc
      by_cases hlt : a < h'.length
      · rw [List.getElem?_append_left hlt] at hc
        refine (i3 a c ?_ hc).mono fun _ hx => hx.mono (Nat.le_refl _) (by simp)
        rcases ha with ha | ha
        · exact .inl ha
        · exact .inr ⟨ha.1, hlt⟩
      · rw [List.getElem?_append_right (by omega)] at hc
        have : c = ⟨kind, []⟩ := by
          have hm := List.mem_of_getElem? hc
          exact List.mem_singleton.mp hm
        subst this
        exact fun _ hs => absurd hs List.not_mem_nil
    · intro b hb
      rcases List.mem_cons.mp hb with hb | hb
      · cases hb
        exact .inr ⟨i1, by simp⟩
      · exact (i4 b hb).mono (Nat.le_refl _) (by simp)
  | @construct h' l' fuel c args a h'' r hc ha e ih =>
    obtain ⟨i1, i2, i3, i4⟩ := ih
    obtain ⟨⟨new, rfl, hw⟩, k2, k3⟩ := construct_extends classes (Plus S h.length h'.length) fuel c hc args h' a h''
      (fun s hs b hb => i4 b (hb ▸ ha s hs)) e
    have hle : h'.length ≤ (h' ++ new).length := by simp
    refine ⟨by omega, ?_, ?_, ?_⟩
    · intro a ha hs
      rw [List.getElem?_append_left (by omega), i2 a ha hs]
    · intro a c ha hc
      by_cases hlt : a < h'.length
      · rw [List.getElem?_append_left hlt] at hc
        refine (i3 a c ?_ hc).mono fun _ hx => hx.mono (Nat.le_refl _) hle
        rcases ha with ha | ha
        · exact .inl ha
        · exact .inr ⟨ha.1, hlt⟩
      · rw [List.getElem?_append_right (by omega)] at hc
        refine (hw c (List.mem_of_getElem? hc)).mono fun x hx => ?_
        rcases hx with hx | hx
        · exact hx.mono (Nat.le_refl _) hle
        · exact .inr ⟨by omega, hx.2⟩
    · intro b hb
      rcases List.mem_cons.mp hb with hb | hb
      · cases hb
        exact .inr ⟨by omega, k3⟩
      · exact (i4 b hb).mono (Nat.le_refl _) hle
  | @read h' l' a name x r ha e ih =>
    obtain ⟨i1, i2, i3, i4⟩ := ih
    refine ⟨i1, i2, i3, fun b hb => ?_⟩
    rcases List.mem_cons.mp hb with hb | hb
    · subst hb
      unfold Heap.read at e
      cases hc : h'[a]? with
      | none => rw [hc] at e; cases e
      | some c =>
        rw [hc] at e
        exact i3 a c (i4 a ha) hc _ (lookup_mem e) b rfl
    · exact i4 b hb
  | @write h' l' a x name r ha hx ih =>
    obtain ⟨i1, i2, i3, i4⟩ := ih
    unfold Heap.write
    cases hc : h'[a]? with
    | none => exact ⟨i1, i2, i3, i4⟩
    | some c =>
      simp only [List.length_set]
      refine ⟨i1, ?_, ?_, i4⟩
      · intro b hb hs
        have hne : a ≠ b := by
          rintro rfl
          rcases i4 a ha with h | h
          · exact hs h
          · omega
        rw [List.getElem?_set_ne hne, i2 b hb hs]
      · intro b d hb hd
        by_cases hne : a = b
        · subst hne
          rw [List.getElem?_set_self (List.getElem?_eq_some_iff.mp hc).1] at hd
          cases hd
          intro s hs b hb'
          rcases List.mem_cons.mp hs with rfl | hs
          · exact i4 b (hb' ▸ hx)
          · exact i3 a c hb hc s (List.mem_filter.mp hs).1 b hb'
        · rw [List.getElem?_set_ne hne] at hd
          exact i3 b d hb hd

/-- What is read along a path depends on nothing outside of a closed set. -/
theorem path_congr {S : Nat → Prop} {h h' : Heap} (hS : Closed S h) (heq : ∀ a, S a → h'[a]? = h[a]?) (p : List Str) (r : Ref)
    (hr : ∀ b, r = .obj b → S b) : h'.path r p = h.path r p := by
  induction p generalizing r with
  | nil => cases r <;> rfl
  | cons n p ih =>
    cases r with
    | const s => rfl
    | obj a =>
      have ha := hr a rfl
      have e : h'.read a n = h.read a n := by unfold Heap.read; rw [heq a ha]
      rw [Heap.path, Heap.path, e]
      cases hx : h.read a n with
      | none => rfl
      | some x =>
        refine ih x ?_
        rintro b rfl
        unfold Heap.read at hx
        cases hc : h[a]? with
        | none => rw [hc] at hx; cases hx
        | some c =>
          rw [hc] at hx
          exact hS a c ha hc _ (lookup_mem hx) b rfl

/-! ## Theorems -/

/-- Code that holds no references, such as `from_file` or `create_new`, changes nothing that existed before. -/
theorem C54_pure_partial {classes : Str → Nat} {h h' : Heap} {l : List Ref} (r : Runs classes NotFlag h [] h' l) :
    ∀ a, a < h.length → h'[a]? = h[a]? :=
  fun a ha => (r.confined (fun _ => False) (fun _ _ h => h.elim) (fun _ hb => absurd hb List.not_mem_nil)).2.1 a ha id

/-- Of two objects (or several) that were loaded or created one after the other, any editing of the first leaves the second as it
was, whichever attributes of attributes one looks at. -/
theorem C54_second_partial {classes : Str → Nat} {h₀ h₁ h₂ h₃ : Heap} {l₁ l₂ l₃ : List Ref}
    (load₁ : Runs classes NotFlag h₀ [] h₁ l₁) (load₂ : Runs classes NotFlag h₁ [] h₂ l₂) (edit : Runs classes NotFlag h₂ l₁ h₃ l₃) :
    ∀ r ∈ l₂, ∀ p, h₃.path r p = h₂.path r p := by
  obtain ⟨a1, a2, a3, a4⟩ := load₁.confined (fun _ => False) (fun _ _ h => h.elim) (fun _ hb => absurd hb List.not_mem_nil)
  obtain ⟨b1, b2, b3, b4⟩ := load₂.confined (fun _ => False) (fun _ _ h => h.elim) (fun _ hb => absurd hb List.not_mem_nil)
  obtain ⟨c1, c2, -, -⟩ := edit.confined (Plus (fun _ => False) h₀.length h₁.length) (fun a c ha hc => by
    have hlt : a < h₁.length := ha.elim False.elim And.right
    rw [b2 a hlt id] at hc
    exact a3 a c ha hc) a4
  intro r hr p
  refine path_congr b3 ?_ p r (fun b hb => b4 b (hb ▸ hr))
  intro a ha
  rcases ha with ha | ha
  · exact ha.elim
  · refine c2 a ha.2 ?_
    rintro (h | h)
    · exact h
    · omega

/-- And any editing of the second leaves the first as it was. -/
theorem C54_first_partial {classes : Str → Nat} {h₀ h₁ h₂ h₃ : Heap} {l₁ l₂ l₃ : List Ref}
    (load₁ : Runs classes NotFlag h₀ [] h₁ l₁) (load₂ : Runs classes NotFlag h₁ [] h₂ l₂) (edit : Runs classes NotFlag h₂ l₂ h₃ l₃) :
    ∀ r ∈ l₁, ∀ p, h₃.path r p = h₁.path r p := by
  obtain ⟨a1, a2, a3, a4⟩ := load₁.confined (fun _ => False) (fun _ _ h => h.elim) (fun _ hb => absurd hb List.not_mem_nil)
  obtain ⟨b1, b2, b3, b4⟩ := load₂.confined (fun _ => False) (fun _ _ h => h.elim) (fun _ hb => absurd hb List.not_mem_nil)
  obtain ⟨c1, c2, -, -⟩ := edit.confined _ b3 b4
  intro r hr p
  refine path_congr a3 ?_ p r (fun b hb => a4 b (hb ▸ hr))
  intro a ha
  rcases ha with ha | ha
  · exact ha.elim
  · rw [c2 a (by omega) ?_, b2 a ha.2 id]
    rintro (h | h)
    · exact h
    · omega

/-- The heap after the construction of a netclass flag: a list for its properties and the flag itself. -/
theorem construct_flag {classes : Str → Nat} {h h' : Heap} {n : Nat} {a : Nat} (e : construct classes n k!"NetclassFlag" [] h = some (a, h')) :
    ∃ slots, a = h.length + 1 ∧ h' = h ++ [⟨k!"list", []⟩, ⟨k!"NetclassFlag", slots⟩] ∧
      slots.lookup k!"position" = some (.obj (classes k!"Position")) := by
  cases n with
  | zero => rw [construct] at e; cases e
  | succ n =>
    rw [construct] at e
    have ht : classTable.lookup k!"NetclassFlag" = some clsNetclassFlag := by rfl
    rw [ht] at e
    simp [clsNetclassFlag, fillIn, fieldValue] at e
    obtain ⟨rfl, rfl⟩ := e
    exact ⟨_, rfl, rfl, by rfl⟩

theorem second_of_two (g : Heap) (x y : Cell) : (g ++ [x, y])[g.length + 1]? = some y := by
  rw [List.getElem?_append_right (by omega), Nat.add_sub_cancel_left]
  rfl

/-- The default position of a netclass flag is shared by all netclass flags: setting the position of one of them moves the others. -/
theorem C54_violated (classes : Str → Nat) (h h₁ h₂ : Heap) (n m : Nat) (a b : Nat)
    (e₁ : construct classes n k!"NetclassFlag" [] h = some (a, h₁)) (e₂ : construct classes m k!"NetclassFlag" [] h₁ = some (b, h₂))
    (hc : classes k!"Position" < h.length) :
    ∃ p, h₂.path (.obj a) [k!"position"] = some (.obj p) ∧
      ∀ x, (h₂.write p k!"X" x).path (.obj b) [k!"position", k!"X"] = some x := by
  obtain ⟨s1, rfl, rfl, l1⟩ := construct_flag e₁
  obtain ⟨s2, rfl, rfl, l2⟩ := construct_flag e₂
  refine ⟨classes k!"Position", ?_, ?_⟩
  · rw [Heap.path, Heap.read, List.getElem?_append_left (by simp), second_of_two]
    simp only [l1]
    rfl
  · intro x
    generalize hg : h ++ [⟨k!"list", []⟩, ⟨k!"NetclassFlag", s1⟩] = g
    have hgl : classes k!"Position" < g.length := by rw [← hg]; simp; omega
    obtain ⟨c, hp⟩ : ∃ c, (g ++ [⟨k!"list", []⟩, ⟨k!"NetclassFlag", s2⟩])[classes k!"Position"]? = some c :=
      ⟨_, (List.getElem?_append_left hgl).trans (List.getElem?_eq_getElem hgl)⟩
    have hlen : (g ++ [⟨k!"list", []⟩, ⟨k!"NetclassFlag", s2⟩] : Heap).length = g.length + 2 := by simp
    generalize hk : g ++ [⟨k!"list", []⟩, ⟨k!"NetclassFlag", s2⟩] = k at *
    have hs : k[g.length + 1]? = some ⟨k!"NetclassFlag", s2⟩ := by rw [← hk]; exact second_of_two g _ _
    have h1 : (k.write (classes k!"Position") k!"X" x).read (g.length + 1) k!"position" = some (.obj (classes k!"Position")) := by
      simp only [Heap.write, hp, Heap.read]
      rw [List.getElem?_set_ne (by omega), hs]
      exact l2
    have h2 : (k.write (classes k!"Position") k!"X" x).read (classes k!"Position") k!"X" = some x := by
      simp only [Heap.write, hp, Heap.read]
      rw [List.getElem?_set_self (by omega)]
      simp
    rw [Heap.path, h1]
    simp only [Heap.path, h2]

/-! ## Non-trivial cases: every constructor returns -/

/-- Factories are nested at most `n` deep. -/
def deep : Nat → Str → Bool
  | 0, _ => false
  | n + 1, c => match classTable.lookup c with
    | none => false
    | some fields => fields.all fun f => match f.2 with
      | .new c _ => deep n c
      | _ => true

theorem fillIn_total (classes : Str → Nat) (n : Nat) (ih : ∀ c args h, deep n c = true → ∃ a h', construct classes n c args h = some (a, h'))
    (args : List (Str × Ref)) (fields : List (Str × Factory))
    (hf : ∀ f ∈ fields, ∀ c cargs, f.2 = .new c cargs → deep n c = true) (h : Heap) :
    ∃ slots h', fillIn classes n args fields h = some (slots, h') := by
  induction fields generalizing h with
  | nil => exact ⟨[], h, by rw [fillIn]⟩
  | cons f fields ih' =>
    have key : ∃ r h1, fieldValue classes n (args.lookup f.1) f.2 h = some (r, h1) := by
      cases ha : args.lookup f.1 with
      | some r => exact ⟨r, h, by rw [fieldValue]⟩
      | none =>
        cases hff : f.2 with
        | const s => exact ⟨_, _, by rw [fieldValue]⟩
        | list => exact ⟨_, _, by rw [fieldValue]⟩
        | dict => exact ⟨_, _, by rw [fieldValue]⟩
        | cls c => exact ⟨_, _, by rw [fieldValue]⟩
        | new c cargs =>
          obtain ⟨a, h', e⟩ := ih c (cargs.map fun x => (x.1, .const x.2)) h (hf f List.mem_cons_self c cargs hff)
          exact ⟨.obj a, h', by rw [fieldValue, e]; rfl⟩
    obtain ⟨r, h1, e1⟩ := key
    obtain ⟨slots, h2, e2⟩ := ih' (fun f hm => hf f (List.mem_cons_of_mem _ hm)) h1
    exact ⟨(f.1, r) :: slots, h2, by rw [fillIn, e1, Option.bind_some]; simp only [e2, Option.bind_some]⟩

theorem construct_total (classes : Str → Nat) (n : Nat) (c : Str) (args : List (Str × Ref)) (h : Heap) (hd : deep n c = true) :
    ∃ a h', construct classes n c args h = some (a, h') := by
  induction n generalizing c args h with
  | zero => cases hd
  | succ n ih =>
    rw [deep] at hd
    cases hl : classTable.lookup c with
    | none => rw [hl] at hd; cases hd
    | some fields =>
      rw [hl] at hd
      obtain ⟨slots, h', e⟩ := fillIn_total classes n (fun c args h hd => ih c args h hd) args fields (fun f hf c cargs hfc => by
        have := List.all_eq_true.mp hd f hf
        rw [hfc] at this
        exact this) h
      exact ⟨_, _, by rw [construct, hl, Option.bind_some, e, Option.bind_some]⟩

/-- Every class of the package has a constructor that can be called without arguments. -/
theorem C54_constructors (classes : Str → Nat) (c : Str) (hc : c ∈ classTable.map Prod.fst) (h : Heap) :
    ∃ a h', construct classes 5 c [] h = some (a, h') := by
  have : ∀ c ∈ classTable.map Prod.fst, deep 5 c = true := by decide +kernel
  exact construct_total classes 5 c [] h (this c hc)

/-- Two footprints are created, the list of pads of the first is read and a pad is put into it: the second one is as it was. -/
example (classes : Str → Nat) (h : Heap) : ∃ (h₁ h₂ : Heap) (a b : Nat), Runs classes NotFlag h [] h₁ [.obj a] ∧
    Runs classes NotFlag h₁ [] h₂ [.obj b] ∧ ∀ q x, h₂.read a k!"pads" = some (.obj q) → x = .const k!"1" →
      ∀ p, (h₂.write q k!"0" x).path (.obj b) p = h₂.path (.obj b) p := by
  obtain ⟨a, h1, e1⟩ := C54_constructors classes k!"Footprint" (by decide +kernel) h
  obtain ⟨b, h2, e2⟩ := C54_constructors classes k!"Footprint" (by decide +kernel) h1
  have r1 := Runs.construct (ok := NotFlag) (.start (h := h) (l := [])) (by unfold NotFlag; decide) (fun _ hx => absurd hx List.not_mem_nil) e1
  have r2 := Runs.construct (ok := NotFlag) (.start (h := h1) (l := [])) (by unfold NotFlag; decide) (fun _ hx => absurd hx List.not_mem_nil) e2
  refine ⟨h1, h2, a, b, r1, r2, ?_⟩
  rintro q x hq rfl p
  exact C54_second_partial r1 r2 (.write k!"0" (.const k!"1" (.read .start List.mem_cons_self hq))
    (List.mem_cons_of_mem _ List.mem_cons_self) List.mem_cons_self) _ List.mem_cons_self p

/-- The same with the list of pads of the second; and creating the second has changed nothing that was there before. -/
example (classes : Str → Nat) (h : Heap) : ∃ (h₁ h₂ : Heap) (a b : Nat), Runs classes NotFlag h [] h₁ [.obj a] ∧
    Runs classes NotFlag h₁ [] h₂ [.obj b] ∧ (∀ c, c < h₁.length → h₂[c]? = h₁[c]?) ∧
      ∀ q x, h₂.read b k!"pads" = some (.obj q) → x = .const k!"1" →
        ∀ p, (h₂.write q k!"0" x).path (.obj a) p = h₁.path (.obj a) p := by
  obtain ⟨a, h1, e1⟩ := C54_constructors classes k!"Footprint" (by decide +kernel) h
  obtain ⟨b, h2, e2⟩ := C54_constructors classes k!"Footprint" (by decide +kernel) h1
  have r1 := Runs.construct (ok := NotFlag) (.start (h := h) (l := [])) (by unfold NotFlag; decide) (fun _ hx => absurd hx List.not_mem_nil) e1
  have r2 := Runs.construct (ok := NotFlag) (.start (h := h1) (l := [])) (by unfold NotFlag; decide) (fun _ hx => absurd hx List.not_mem_nil) e2
  refine ⟨h1, h2, a, b, r1, r2, C54_pure_partial r2, ?_⟩
  rintro q x hq rfl p
  exact C54_first_partial r1 r2 (.write k!"0" (.const k!"1" (.read .start List.mem_cons_self hq))
    (List.mem_cons_of_mem _ List.mem_cons_self) List.mem_cons_self) _ List.mem_cons_self p

/-- Two netclass flags, of which the first is moved to the right. -/
example (classes : Str → Nat) (h : Heap) (hc : classes k!"Position" < h.length) : ∃ (h₂ : Heap) (b p : Nat),
    (h₂.write p k!"X" (.const k!"5")).path (.obj b) [k!"position", k!"X"] = some (.const k!"5") := by
  obtain ⟨a, h1, e1⟩ := C54_constructors classes k!"NetclassFlag" (by decide +kernel) h
  obtain ⟨b, h2, e2⟩ := C54_constructors classes k!"NetclassFlag" (by decide +kernel) h1
  obtain ⟨p, -, hp⟩ := C54_violated classes h h1 h2 5 5 a b e1 e2 hc
  exact ⟨h2, b, p, hp _⟩

end Kiutils.Objects
