import Verif.Fmt
/-!
# Loops of `from_sexpr` over the values written by `to_sexpr`
-/
namespace Kiutils

section
variable {σ : Type} {step : σ → Val → PyM σ} {o o' : σ} {x : Val} {xs : List Val} {r : PyM σ}

theorem forM_append (a b : List Val) : forM step o (a ++ b) = (forM step o a >>= fun o' => forM step o' b) := by
  induction a generalizing o with
  | nil => rfl
  | cons v a ih =>
    simp only [List.cons_append, forM]
    cases h : step o v with
    | error e => rfl
    | ok o' => exact ih

theorem fo_start (h : forM step o (xs ++ []) = r) : forM step o xs = r := by
  rwa [List.append_nil] at h

theorem fo_end : forM step o [] = .ok o := rfl

theorem fo_cons (h : step o x = .ok o') (hs : forM step o' xs = r) : forM step o (x :: xs) = r := by
  simp only [forM, h]; exact hs

/-- A required field. -/
theorem fo_set {β : Type} (f : σ → β → σ) (v : β) (h : step o x = .ok (f o v)) (hs : forM step (f o v) xs = r) :
    forM step o (x :: xs) = r := fo_cons h hs

/-- An optional field. -/
theorem fo_opt {α β : Type} (f : σ → Option β → σ) (c : α → β) {v : Option α} {g : α → List Val} (h0 : f o none = o)
    (h1 : ∀ a, v = some a → forM step o (g a) = .ok (f o (some (c a)))) (hs : forM step (f o (v.map c)) xs = r) :
    forM step o (optL v g ++ xs) = r := by
  cases v with
  | none => simp only [Option.map_none, h0] at hs; exact hs
  | some a =>
    simp only [optL]
    rw [forM_append, h1 a rfl]
    exact hs

/-- A flag. -/
theorem fo_flag (f : σ → Bool → σ) {b : Bool} {l : List Val} (h0 : f o false = o)
    (h1 : b = true → forM step o l = .ok (f o true)) (hs : forM step (f o b) xs = r) :
    forM step o (ifL b l ++ xs) = r := by
  cases b with
  | false => simp only [h0] at hs; exact hs
  | true =>
    simp only [ifL, if_true]
    rw [forM_append, h1 rfl]
    exact hs

/-- A list of items, each written as one value; `step` may look at the items read before. -/
theorem fo_list_pre {α β : Type} (f : σ → List β → σ) (c : α → β) {l : List α} {g : α → Val} (h0 : f o [] = o)
    (h1 : ∀ pre a post, l = pre ++ a :: post → step (f o (pre.map c)) (g a) = .ok (f o (pre.map c ++ [c a])))
    (hs : forM step (f o (l.map c)) xs = r) : forM step o (l.map g ++ xs) = r := by
  have key : ∀ (l' pre : List α), l = pre ++ l' →
      forM step (f o (pre.map c)) (l'.map g) = .ok (f o (pre.map c ++ l'.map c)) := by
    intro l'
    induction l' with
    | nil => intro pre _; simp [forM]
    | cons a l' ih =>
      intro pre hm
      simp only [List.map_cons, forM]
      rw [h1 pre a l' hm]
      have := ih (pre ++ [a]) (by simp [hm])
      simp only [List.map_append, List.map_cons, List.map_nil, List.append_assoc, List.singleton_append] at this
      exact this
  have := key l [] rfl
  simp only [List.map_nil, h0, List.nil_append] at this
  rw [forM_append, this]
  exact hs

/-- A list of items, each written as one value. -/
theorem fo_list {α β : Type} (f : σ → List β → σ) (c : α → β) {l : List α} {g : α → Val} (h0 : f o [] = o)
    (h1 : ∀ pre, ∀ a ∈ l, step (f o pre) (g a) = .ok (f o (pre ++ [c a]))) (hs : forM step (f o (l.map c)) xs = r) :
    forM step o (l.map g ++ xs) = r :=
  fo_list_pre f c h0 (fun pre a post h => h1 _ a (by simp [h])) hs

/-- A required field holding an object that is read by `m`. -/
theorem fo_setB {β : Type} (f : σ → β → σ) {m : PyM β} {b : β} (e : m = .ok b)
    (h : step o x = (m >>= fun v => .ok (f o v))) (hs : forM step (f o b) xs = r) : forM step o (x :: xs) = r := by
  rw [e] at h; exact fo_cons h hs

/-- An optional field holding an object that is read by `m`. -/
theorem fo_optB {α β : Type} (f : σ → Option β → σ) {c : α → β} {v : Option α} {g : α → Val} {m : α → PyM β}
    (e : ∀ a, v = some a → m a = .ok (c a)) (h0 : f o none = o)
    (h1 : ∀ a, step o (g a) = (m a >>= fun b => .ok (f o (some b)))) (hs : forM step (f o (v.map c)) xs = r) :
    forM step o (optL v (fun a => [g a]) ++ xs) = r := by
  refine fo_opt f c h0 (fun a ha => ?_) hs
  refine fo_cons (o' := f o (some (c a))) ?_ rfl
  rw [h1, e a ha]; rfl

/-- A list of objects that are read by `m`. -/
theorem fo_listB {α β : Type} (f : σ → List β → σ) {c : α → β} {l : List α} {g : α → Val} {m : α → PyM β}
    (e : ∀ a ∈ l, m a = .ok (c a)) (h0 : f o [] = o)
    (h1 : ∀ pre a, step (f o pre) (g a) = (m a >>= fun b => .ok (f o (pre ++ [b]))))
    (hs : forM step (f o (l.map c)) xs = r) : forM step o (l.map g ++ xs) = r := by
  refine fo_list f c h0 (fun pre a ha => ?_) hs
  rw [h1, e a ha]; rfl

end

theorem bind_ok {α β : Type} {m : PyM α} {a : α} {k : α → PyM β} {r : PyM β} (h : m = .ok a) (hk : k a = r) :
    (m >>= k) = r := by rw [h]; exact hk

theorem eq_bind {σ β : Type} {m : PyM β} {b : β} {lhs : PyM σ} (f : β → σ) (e : m = .ok b)
    (h : lhs = (m >>= fun v => .ok (f v))) : lhs = .ok (f b) := by rw [h, e]; rfl

theorem mapM'_map {α β : Type} {f : Val → PyM β} {g : α → Val} {c : α → β} {l : List α}
    (h : ∀ a ∈ l, f (g a) = .ok (c a)) : mapM' f (l.map g) = .ok (l.map c) := by
  induction l with
  | nil => rfl
  | cons a l ih =>
    simp only [List.map_cons, mapM']
    rw [h a (by simp), ih (fun b hb => h b (by simp [hb]))]
    rfl

theorem checkHead_ok {β : Type} {key : Str} {r : List Val} {k : List Val → PyM β} :
    (checkHead key (.list (.str key :: r)) >>= k) = k (.str key :: r) := by
  simp only [checkHead, Val.is, beq_self_eq_true, if_true]; rfl

theorem NumOk.not_is {v : Val} (h : NumOk v) (k : Str) : v.canon.is k = false := by
  cases v with
  | int n => rfl
  | flt f => simp only [Val.canon]; split <;> rfl
  | str s => exact absurd h id
  | list l => exact absurd h id

theorem is_str (a b : Str) : (Val.str a).is b = (a == b) := rfl

/-- `item[0]` of a string is a single character and equals no key of two or more characters. -/
theorem char_is (c a b : Char) (k : Str) : (Val.str [c]).is (a :: b :: k) = false := by simp [Val.is]

theorem getI1 {β : Type} {a b : Val} {l : List Val} {k : Val → PyM β} : (getI (a :: b :: l) 1 >>= k) = k b := rfl
theorem getI2 {β : Type} {a b c : Val} {l : List Val} {k : Val → PyM β} : (getI (a :: b :: c :: l) 2 >>= k) = k c := rfl
theorem getI3 {β : Type} {a b c d : Val} {l : List Val} {k : Val → PyM β} : (getI (a :: b :: c :: d :: l) 3 >>= k) = k d := rfl

/-- A list of objects that is written as one value, and only if it is not empty. -/
theorem fo_ifMap {σ α β : Type} {step : σ → Val → PyM σ} {o : σ} {xs : List Val} {r : PyM σ} (f : σ → List β → σ) {c : α → β}
    {l : List α} {g : α → Val} {m : Val → PyM β} {key : Str} (e : ∀ a ∈ l, m (g a) = .ok (c a)) (h0 : f o [] = o)
    (h1 : ∀ vs, step o (.list (.str key :: vs)) = (mapM' m vs >>= fun v => .ok (f o v)))
    (hs : forM step (f o (l.map c)) xs = r) :
    forM step o (ifL (!l.isEmpty) [.list (.str key :: l.map g)] ++ xs) = r := by
  cases l with
  | nil => simp only [List.map_nil, h0] at hs; exact hs
  | cons a l =>
    refine fo_cons ?_ hs
    rw [h1, mapM'_map e]
    rfl

/-- A list of objects that is written as one value. -/
theorem fo_map {σ α β : Type} {step : σ → Val → PyM σ} {o : σ} {xs : List Val} {r : PyM σ} (f : σ → List β → σ) {c : α → β}
    {l : List α} {g : α → Val} {m : Val → PyM β} {key : Str} (e : ∀ a ∈ l, m (g a) = .ok (c a))
    (h1 : ∀ vs, step o (.list (.str key :: vs)) = (mapM' m vs >>= fun v => .ok (f o v)))
    (hs : forM step (f o (l.map c)) xs = r) : forM step o (.list (.str key :: l.map g) :: xs) = r := by
  refine fo_cons ?_ hs
  rw [h1, mapM'_map e]
  rfl

/-- Goes to the loop of a `from_sexpr`, and makes the end of the list explicit, so that every field is followed by something. -/
macro "foStart" : tactic => `(tactic|
  (try simp only [List.append_assoc, List.cons_append, List.nil_append, checkHead_ok, getI1, getI2, getI3, List.drop_succ_cons,
     List.drop_zero]
   try apply fo_start
   try simp only [List.append_assoc, List.cons_append, List.nil_append]))

/-- An element that the loop ignores. -/
macro "foSkip" : tactic => `(tactic| refine fo_cons (by rfl) ?_)
/-- A required scalar field. -/
macro "fld " f:ident : tactic => `(tactic| refine fo_set (fun o v => { o with $f:ident := v }) _ (by rfl) ?_)
/-- A required field holding an object, with the theorem about the object's `from_sexpr`. -/
macro "fld " f:ident " using " e:term : tactic =>
  `(tactic| refine fo_setB (fun o v => { o with $f:ident := v }) $e (by rfl) ?_)
/-- An optional scalar field. -/
macro "fldO " f:ident : tactic =>
  `(tactic| refine fo_opt (fun o v => { o with $f:ident := v }) canon (by rfl) (by intro _ _; rfl) ?_)
/-- An optional object. -/
macro "fldO " f:ident " using " e:term : tactic =>
  `(tactic| refine fo_optB (fun o v => { o with $f:ident := v }) $e (by rfl) (by intro _; rfl) ?_)
/-- A flag written as one of two words; `b` is its value. -/
macro "fldB " f:ident b:term : tactic =>
  `(tactic| refine fo_set (fun o v => { o with $f:ident := v }) $b (match $b:term with | true => rfl | false => rfl) ?_)
/-- A flag. -/
macro "fldF " f:ident : tactic =>
  `(tactic| refine fo_flag (fun o v => { o with $f:ident := v }) (by rfl) (by intro _; rfl) ?_)
/-- A list of objects. -/
macro "fldL " f:ident " using " e:term : tactic =>
  `(tactic| refine fo_listB (fun o v => { o with $f:ident := v }) $e (by rfl) (by intro _ _; rfl) ?_)
/-- A list of objects that is written as one value, and only if it is not empty. -/
macro "fldM " f:ident " using " e:term : tactic =>
  `(tactic| refine fo_ifMap (fun o v => { o with $f:ident := v }) $e (by rfl) (by intro _; rfl) ?_)

end Kiutils
