import Verif.Py
/-!
# What holds of the result of a computation
-/
namespace Kiutils

/-- If the computation returns, its result satisfies `P`. -/
def Post {α : Type} (m : PyM α) (P : α → Prop) : Prop := ∀ a, m = .ok a → P a

theorem post_ok {α : Type} {P : α → Prop} {a : α} (h : P a) : Post (.ok a : PyM α) P := fun _ e => by cases e; exact h
theorem post_pure {α : Type} {P : α → Prop} {a : α} (h : P a) : Post (pure a : PyM α) P := fun _ e => by cases e; exact h
theorem post_error {α : Type} {P : α → Prop} {e : PyErr} : Post (.error e : PyM α) P := fun _ h => by cases h
theorem post_bind {α β : Type} {P : β → Prop} {m : PyM α} {f : α → PyM β} (h : ∀ a, Post (f a) P) : Post (m >>= f) P := by
  cases m with
  | error e => exact post_error
  | ok a => exact h a
theorem post_ite {α : Type} {P : α → Prop} {c : Prop} [Decidable c] {m n : PyM α} (h : Post m P) (h' : Post n P) :
    Post (if c then m else n) P := by
  split
  · exact h
  · exact h'

/-- Goes through all branches of a loop body. -/
macro "post" : tactic => `(tactic|
  repeat' (with_reducible first
    | exact post_error
    | refine post_ite ?_ ?_
    | refine post_bind fun _ => ?_
    | refine post_pure ?_
    | refine post_ok ?_))

end Kiutils
