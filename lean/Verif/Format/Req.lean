import Verif.Fold
/-!
# Attributes that may be `None` but are always written

Some classes declare an attribute as optional and write it without looking: `None` becomes the word `None`. Such an attribute
has to be set for the object to be read back.
-/
namespace Kiutils

/-- The value written for such an attribute. -/
def optCanon : Option Val → Val
  | some v => v.canon
  | none => .str k!"None"

/-- The attribute is set, to something of the given kind. -/
def ReqOk (P : Val → Prop) (x : Option Val) : Prop := ∃ v, x = some v ∧ P v

theorem ReqOk.some_canon {P : Val → Prop} {x : Option Val} (h : ReqOk P x) : some (optCanon x) = canon x := by
  obtain ⟨v, rfl, _⟩ := h; rfl

section
variable {s : Str} {t : List Tok}

theorem lx_reqNum [TextRule] {x : Option Val} (hx : ReqOk NumOk x) (hd : numEnd s = true) (h : s ⇛ t) :
    (optPyStr x ++ s) ⇛ toks (optCanon x) ++ t := by
  obtain ⟨v, rfl, hv⟩ := hx; exact lx_num hv hd h
theorem lx_reqAtom [TextRule] {x : Option Val} (hx : ReqOk AtomOk x) (hd : numEnd s = true) (h : s ⇛ t) :
    (optPyStr x ++ s) ⇛ toks (optCanon x) ++ t := by
  obtain ⟨v, rfl, hv⟩ := hx; exact lx_atom hv hd h
end

macro_rules | `(tactic| lxObj) => `(tactic| ((with_reducible refine lx_reqNum ?_ ?_ ?_); (· wf); (· delim)))
macro_rules | `(tactic| lxObj) => `(tactic| ((with_reducible refine lx_reqAtom ?_ ?_ ?_); (· wf); (· delim)))

theorem ifL_true (l : List Val) : ifL true l = l := rfl
theorem ifL_false (l : List Val) : ifL false l = [] := rfl
theorem ifS_true (l : Str) : ifS true l = l := rfl
theorem ifS_false (l : Str) : ifS false l = [] := rfl
theorem optS_none {α : Type} (f : α → Str) : optS none f = [] := rfl
theorem optS_some {α : Type} (a : α) (f : α → Str) : optS (some a) f = f a := rfl

/-- A field of that kind. -/
theorem fo_req {σ : Type} {step : σ → Val → PyM σ} {o : σ} {xs : List Val} {r : PyM σ} (f : σ → Option Val → σ) {P : Val → Prop}
    {v : Option Val} {g : Val → Val} (hv : ReqOk P v) (h : ∀ a, step o (g a) = .ok (f o (some a)))
    (hs : forM step (f o (canon v)) xs = r) : forM step o (g (optCanon v) :: xs) = r := by
  refine fo_cons (h _) ?_
  rw [hv.some_canon]; exact hs

/-- A list of scalars that is written as one value, and only if it is not empty. -/
theorem fo_ifScalars {σ : Type} {step : σ → Val → PyM σ} {o : σ} {xs : List Val} {r : PyM σ} (f : σ → List Val → σ)
    {l : List Val} {key : Str} (h0 : f o [] = o) (h1 : ∀ vs, step o (.list (.str key :: vs)) = .ok (f o vs))
    (hs : forM step (f o (l.map Val.canon)) xs = r) :
    forM step o (ifL (!l.isEmpty) [.list (.str key :: l.map Val.canon)] ++ xs) = r := by
  cases l with
  | nil => simp only [List.map_nil, h0] at hs; exact hs
  | cons a l => exact fo_cons (h1 _) hs

/-- A required field of an optional type. -/
macro "fldR " f:ident k:term:max h:term:max : tactic =>
  `(tactic| refine fo_req (g := fun a => Val.list [Val.str $k, a]) (fun o v => { o with $f:ident := v }) $h (by intro _; rfl) ?_)

end Kiutils
