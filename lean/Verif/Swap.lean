import Verif.Tokens
/-!
# Exchanging two neighbours (for C36)
-/
namespace Kiutils

/-- Two neighbouring items with different tokens may be exchanged, unless their tokens are in one of the groups. -/
theorem Reordered.swap {g : List (List Str)} (xs ys r s : List Val) (k l : Str) (hne : k ≠ l) (hg : ∀ t ∈ g, k ∈ t → l ∉ t) :
    Reordered g (xs ++ .list (.str k :: r) :: .list (.str l :: s) :: ys) (xs ++ .list (.str l :: s) :: .list (.str k :: r) :: ys) := by
  have key : ∀ p : Val → Bool, (p (.list (.str k :: r)) = true → p (.list (.str l :: s)) = false) →
      (xs ++ .list (.str k :: r) :: .list (.str l :: s) :: ys).filter p = (xs ++ .list (.str l :: s) :: .list (.str k :: r) :: ys).filter p := by
    intro p hp
    simp only [List.filter_append, List.filter_cons]
    cases h1 : p (.list (.str k :: r)) <;> cases h2 : p (.list (.str l :: s)) <;> simp_all
  refine ⟨(List.Perm.swap ..).append_left xs, fun t => key _ fun h => ?_, key _ fun h => by simp [Val.isList] at h, fun t ht => key _ fun h => ?_⟩
  · simp only [tok, Val.is, beq_iff_eq, beq_eq_false_iff_ne] at h ⊢
    exact fun hl => hne (h.trans hl.symm)
  · simp only [tokIn, List.any_eq_true, List.any_eq_false] at h ⊢
    obtain ⟨x, hx, h⟩ := h
    simp only [tok, Val.is, beq_iff_eq] at h ⊢
    exact fun y hy hl => hg t ht (h ▸ hx) (hl ▸ hy)

end Kiutils
