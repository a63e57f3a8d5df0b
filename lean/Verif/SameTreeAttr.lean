import Lean.Meta.Tactic.Simp.RegisterCommand
/-!
# A set of rewrite rules for `Verif/Proofs/SameTree.lean`
-/
/-- Rules that remove `canon` from the tree of an object. -/
register_simp_attr sametree
