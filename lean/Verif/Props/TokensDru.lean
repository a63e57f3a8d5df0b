import Verif.Swap
import Verif.Tracks.Dru
/-!
# What `from_sexpr` makes of the items of a list: Dru

For each class: `C37` (every field is read from the last item with its token; flags are set when their word or token occurs),
`C11` (lists contain all items with their tokens, once each, in order), `C36` (unrelated items may change places), `C10` (items
with unknown tokens are ignored). The vocabulary is defined in `Verif/Tokens.lean`.
-/
namespace Kiutils

theorem C37_Constraint (type : Val) (xs : List Val) (o : Constraint) (h : Constraint.fromSexpr (.list (.str k!"constraint" :: type :: xs)) = .ok o) :
    o.type = type ∧
    LastWins (tok k!"min") (fun i => do return some (← i.idx 1)) xs (none : Option Val) o.min ∧
    LastWins (tok k!"opt") (fun i => do return some (← i.idx 1)) xs (none : Option Val) o.opt ∧
    LastWins (tok k!"max") (fun i => do return some (← i.idx 1)) xs (none : Option Val) o.max := by
  rw [Constraint.loopEq type] at h
  exact ⟨((Track.folds (get := (·.type)) (fun o x o' hs => (Constraint.trackAll o x o' hs).1) h)).const,
    ((Track.folds (get := (·.min)) (fun o x o' hs => (Constraint.trackAll o x o' hs).2.1) h)).last,
    ((Track.folds (get := (·.opt)) (fun o x o' hs => (Constraint.trackAll o x o' hs).2.2.1) h)).last,
    ((Track.folds (get := (·.max)) (fun o x o' hs => (Constraint.trackAll o x o' hs).2.2.2.1) h)).last⟩
example := C37_Constraint (.str k!"x") [.list [.str k!"min", .str k!"a"]] _ rfl

theorem C11_Constraint (type : Val) (xs : List Val) (o : Constraint) (h : Constraint.fromSexpr (.list (.str k!"constraint" :: type :: xs)) = .ok o) :
    Collected (!·.isList) Except.ok xs o.elements := by
  rw [Constraint.loopEq type] at h
  exact ((Track.folds (get := (·.elements)) (fun o x o' hs => (Constraint.trackAll o x o' hs).2.2.2.2) h)).collected

/-- A repeated token with an unknown one in between. -/
example : (Constraint.fromSexpr (.list [.str k!"constraint", .str k!"x", .list [.str k!"min", .str k!"a"], .list [.str k!"zzz", .int 1], .list [.str k!"min", .str k!"b"]])).map (·.min) = .ok (some (.str k!"b")) := rfl

theorem C36_Constraint (type : Val) {xs ys : List Val} (hr : Reordered [] xs ys) (o : Constraint) :
    Constraint.fromSexpr (.list (.str k!"constraint" :: type :: xs)) = .ok o ↔ Constraint.fromSexpr (.list (.str k!"constraint" :: type :: ys)) = .ok o := by
  rw [Constraint.loopEq type, Constraint.loopEq type]
  exact reordered_iff Constraint.indep Constraint.reordered hr o
example := C36_Constraint (.str k!"x") (.swap [] [] [.int 1] [.int 2] k!"min" k!"opt" (by decide) (by decide))

theorem C10_Constraint (type : Val) (xs ys : List Val) {u : Val} {r : List Val}
    (hu : ∀ k ∈ [k!"min", k!"opt", k!"max"], u ≠ .str k) :
    Constraint.fromSexpr (.list (.str k!"constraint" :: type :: (xs ++ .list (u :: r) :: ys))) =
    Constraint.fromSexpr (.list (.str k!"constraint" :: type :: (xs ++ ys))) := by
  rw [Constraint.loopEq type, Constraint.loopEq type]
  exact forM_insert (Constraint.unknown hu) _ xs ys
example := C10_Constraint (.str k!"x") [.list [.str k!"min", .int 1]] [] (u := .str k!"zzz") (r := [.int 1]) (by simp)

theorem C37_Rule (name : Val) (xs : List Val) (o : Rule) (h : Rule.fromSexpr (.list (.str k!"rule" :: name :: xs)) = .ok o) :
    o.name = name ∧
    LastWins (tok k!"condition") (·.idx 1) xs (st k!"" : Val) o.condition ∧
    LastWins (tok k!"layer") (fun i => do return some (← i.idx 1)) xs (none : Option Val) o.layer ∧
    LastWins (tok k!"severity") (fun i => do return some (← i.idx 1)) xs (none : Option Val) o.severity := by
  rw [Rule.loopEq name] at h
  exact ⟨((Track.folds (get := (·.name)) (fun o x o' hs => (Rule.trackAll o x o' hs).1) h)).const,
    ((Track.folds (get := (·.condition)) (fun o x o' hs => (Rule.trackAll o x o' hs).2.2.1) h)).last,
    ((Track.folds (get := (·.layer)) (fun o x o' hs => (Rule.trackAll o x o' hs).2.2.2.1) h)).last,
    ((Track.folds (get := (·.severity)) (fun o x o' hs => (Rule.trackAll o x o' hs).2.2.2.2) h)).last⟩
example := C37_Rule (.str k!"x") [.list [.str k!"condition", .str k!"a"]] _ rfl

theorem C11_Rule (name : Val) (xs : List Val) (o : Rule) (h : Rule.fromSexpr (.list (.str k!"rule" :: name :: xs)) = .ok o) :
    Collected (tok k!"constraint") Constraint.fromSexpr xs o.constraints := by
  rw [Rule.loopEq name] at h
  exact ((Track.folds (get := (·.constraints)) (fun o x o' hs => (Rule.trackAll o x o' hs).2.1) h)).collected

/-- A repeated token with an unknown one in between. -/
example : (Rule.fromSexpr (.list [.str k!"rule", .str k!"x", .list [.str k!"condition", .str k!"a"], .list [.str k!"zzz", .int 1], .list [.str k!"condition", .str k!"b"]])).map (·.condition) = .ok (.str k!"b") := rfl

theorem C36_Rule (name : Val) {xs ys : List Val} (hr : Reordered [] xs ys) (o : Rule) :
    Rule.fromSexpr (.list (.str k!"rule" :: name :: xs)) = .ok o ↔ Rule.fromSexpr (.list (.str k!"rule" :: name :: ys)) = .ok o := by
  rw [Rule.loopEq name, Rule.loopEq name]
  exact reordered_iff Rule.indep Rule.reordered hr o
example := C36_Rule (.str k!"x") (.swap [] [] [.int 1] [.int 2] k!"constraint" k!"condition" (by decide) (by decide))

theorem C10_Rule (name : Val) (xs ys : List Val) {u : Val} {r : List Val}
    (hu : ∀ k ∈ [k!"constraint", k!"condition", k!"layer", k!"severity"], u ≠ .str k) :
    Rule.fromSexpr (.list (.str k!"rule" :: name :: (xs ++ .list (u :: r) :: ys))) =
    Rule.fromSexpr (.list (.str k!"rule" :: name :: (xs ++ ys))) := by
  rw [Rule.loopEq name, Rule.loopEq name]
  exact forM_insert (Rule.unknown hu) _ xs ys
example := C10_Rule (.str k!"x") [.list [.str k!"constraint", .int 1]] [] (u := .str k!"zzz") (r := [.int 1]) (by simp)

theorem C37_DesignRules (r0 : List Val) (xs : List Val) (o : DesignRules) (h : DesignRules.fromSexpr (.list (.list (.str k!"version" :: r0) :: xs)) = .ok o) :
    LastWins (tok k!"version") (·.idx 1) (.list (.str k!"version" :: r0) :: xs) (.int 1 : Val) o.version ∧
    o.filePath = (none : Option Str) := by
  rw [DesignRules.loopEq r0] at h
  exact ⟨((Track.folds (get := (·.version)) (fun o x o' hs => (DesignRules.trackAll o x o' hs).1) h)).last,
    ((Track.folds (get := (·.filePath)) (fun o x o' hs => (DesignRules.trackAll o x o' hs).2.2) h)).const⟩
example := C37_DesignRules [.int 1] [.list [.str k!"version", .str k!"a"]] _ rfl

theorem C11_DesignRules (r0 : List Val) (xs : List Val) (o : DesignRules) (h : DesignRules.fromSexpr (.list (.list (.str k!"version" :: r0) :: xs)) = .ok o) :
    Collected (tok k!"rule") Rule.fromSexpr (.list (.str k!"version" :: r0) :: xs) o.rules := by
  rw [DesignRules.loopEq r0] at h
  exact ((Track.folds (get := (·.rules)) (fun o x o' hs => (DesignRules.trackAll o x o' hs).2.1) h)).collected

/-- A repeated token with an unknown one in between. -/
example : (DesignRules.fromSexpr (.list [.list [.str k!"version", .int 1], .list [.str k!"version", .str k!"a"], .list [.str k!"zzz", .int 1], .list [.str k!"version", .str k!"b"]])).map (·.version) = .ok (.str k!"b") := rfl

theorem C36_DesignRules (r0 : List Val) {xs ys : List Val} (hr : Reordered [] xs ys) (o : DesignRules) :
    DesignRules.fromSexpr (.list (.list (.str k!"version" :: r0) :: xs)) = .ok o ↔ DesignRules.fromSexpr (.list (.list (.str k!"version" :: r0) :: ys)) = .ok o := by
  rw [DesignRules.loopEq r0, DesignRules.loopEq r0]
  exact reordered_iff DesignRules.indep DesignRules.reordered (hr.cons _) o
example := C36_DesignRules [] (.swap [] [] [.int 1] [.int 2] k!"version" k!"rule" (by decide) (by decide))

theorem C10_DesignRules (r0 : List Val) (xs ys : List Val) {u : Val} {r : List Val}
    (hu : ∀ k ∈ [k!"version", k!"rule"], u ≠ .str k) :
    DesignRules.fromSexpr (.list (.list (.str k!"version" :: r0) :: (xs ++ .list (u :: r) :: ys))) =
    DesignRules.fromSexpr (.list (.list (.str k!"version" :: r0) :: (xs ++ ys))) := by
  rw [DesignRules.loopEq r0, DesignRules.loopEq r0]
  exact forM_insert (DesignRules.unknown hu) _ (.list (.str k!"version" :: r0) :: xs) ys
example := C10_DesignRules [] [.list [.str k!"version", .int 1]] [] (u := .str k!"zzz") (r := [.int 1]) (by simp)

end Kiutils
