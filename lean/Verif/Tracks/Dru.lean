import Verif.Tokens
import Verif.Model.Dru
/-!
# Loop bodies of `from_sexpr` item by item: Dru
-/
namespace Kiutils

theorem Constraint.trackAll (o : Constraint) (x : Val) : Post (Constraint.step o x) fun o' =>
    Track (fun _ => false) (fun v _ => .ok v) x o.type o'.type ∧
    Track (tok k!"min") (fun _ => fun i => do return some (← i.idx 1)) x o.min o'.min ∧
    Track (tok k!"opt") (fun _ => fun i => do return some (← i.idx 1)) x o.opt o'.opt ∧
    Track (tok k!"max") (fun _ => fun i => do return some (← i.idx 1)) x o.max o'.max ∧
    Track (!·.isList) (fun l i => do return l ++ [← Except.ok i]) x o.elements o'.elements := by
  unfold Constraint.step
  cases x <;> simp only [Val.isList, if_true, Bool.false_eq_true, if_false]
  all_goals trackBoth

theorem Constraint.indep (o o' : Constraint) (x : Val) : Same (Constraint.step o x) (Constraint.step o' x) := by
  unfold Constraint.step
  same

theorem Constraint.unknown {h : Val} {r : List Val} (hu : ∀ k ∈ [k!"min", k!"opt", k!"max"], h ≠ .str k) (o : Constraint) :
    Constraint.step o (.list (h :: r)) = .ok o := by
  unfold Constraint.step
  unknownHead hu

theorem Constraint.reordered {o a b : Constraint} {xs ys : List Val} (hr : Reordered [] xs ys) (ha : forM Constraint.step o xs = .ok a)
    (hb : forM Constraint.step o ys = .ok b) : a = b := by
  have f0 : a.type = b.type := (Track.folds (get := (·.type)) (fun o x o' hs => (Constraint.trackAll o x o' hs).1) ha).unique
    (Track.folds (get := (·.type)) (fun o x o' hs => (Constraint.trackAll o x o' hs).1) hb) filter_never
  have f1 : a.min = b.min := (Track.folds (get := (·.min)) (fun o x o' hs => (Constraint.trackAll o x o' hs).2.1) ha).unique
    (Track.folds (get := (·.min)) (fun o x o' hs => (Constraint.trackAll o x o' hs).2.1) hb) (hr.tokens _)
  have f2 : a.opt = b.opt := (Track.folds (get := (·.opt)) (fun o x o' hs => (Constraint.trackAll o x o' hs).2.2.1) ha).unique
    (Track.folds (get := (·.opt)) (fun o x o' hs => (Constraint.trackAll o x o' hs).2.2.1) hb) (hr.tokens _)
  have f3 : a.max = b.max := (Track.folds (get := (·.max)) (fun o x o' hs => (Constraint.trackAll o x o' hs).2.2.2.1) ha).unique
    (Track.folds (get := (·.max)) (fun o x o' hs => (Constraint.trackAll o x o' hs).2.2.2.1) hb) (hr.tokens _)
  have f4 : a.elements = b.elements := (Track.folds (get := (·.elements)) (fun o x o' hs => (Constraint.trackAll o x o' hs).2.2.2.2) ha).unique
    (Track.folds (get := (·.elements)) (fun o x o' hs => (Constraint.trackAll o x o' hs).2.2.2.2) hb) hr.words
  show Constraint.mk a.type a.min a.opt a.max a.elements =
    Constraint.mk b.type b.min b.opt b.max b.elements
  rw [f0, f1, f2, f3, f4]

theorem Constraint.loopEq (type : Val) (xs : List Val) :
    Constraint.fromSexpr (.list (.str k!"constraint" :: type :: xs)) = forM Constraint.step { type := type } xs :=
  rfl

theorem Rule.trackAll (o : Rule) (x : Val) : Post (Rule.step o x) fun o' =>
    Track (fun _ => false) (fun v _ => .ok v) x o.name o'.name ∧
    Track (tok k!"constraint") (fun l i => do return l ++ [← Constraint.fromSexpr i]) x o.constraints o'.constraints ∧
    Track (tok k!"condition") (fun _ => (·.idx 1)) x o.condition o'.condition ∧
    Track (tok k!"layer") (fun _ => fun i => do return some (← i.idx 1)) x o.layer o'.layer ∧
    Track (tok k!"severity") (fun _ => fun i => do return some (← i.idx 1)) x o.severity o'.severity := by
  unfold Rule.step
  trackItems

theorem Rule.indep (o o' : Rule) (x : Val) : Same (Rule.step o x) (Rule.step o' x) := by
  unfold Rule.step
  same

theorem Rule.unknown {h : Val} {r : List Val} (hu : ∀ k ∈ [k!"constraint", k!"condition", k!"layer", k!"severity"], h ≠ .str k) (o : Rule) :
    Rule.step o (.list (h :: r)) = .ok o := by
  unfold Rule.step
  unknownHead hu

theorem Rule.reordered {o a b : Rule} {xs ys : List Val} (hr : Reordered [] xs ys) (ha : forM Rule.step o xs = .ok a)
    (hb : forM Rule.step o ys = .ok b) : a = b := by
  have f0 : a.name = b.name := (Track.folds (get := (·.name)) (fun o x o' hs => (Rule.trackAll o x o' hs).1) ha).unique
    (Track.folds (get := (·.name)) (fun o x o' hs => (Rule.trackAll o x o' hs).1) hb) filter_never
  have f1 : a.constraints = b.constraints := (Track.folds (get := (·.constraints)) (fun o x o' hs => (Rule.trackAll o x o' hs).2.1) ha).unique
    (Track.folds (get := (·.constraints)) (fun o x o' hs => (Rule.trackAll o x o' hs).2.1) hb) (hr.tokens _)
  have f2 : a.condition = b.condition := (Track.folds (get := (·.condition)) (fun o x o' hs => (Rule.trackAll o x o' hs).2.2.1) ha).unique
    (Track.folds (get := (·.condition)) (fun o x o' hs => (Rule.trackAll o x o' hs).2.2.1) hb) (hr.tokens _)
  have f3 : a.layer = b.layer := (Track.folds (get := (·.layer)) (fun o x o' hs => (Rule.trackAll o x o' hs).2.2.2.1) ha).unique
    (Track.folds (get := (·.layer)) (fun o x o' hs => (Rule.trackAll o x o' hs).2.2.2.1) hb) (hr.tokens _)
  have f4 : a.severity = b.severity := (Track.folds (get := (·.severity)) (fun o x o' hs => (Rule.trackAll o x o' hs).2.2.2.2) ha).unique
    (Track.folds (get := (·.severity)) (fun o x o' hs => (Rule.trackAll o x o' hs).2.2.2.2) hb) (hr.tokens _)
  show Rule.mk a.name a.constraints a.condition a.layer a.severity =
    Rule.mk b.name b.constraints b.condition b.layer b.severity
  rw [f0, f1, f2, f3, f4]

theorem Rule.loopEq (name : Val) (xs : List Val) :
    Rule.fromSexpr (.list (.str k!"rule" :: name :: xs)) = forM Rule.step { name := name } xs :=
  rfl

theorem DesignRules.trackAll (o : DesignRules) (x : Val) : Post (DesignRules.step o x) fun o' =>
    Track (tok k!"version") (fun _ => (·.idx 1)) x o.version o'.version ∧
    Track (tok k!"rule") (fun l i => do return l ++ [← Rule.fromSexpr i]) x o.rules o'.rules ∧
    Track (fun _ => false) (fun v _ => .ok v) x o.filePath o'.filePath := by
  unfold DesignRules.step
  trackItems

theorem DesignRules.indep (o o' : DesignRules) (x : Val) : Same (DesignRules.step o x) (DesignRules.step o' x) := by
  unfold DesignRules.step
  same

theorem DesignRules.unknown {h : Val} {r : List Val} (hu : ∀ k ∈ [k!"version", k!"rule"], h ≠ .str k) (o : DesignRules) :
    DesignRules.step o (.list (h :: r)) = .ok o := by
  unfold DesignRules.step
  unknownHead hu

theorem DesignRules.reordered {o a b : DesignRules} {xs ys : List Val} (hr : Reordered [] xs ys) (ha : forM DesignRules.step o xs = .ok a)
    (hb : forM DesignRules.step o ys = .ok b) : a = b := by
  have f0 : a.version = b.version := (Track.folds (get := (·.version)) (fun o x o' hs => (DesignRules.trackAll o x o' hs).1) ha).unique
    (Track.folds (get := (·.version)) (fun o x o' hs => (DesignRules.trackAll o x o' hs).1) hb) (hr.tokens _)
  have f1 : a.rules = b.rules := (Track.folds (get := (·.rules)) (fun o x o' hs => (DesignRules.trackAll o x o' hs).2.1) ha).unique
    (Track.folds (get := (·.rules)) (fun o x o' hs => (DesignRules.trackAll o x o' hs).2.1) hb) (hr.tokens _)
  have f2 : a.filePath = b.filePath := (Track.folds (get := (·.filePath)) (fun o x o' hs => (DesignRules.trackAll o x o' hs).2.2) ha).unique
    (Track.folds (get := (·.filePath)) (fun o x o' hs => (DesignRules.trackAll o x o' hs).2.2) hb) filter_never
  show DesignRules.mk a.version a.rules a.filePath =
    DesignRules.mk b.version b.rules b.filePath
  rw [f0, f1, f2]

theorem DesignRules.loopEq (r0 : List Val) (xs : List Val) :
    DesignRules.fromSexpr (.list (.list (.str k!"version" :: r0) :: xs)) = forM DesignRules.step {} (.list (.str k!"version" :: r0) :: xs) :=
  rfl

end Kiutils
