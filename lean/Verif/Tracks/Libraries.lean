import Verif.Tokens
import Verif.Model.Libraries
/-!
# Loop bodies of `from_sexpr` item by item: Libraries
-/
namespace Kiutils

theorem Library.trackAll (o : Library) (x : Val) : Post (Library.step o x) fun o' =>
    Track (tok k!"name") (fun _ => (·.idx 1)) x o.name o'.name ∧
    Track (tok k!"type") (fun _ => (·.idx 1)) x o.type o'.type ∧
    Track (tok k!"uri") (fun _ => (·.idx 1)) x o.uri o'.uri ∧
    Track (tok k!"options") (fun _ => (·.idx 1)) x o.options o'.options ∧
    Track (tok k!"descr") (fun _ => (·.idx 1)) x o.description o'.description ∧
    Track (tok k!"disabled") (fun _ => fun _ => do return false) x o.active o'.active := by
  unfold Library.step
  trackItems

theorem Library.indep (o o' : Library) (x : Val) : Same (Library.step o x) (Library.step o' x) := by
  unfold Library.step
  same

theorem Library.unknown {h : Val} {r : List Val} (hu : ∀ k ∈ [k!"name", k!"type", k!"uri", k!"options", k!"descr", k!"disabled"], h ≠ .str k) (o : Library) :
    Library.step o (.list (h :: r)) = .ok o := by
  unfold Library.step
  unknownHead hu

theorem Library.reordered {o a b : Library} {xs ys : List Val} (hr : Reordered [] xs ys) (ha : forM Library.step o xs = .ok a)
    (hb : forM Library.step o ys = .ok b) : a = b := by
  have f0 : a.name = b.name := (Track.folds (get := (·.name)) (fun o x o' hs => (Library.trackAll o x o' hs).1) ha).unique
    (Track.folds (get := (·.name)) (fun o x o' hs => (Library.trackAll o x o' hs).1) hb) (hr.tokens _)
  have f1 : a.type = b.type := (Track.folds (get := (·.type)) (fun o x o' hs => (Library.trackAll o x o' hs).2.1) ha).unique
    (Track.folds (get := (·.type)) (fun o x o' hs => (Library.trackAll o x o' hs).2.1) hb) (hr.tokens _)
  have f2 : a.uri = b.uri := (Track.folds (get := (·.uri)) (fun o x o' hs => (Library.trackAll o x o' hs).2.2.1) ha).unique
    (Track.folds (get := (·.uri)) (fun o x o' hs => (Library.trackAll o x o' hs).2.2.1) hb) (hr.tokens _)
  have f3 : a.options = b.options := (Track.folds (get := (·.options)) (fun o x o' hs => (Library.trackAll o x o' hs).2.2.2.1) ha).unique
    (Track.folds (get := (·.options)) (fun o x o' hs => (Library.trackAll o x o' hs).2.2.2.1) hb) (hr.tokens _)
  have f4 : a.description = b.description := (Track.folds (get := (·.description)) (fun o x o' hs => (Library.trackAll o x o' hs).2.2.2.2.1) ha).unique
    (Track.folds (get := (·.description)) (fun o x o' hs => (Library.trackAll o x o' hs).2.2.2.2.1) hb) (hr.tokens _)
  have f5 : a.active = b.active := (Track.folds (get := (·.active)) (fun o x o' hs => (Library.trackAll o x o' hs).2.2.2.2.2) ha).unique
    (Track.folds (get := (·.active)) (fun o x o' hs => (Library.trackAll o x o' hs).2.2.2.2.2) hb) (hr.tokens _)
  show Library.mk a.name a.type a.uri a.options a.description a.active =
    Library.mk b.name b.type b.uri b.options b.description b.active
  rw [f0, f1, f2, f3, f4, f5]

theorem Library.loopEq (xs : List Val) :
    Library.fromSexpr (.list (.str k!"lib" :: xs)) = forM Library.step {} (.str k!"lib" :: xs) :=
  rfl

theorem LibTable.trackAll (o : LibTable) (x : Val) : Post (LibTable.step o x) fun o' =>
    Track (fun _ => false) (fun v _ => .ok v) x o.type o'.type ∧
    Track (tok k!"lib") (fun l i => do return l ++ [← Library.fromSexpr i]) x o.libs o'.libs ∧
    Track (fun _ => false) (fun v _ => .ok v) x o.filePath o'.filePath := by
  unfold LibTable.step
  trackItems

theorem LibTable.indep (o o' : LibTable) (x : Val) : Same (LibTable.step o x) (LibTable.step o' x) := by
  unfold LibTable.step
  same

theorem LibTable.unknown {h : Val} {r : List Val} (hu : ∀ k ∈ [k!"lib"], h ≠ .str k) (o : LibTable) :
    LibTable.step o (.list (h :: r)) = .ok o := by
  unfold LibTable.step
  unknownHead hu

theorem LibTable.reordered {o a b : LibTable} {xs ys : List Val} (hr : Reordered [] xs ys) (ha : forM LibTable.step o xs = .ok a)
    (hb : forM LibTable.step o ys = .ok b) : a = b := by
  have f0 : a.type = b.type := (Track.folds (get := (·.type)) (fun o x o' hs => (LibTable.trackAll o x o' hs).1) ha).unique
    (Track.folds (get := (·.type)) (fun o x o' hs => (LibTable.trackAll o x o' hs).1) hb) filter_never
  have f1 : a.libs = b.libs := (Track.folds (get := (·.libs)) (fun o x o' hs => (LibTable.trackAll o x o' hs).2.1) ha).unique
    (Track.folds (get := (·.libs)) (fun o x o' hs => (LibTable.trackAll o x o' hs).2.1) hb) (hr.tokens _)
  have f2 : a.filePath = b.filePath := (Track.folds (get := (·.filePath)) (fun o x o' hs => (LibTable.trackAll o x o' hs).2.2) ha).unique
    (Track.folds (get := (·.filePath)) (fun o x o' hs => (LibTable.trackAll o x o' hs).2.2) hb) filter_never
  show LibTable.mk a.type a.libs a.filePath =
    LibTable.mk b.type b.libs b.filePath
  rw [f0, f1, f2]

theorem LibTable.loopEq {hd : Str} (hh : hd = k!"fp_lib_table" ∨ hd = k!"sym_lib_table") (xs : List Val) :
    LibTable.fromSexpr (.list (.str hd :: xs)) = forM LibTable.step { type := .str hd } (.str hd :: xs) :=
  by rcases hh with rfl | rfl <;> rfl

end Kiutils
