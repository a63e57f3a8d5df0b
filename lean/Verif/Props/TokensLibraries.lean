import Verif.Swap
import Verif.Tracks.Libraries
/-!
# What `from_sexpr` makes of the items of a list: Libraries

For each class: `C37` (every field is read from the last item with its token; flags are set when their word or token occurs),
`C11` (lists contain all items with their tokens, once each, in order), `C36` (unrelated items may change places), `C10` (items
with unknown tokens are ignored). The vocabulary is defined in `Verif/Tokens.lean`.
-/
namespace Kiutils

theorem C37_Library (xs : List Val) (o : Library) (h : Library.fromSexpr (.list (.str k!"lib" :: xs)) = .ok o) :
    LastWins (tok k!"name") (·.idx 1) xs (st k!"" : Val) o.name ∧
    LastWins (tok k!"type") (·.idx 1) xs (st k!"KiCad" : Val) o.type ∧
    LastWins (tok k!"uri") (·.idx 1) xs (st k!"" : Val) o.uri ∧
    LastWins (tok k!"options") (·.idx 1) xs (st k!"" : Val) o.options ∧
    LastWins (tok k!"descr") (·.idx 1) xs (st k!"" : Val) o.description ∧
    LastWins (tok k!"disabled") (fun _ => do return false) xs (true : Bool) o.active := by
  rw [Library.loopEq ] at h
  exact ⟨((Track.folds (get := (·.name)) (fun o x o' hs => (Library.trackAll o x o' hs).1) h).drop rfl).last,
    ((Track.folds (get := (·.type)) (fun o x o' hs => (Library.trackAll o x o' hs).2.1) h).drop rfl).last,
    ((Track.folds (get := (·.uri)) (fun o x o' hs => (Library.trackAll o x o' hs).2.2.1) h).drop rfl).last,
    ((Track.folds (get := (·.options)) (fun o x o' hs => (Library.trackAll o x o' hs).2.2.2.1) h).drop rfl).last,
    ((Track.folds (get := (·.description)) (fun o x o' hs => (Library.trackAll o x o' hs).2.2.2.2.1) h).drop rfl).last,
    ((Track.folds (get := (·.active)) (fun o x o' hs => (Library.trackAll o x o' hs).2.2.2.2.2) h).drop rfl).last⟩

/-- A repeated token with an unknown one in between. -/
example : (Library.fromSexpr (.list [.str k!"lib", .list [.str k!"name", .str k!"a"], .list [.str k!"zzz", .int 1], .list [.str k!"name", .str k!"b"]])).map (·.name) = .ok (.str k!"b") := rfl

theorem C36_Library {xs ys : List Val} (hr : Reordered [] xs ys) (o : Library) :
    Library.fromSexpr (.list (.str k!"lib" :: xs)) = .ok o ↔ Library.fromSexpr (.list (.str k!"lib" :: ys)) = .ok o := by
  rw [Library.loopEq , Library.loopEq ]
  exact reordered_iff Library.indep Library.reordered (hr.cons _) o
example := C36_Library (.swap [] [] [.int 1] [.int 2] k!"name" k!"type" (by decide) (by decide))

theorem C10_Library (xs ys : List Val) {u : Val} {r : List Val}
    (hu : ∀ k ∈ [k!"name", k!"type", k!"uri", k!"options", k!"descr", k!"disabled"], u ≠ .str k) :
    Library.fromSexpr (.list (.str k!"lib" :: (xs ++ .list (u :: r) :: ys))) =
    Library.fromSexpr (.list (.str k!"lib" :: (xs ++ ys))) := by
  rw [Library.loopEq , Library.loopEq ]
  exact forM_insert (Library.unknown hu) _ (.str k!"lib" :: xs) ys
example := C10_Library [.list [.str k!"name", .int 1]] [] (u := .str k!"zzz") (r := [.int 1]) (by simp)

theorem C37_LibTable {hd : Str} (hh : hd = k!"fp_lib_table" ∨ hd = k!"sym_lib_table") (xs : List Val) (o : LibTable) (h : LibTable.fromSexpr (.list (.str hd :: xs)) = .ok o) :
    o.type = (.str hd) ∧
    o.filePath = (none : Option Str) := by
  rw [LibTable.loopEq hh] at h
  exact ⟨((Track.folds (get := (·.type)) (fun o x o' hs => (LibTable.trackAll o x o' hs).1) h)).const,
    ((Track.folds (get := (·.filePath)) (fun o x o' hs => (LibTable.trackAll o x o' hs).2.2) h)).const⟩
example := C37_LibTable (.inl rfl) [.list [.str k!"zzz", .int 1]] _ rfl

theorem C11_LibTable {hd : Str} (hh : hd = k!"fp_lib_table" ∨ hd = k!"sym_lib_table") (xs : List Val) (o : LibTable) (h : LibTable.fromSexpr (.list (.str hd :: xs)) = .ok o) :
    Collected (tok k!"lib") Library.fromSexpr xs o.libs := by
  rw [LibTable.loopEq hh] at h
  exact ((Track.folds (get := (·.libs)) (fun o x o' hs => (LibTable.trackAll o x o' hs).2.1) h).drop (by rcases hh with rfl | rfl <;> rfl)).collected
example := C11_LibTable (.inl rfl) [.list [.str k!"zzz", .int 1]] _ rfl

theorem C36_LibTable {hd : Str} (hh : hd = k!"fp_lib_table" ∨ hd = k!"sym_lib_table") {xs ys : List Val} (hr : Reordered [] xs ys) (o : LibTable) :
    LibTable.fromSexpr (.list (.str hd :: xs)) = .ok o ↔ LibTable.fromSexpr (.list (.str hd :: ys)) = .ok o := by
  rw [LibTable.loopEq hh, LibTable.loopEq hh]
  exact reordered_iff LibTable.indep LibTable.reordered (hr.cons _) o
example := C36_LibTable (.inl rfl) (.swap [] [] [.int 1] [.int 2] k!"lib" k!"zzz" (by decide) (by decide))

theorem C10_LibTable {hd : Str} (hh : hd = k!"fp_lib_table" ∨ hd = k!"sym_lib_table") (xs ys : List Val) {u : Val} {r : List Val}
    (hu : ∀ k ∈ [k!"lib"], u ≠ .str k) :
    LibTable.fromSexpr (.list (.str hd :: (xs ++ .list (u :: r) :: ys))) =
    LibTable.fromSexpr (.list (.str hd :: (xs ++ ys))) := by
  rw [LibTable.loopEq hh, LibTable.loopEq hh]
  exact forM_insert (LibTable.unknown hu) _ (.str hd :: xs) ys
example := C10_LibTable (.inl rfl) [.list [.str k!"lib", .int 1]] [] (u := .str k!"zzz") (r := [.int 1]) (by simp)

end Kiutils
