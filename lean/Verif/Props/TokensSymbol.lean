import Verif.Swap
import Verif.Tracks.Symbol
/-!
# What `from_sexpr` makes of the items of a list: Symbol

For each class: `C37` (every field is read from the last item with its token; flags are set when their word or token occurs),
`C11` (lists contain all items with their tokens, once each, in order), `C36` (unrelated items may change places), `C10` (items
with unknown tokens are ignored). The vocabulary is defined in `Verif/Tokens.lean`.
-/
namespace Kiutils

theorem C37_SymbolPin (a b : Val) (xs : List Val) (o : SymbolPin) (h : SymbolPin.fromSexpr (.list (.str k!"pin" :: a :: b :: xs)) = .ok o) :
    o.electricalType = a ∧
    o.graphicalStyle = b ∧
    LastWins (tok k!"at") Position.fromSexpr xs ({} : Position) o.position ∧
    LastWins (tok k!"length") (·.idx 1) xs (fl k!"0" k!"254" : Val) o.length ∧
    LastWins (tok k!"name") (·.idx 1) xs (st k!"" : Val) o.name ∧
    FoldsTo (tok k!"name") (fun acc i => do if (← i.len) > 2 then return some (← Effects.fromSexpr (← i.idx 2)) else return acc) xs (none : Option Effects) o.nameEffects ∧
    LastWins (tok k!"number") (·.idx 1) xs (st k!"0" : Val) o.number ∧
    FoldsTo (tok k!"number") (fun acc i => do if (← i.len) > 2 then return some (← Effects.fromSexpr (← i.idx 2)) else return acc) xs (none : Option Effects) o.numberEffects ∧
    o.hide = xs.any (wordIn [k!"hide"]) := by
  rw [SymbolPin.loopEq a b] at h
  exact ⟨((Track.folds (get := (·.electricalType)) (fun o x o' hs => (SymbolPin.trackAll o x o' hs).1) h)).const,
    ((Track.folds (get := (·.graphicalStyle)) (fun o x o' hs => (SymbolPin.trackAll o x o' hs).2.1) h)).const,
    ((Track.folds (get := (·.position)) (fun o x o' hs => (SymbolPin.trackAll o x o' hs).2.2.1) h)).last,
    ((Track.folds (get := (·.length)) (fun o x o' hs => (SymbolPin.trackAll o x o' hs).2.2.2.1) h)).last,
    ((Track.folds (get := (·.name)) (fun o x o' hs => (SymbolPin.trackAll o x o' hs).2.2.2.2.1) h)).last,
    ((Track.folds (get := (·.nameEffects)) (fun o x o' hs => (SymbolPin.trackAll o x o' hs).2.2.2.2.2.1) h)),
    ((Track.folds (get := (·.number)) (fun o x o' hs => (SymbolPin.trackAll o x o' hs).2.2.2.2.2.2.1) h)).last,
    ((Track.folds (get := (·.numberEffects)) (fun o x o' hs => (SymbolPin.trackAll o x o' hs).2.2.2.2.2.2.2.1) h)),
    ((Track.folds (get := (·.hide)) (fun o x o' hs => (SymbolPin.trackAll o x o' hs).2.2.2.2.2.2.2.2.1) h)).flag⟩
example := C37_SymbolPin (.str k!"x") (.str k!"x") [.list [.str k!"length", .str k!"a"], .str k!"hide"] _ rfl

theorem C11_SymbolPin (a b : Val) (xs : List Val) (o : SymbolPin) (h : SymbolPin.fromSexpr (.list (.str k!"pin" :: a :: b :: xs)) = .ok o) :
    Collected (tok k!"alternate") SymbolAlternativePin.fromSexpr xs o.alternatePins := by
  rw [SymbolPin.loopEq a b] at h
  exact ((Track.folds (get := (·.alternatePins)) (fun o x o' hs => (SymbolPin.trackAll o x o' hs).2.2.2.2.2.2.2.2.2) h)).collected

/-- A repeated token with an unknown one in between. -/
example : (SymbolPin.fromSexpr (.list [.str k!"pin", .str k!"x", .str k!"x", .list [.str k!"length", .str k!"a"], .list [.str k!"zzz", .int 1], .list [.str k!"length", .str k!"b"]])).map (·.length) = .ok (.str k!"b") := rfl

theorem C36_SymbolPin (a b : Val) {xs ys : List Val} (hr : Reordered [] xs ys) (o : SymbolPin) :
    SymbolPin.fromSexpr (.list (.str k!"pin" :: a :: b :: xs)) = .ok o ↔ SymbolPin.fromSexpr (.list (.str k!"pin" :: a :: b :: ys)) = .ok o := by
  rw [SymbolPin.loopEq a b, SymbolPin.loopEq a b]
  exact reordered_iff SymbolPin.indep SymbolPin.reordered hr o
example := C36_SymbolPin (.str k!"x") (.str k!"x") (.swap [] [] [.int 1] [.int 2] k!"at" k!"length" (by decide) (by decide))

theorem C10_SymbolPin (a b : Val) (xs ys : List Val) {u : Val} {r : List Val}
    (hu : ∀ k ∈ [k!"at", k!"length", k!"name", k!"number", k!"alternate"], u ≠ .str k) :
    SymbolPin.fromSexpr (.list (.str k!"pin" :: a :: b :: (xs ++ .list (u :: r) :: ys))) =
    SymbolPin.fromSexpr (.list (.str k!"pin" :: a :: b :: (xs ++ ys))) := by
  rw [SymbolPin.loopEq a b, SymbolPin.loopEq a b]
  exact forM_insert (SymbolPin.unknown hu) _ xs ys
example := C10_SymbolPin (.str k!"x") (.str k!"x") [.list [.str k!"at", .int 1]] [] (u := .str k!"zzz") (r := [.int 1]) (by simp)

theorem C37_SymbolLib (xs : List Val) (o : SymbolLib) (h : SymbolLib.fromSexpr (.list (.str k!"kicad_symbol_lib" :: xs)) = .ok o) :
    LastWins (tok k!"version") (·.idx 1) xs (st k!"20211014" : Val) o.version ∧
    LastWins (tok k!"generator") (fun i => do return some (← i.idx 1)) xs (none : Option Val) o.generator ∧
    o.filePath = (none : Option Str) := by
  rw [SymbolLib.loopEq ] at h
  exact ⟨((Track.folds (get := (·.version)) (fun o x o' hs => (SymbolLib.trackAll o x o' hs).1) h)).last,
    ((Track.folds (get := (·.generator)) (fun o x o' hs => (SymbolLib.trackAll o x o' hs).2.1) h)).last,
    ((Track.folds (get := (·.filePath)) (fun o x o' hs => (SymbolLib.trackAll o x o' hs).2.2.2) h)).const⟩
example := C37_SymbolLib [.list [.str k!"version", .str k!"a"]] _ rfl

theorem C11_SymbolLib (xs : List Val) (o : SymbolLib) (h : SymbolLib.fromSexpr (.list (.str k!"kicad_symbol_lib" :: xs)) = .ok o) :
    Collected (tok k!"symbol") Symbol.fromSexpr xs o.symbols := by
  rw [SymbolLib.loopEq ] at h
  exact ((Track.folds (get := (·.symbols)) (fun o x o' hs => (SymbolLib.trackAll o x o' hs).2.2.1) h)).collected

/-- A repeated token with an unknown one in between. -/
example : (SymbolLib.fromSexpr (.list [.str k!"kicad_symbol_lib", .list [.str k!"version", .str k!"a"], .list [.str k!"zzz", .int 1], .list [.str k!"version", .str k!"b"]])).map (·.version) = .ok (.str k!"b") := rfl

theorem C36_SymbolLib {xs ys : List Val} (hr : Reordered [] xs ys) (o : SymbolLib) :
    SymbolLib.fromSexpr (.list (.str k!"kicad_symbol_lib" :: xs)) = .ok o ↔ SymbolLib.fromSexpr (.list (.str k!"kicad_symbol_lib" :: ys)) = .ok o := by
  rw [SymbolLib.loopEq , SymbolLib.loopEq ]
  exact reordered_iff SymbolLib.indep SymbolLib.reordered hr o
example := C36_SymbolLib (.swap [] [] [.int 1] [.int 2] k!"version" k!"generator" (by decide) (by decide))

theorem C10_SymbolLib (xs ys : List Val) {u : Val} {r : List Val}
    (hu : ∀ k ∈ [k!"version", k!"generator", k!"symbol"], u ≠ .str k) :
    SymbolLib.fromSexpr (.list (.str k!"kicad_symbol_lib" :: (xs ++ .list (u :: r) :: ys))) =
    SymbolLib.fromSexpr (.list (.str k!"kicad_symbol_lib" :: (xs ++ ys))) := by
  rw [SymbolLib.loopEq , SymbolLib.loopEq ]
  exact forM_insert (SymbolLib.unknown hu) _ xs ys
example := C10_SymbolLib [.list [.str k!"version", .int 1]] [] (u := .str k!"zzz") (r := [.int 1]) (by simp)

end Kiutils
