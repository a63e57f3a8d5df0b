import Verif.Swap
import Verif.Tracks.Dimensions
/-!
# What `from_sexpr` makes of the items of a list: Dimensions

For each class: `C37` (every field is read from the last item with its token; flags are set when their word or token occurs),
`C11` (lists contain all items with their tokens, once each, in order), `C36` (unrelated items may change places), `C10` (items
with unknown tokens are ignored). The vocabulary is defined in `Verif/Tokens.lean`.
-/
namespace Kiutils

theorem C37_DimensionFormat (xs : List Val) (o : DimensionFormat) (h : DimensionFormat.fromSexpr (.list (.str k!"format" :: xs)) = .ok o) :
    LastWins (tok k!"prefix") (fun i => do return some (← i.idx 1)) xs (none : Option Val) o.«prefix» ∧
    LastWins (tok k!"suffix") (fun i => do return some (← i.idx 1)) xs (none : Option Val) o.suffix ∧
    LastWins (tok k!"units") (·.idx 1) xs (.int 3 : Val) o.units ∧
    LastWins (tok k!"units_format") (·.idx 1) xs (.int 1 : Val) o.unitsFormat ∧
    LastWins (tok k!"precision") (·.idx 1) xs (.int 4 : Val) o.precision ∧
    LastWins (tok k!"override_value") (fun i => do return some (← i.idx 1)) xs (none : Option Val) o.overrideValue ∧
    o.suppressZeroes = xs.any (wordIn [k!"suppress_zeroes"]) := by
  rw [DimensionFormat.loopEq ] at h
  exact ⟨((Track.folds (get := (·.«prefix»)) (fun o x o' hs => (DimensionFormat.trackAll o x o' hs).1) h)).last,
    ((Track.folds (get := (·.suffix)) (fun o x o' hs => (DimensionFormat.trackAll o x o' hs).2.1) h)).last,
    ((Track.folds (get := (·.units)) (fun o x o' hs => (DimensionFormat.trackAll o x o' hs).2.2.1) h)).last,
    ((Track.folds (get := (·.unitsFormat)) (fun o x o' hs => (DimensionFormat.trackAll o x o' hs).2.2.2.1) h)).last,
    ((Track.folds (get := (·.precision)) (fun o x o' hs => (DimensionFormat.trackAll o x o' hs).2.2.2.2.1) h)).last,
    ((Track.folds (get := (·.overrideValue)) (fun o x o' hs => (DimensionFormat.trackAll o x o' hs).2.2.2.2.2.1) h)).last,
    ((Track.folds (get := (·.suppressZeroes)) (fun o x o' hs => (DimensionFormat.trackAll o x o' hs).2.2.2.2.2.2) h)).flag⟩

/-- A repeated token with an unknown one in between. -/
example : (DimensionFormat.fromSexpr (.list [.str k!"format", .list [.str k!"prefix", .str k!"a"], .list [.str k!"zzz", .int 1], .list [.str k!"prefix", .str k!"b"]])).map (·.«prefix») = .ok (some (.str k!"b")) := rfl

theorem C36_DimensionFormat {xs ys : List Val} (hr : Reordered [] xs ys) (o : DimensionFormat) :
    DimensionFormat.fromSexpr (.list (.str k!"format" :: xs)) = .ok o ↔ DimensionFormat.fromSexpr (.list (.str k!"format" :: ys)) = .ok o := by
  rw [DimensionFormat.loopEq , DimensionFormat.loopEq ]
  exact reordered_iff DimensionFormat.indep DimensionFormat.reordered hr o
example := C36_DimensionFormat (.swap [] [] [.int 1] [.int 2] k!"prefix" k!"suffix" (by decide) (by decide))

theorem C10_DimensionFormat (xs ys : List Val) {u : Val} {r : List Val}
    (hu : ∀ k ∈ [k!"prefix", k!"suffix", k!"units", k!"units_format", k!"precision", k!"override_value"], u ≠ .str k) :
    DimensionFormat.fromSexpr (.list (.str k!"format" :: (xs ++ .list (u :: r) :: ys))) =
    DimensionFormat.fromSexpr (.list (.str k!"format" :: (xs ++ ys))) := by
  rw [DimensionFormat.loopEq , DimensionFormat.loopEq ]
  exact forM_insert (DimensionFormat.unknown hu) _ xs ys
example := C10_DimensionFormat [.list [.str k!"prefix", .int 1]] [] (u := .str k!"zzz") (r := [.int 1]) (by simp)

theorem C37_DimensionStyle (xs : List Val) (o : DimensionStyle) (h : DimensionStyle.fromSexpr (.list (.str k!"style" :: xs)) = .ok o) :
    LastWins (tok k!"thickness") (·.idx 1) xs (fl k!"0" k!"0" : Val) o.thickness ∧
    LastWins (tok k!"arrow_length") (·.idx 1) xs (fl k!"0" k!"0" : Val) o.arrowLength ∧
    LastWins (tok k!"text_position_mode") (·.idx 1) xs (.int 0 : Val) o.textPositionMode ∧
    LastWins (tok k!"extension_height") (fun i => do return some (← i.idx 1)) xs (none : Option Val) o.extensionHeight ∧
    LastWins (tok k!"text_frame") (fun i => do return some (← i.idx 1)) xs (none : Option Val) o.textFrame ∧
    LastWins (tok k!"extension_offset") (fun i => do return some (← i.idx 1)) xs (none : Option Val) o.extensionOffset ∧
    o.keepTextAligned = xs.any (wordIn [k!"keep_text_aligned"]) := by
  rw [DimensionStyle.loopEq ] at h
  exact ⟨((Track.folds (get := (·.thickness)) (fun o x o' hs => (DimensionStyle.trackAll o x o' hs).1) h)).last,
    ((Track.folds (get := (·.arrowLength)) (fun o x o' hs => (DimensionStyle.trackAll o x o' hs).2.1) h)).last,
    ((Track.folds (get := (·.textPositionMode)) (fun o x o' hs => (DimensionStyle.trackAll o x o' hs).2.2.1) h)).last,
    ((Track.folds (get := (·.extensionHeight)) (fun o x o' hs => (DimensionStyle.trackAll o x o' hs).2.2.2.1) h)).last,
    ((Track.folds (get := (·.textFrame)) (fun o x o' hs => (DimensionStyle.trackAll o x o' hs).2.2.2.2.1) h)).last,
    ((Track.folds (get := (·.extensionOffset)) (fun o x o' hs => (DimensionStyle.trackAll o x o' hs).2.2.2.2.2.1) h)).last,
    ((Track.folds (get := (·.keepTextAligned)) (fun o x o' hs => (DimensionStyle.trackAll o x o' hs).2.2.2.2.2.2) h)).flag⟩

/-- A repeated token with an unknown one in between. -/
example : (DimensionStyle.fromSexpr (.list [.str k!"style", .list [.str k!"thickness", .str k!"a"], .list [.str k!"zzz", .int 1], .list [.str k!"thickness", .str k!"b"]])).map (·.thickness) = .ok (.str k!"b") := rfl

theorem C36_DimensionStyle {xs ys : List Val} (hr : Reordered [] xs ys) (o : DimensionStyle) :
    DimensionStyle.fromSexpr (.list (.str k!"style" :: xs)) = .ok o ↔ DimensionStyle.fromSexpr (.list (.str k!"style" :: ys)) = .ok o := by
  rw [DimensionStyle.loopEq , DimensionStyle.loopEq ]
  exact reordered_iff DimensionStyle.indep DimensionStyle.reordered hr o
example := C36_DimensionStyle (.swap [] [] [.int 1] [.int 2] k!"thickness" k!"arrow_length" (by decide) (by decide))

theorem C10_DimensionStyle (xs ys : List Val) {u : Val} {r : List Val}
    (hu : ∀ k ∈ [k!"thickness", k!"arrow_length", k!"text_position_mode", k!"extension_height", k!"text_frame", k!"extension_offset"], u ≠ .str k) :
    DimensionStyle.fromSexpr (.list (.str k!"style" :: (xs ++ .list (u :: r) :: ys))) =
    DimensionStyle.fromSexpr (.list (.str k!"style" :: (xs ++ ys))) := by
  rw [DimensionStyle.loopEq , DimensionStyle.loopEq ]
  exact forM_insert (DimensionStyle.unknown hu) _ xs ys
example := C10_DimensionStyle [.list [.str k!"thickness", .int 1]] [] (u := .str k!"zzz") (r := [.int 1]) (by simp)

theorem C37_Dimension (xs : List Val) (o : Dimension) (h : Dimension.fromSexpr (.list (.str k!"dimension" :: xs)) = .ok o) :
    o.locked = xs.any (wordIn [k!"locked"]) ∧
    LastWins (tok k!"type") (·.idx 1) xs (st k!"aligned" : Val) o.type ∧
    LastWins (tok k!"layer") (·.idx 1) xs (st k!"F.Cu" : Val) o.layer ∧
    LastWins (tok k!"tstamp") (fun i => do return some (← i.idx 1)) xs (none : Option Val) o.tstamp ∧
    LastWins (tok k!"height") (fun i => do return some (← i.idx 1)) xs (none : Option Val) o.height ∧
    LastWins (tok k!"orientation") (fun i => do return some (← i.idx 1)) xs (none : Option Val) o.orientation ∧
    LastWins (tok k!"leader_length") (fun i => do return some (← i.idx 1)) xs (none : Option Val) o.leaderLength ∧
    LastWins (tok k!"gr_text") (fun i => do return some (← GrText.fromSexpr i)) xs (none : Option GrText) o.grText ∧
    LastWins (tok k!"format") (fun i => do return some (← DimensionFormat.fromSexpr i)) xs (none : Option DimensionFormat) o.format ∧
    LastWins (tok k!"style") DimensionStyle.fromSexpr xs ({} : DimensionStyle) o.style := by
  rw [Dimension.loopEq ] at h
  exact ⟨((Track.folds (get := (·.locked)) (fun o x o' hs => (Dimension.trackAll o x o' hs).1) h)).flag,
    ((Track.folds (get := (·.type)) (fun o x o' hs => (Dimension.trackAll o x o' hs).2.1) h)).last,
    ((Track.folds (get := (·.layer)) (fun o x o' hs => (Dimension.trackAll o x o' hs).2.2.1) h)).last,
    ((Track.folds (get := (·.tstamp)) (fun o x o' hs => (Dimension.trackAll o x o' hs).2.2.2.1) h)).last,
    ((Track.folds (get := (·.height)) (fun o x o' hs => (Dimension.trackAll o x o' hs).2.2.2.2.2.1) h)).last,
    ((Track.folds (get := (·.orientation)) (fun o x o' hs => (Dimension.trackAll o x o' hs).2.2.2.2.2.2.1) h)).last,
    ((Track.folds (get := (·.leaderLength)) (fun o x o' hs => (Dimension.trackAll o x o' hs).2.2.2.2.2.2.2.1) h)).last,
    ((Track.folds (get := (·.grText)) (fun o x o' hs => (Dimension.trackAll o x o' hs).2.2.2.2.2.2.2.2.1) h)).last,
    ((Track.folds (get := (·.format)) (fun o x o' hs => (Dimension.trackAll o x o' hs).2.2.2.2.2.2.2.2.2.1) h)).last,
    ((Track.folds (get := (·.style)) (fun o x o' hs => (Dimension.trackAll o x o' hs).2.2.2.2.2.2.2.2.2.2) h)).last⟩
example := C37_Dimension [.list [.str k!"type", .str k!"a"], .str k!"locked"] _ rfl

theorem C11_Dimension (xs : List Val) (o : Dimension) (h : Dimension.fromSexpr (.list (.str k!"dimension" :: xs)) = .ok o) :
    CollectedAll (tok k!"pts") (fun i => do mapM' Position.fromSexpr (← i.slice 1)) xs o.pts := by
  rw [Dimension.loopEq ] at h
  exact ((Track.folds (get := (·.pts)) (fun o x o' hs => (Dimension.trackAll o x o' hs).2.2.2.2.1) h)).collectedAll

/-- A repeated token with an unknown one in between. -/
example : (Dimension.fromSexpr (.list [.str k!"dimension", .list [.str k!"type", .str k!"a"], .list [.str k!"zzz", .int 1], .list [.str k!"type", .str k!"b"]])).map (·.type) = .ok (.str k!"b") := rfl

theorem C36_Dimension {xs ys : List Val} (hr : Reordered [] xs ys) (o : Dimension) :
    Dimension.fromSexpr (.list (.str k!"dimension" :: xs)) = .ok o ↔ Dimension.fromSexpr (.list (.str k!"dimension" :: ys)) = .ok o := by
  rw [Dimension.loopEq , Dimension.loopEq ]
  exact reordered_iff Dimension.indep Dimension.reordered hr o
example := C36_Dimension (.swap [] [] [.int 1] [.int 2] k!"type" k!"layer" (by decide) (by decide))

theorem C10_Dimension (xs ys : List Val) {u : Val} {r : List Val}
    (hu : ∀ k ∈ [k!"type", k!"layer", k!"tstamp", k!"height", k!"orientation", k!"leader_length", k!"gr_text", k!"format", k!"style", k!"pts"], u ≠ .str k) :
    Dimension.fromSexpr (.list (.str k!"dimension" :: (xs ++ .list (u :: r) :: ys))) =
    Dimension.fromSexpr (.list (.str k!"dimension" :: (xs ++ ys))) := by
  rw [Dimension.loopEq , Dimension.loopEq ]
  exact forM_insert (Dimension.unknown hu) _ xs ys
example := C10_Dimension [.list [.str k!"type", .int 1]] [] (u := .str k!"zzz") (r := [.int 1]) (by simp)

end Kiutils
