import Verif.Swap
import Verif.Tracks.GrItems
/-!
# What `from_sexpr` makes of the items of a list: GrItems

For each class: `C37` (every field is read from the last item with its token; flags are set when their word or token occurs),
`C11` (lists contain all items with their tokens, once each, in order), `C36` (unrelated items may change places), `C10` (items
with unknown tokens are ignored). The vocabulary is defined in `Verif/Tokens.lean`.
-/
namespace Kiutils

theorem C37_GrText (a1 : Val) (xs : List Val) (o : GrText) (h : GrText.fromSexpr (.list (.str k!"gr_text" :: a1 :: xs)) = .ok o) :
    o.text = a1 ∧
    FoldsTo (tok k!"layer") (fun acc i => do if (← i.len) > 2 then if (← i.idx 2).is k!"knockout" then return true else return acc else return acc) xs (false : Bool) o.knockout ∧
    LastWins (tok k!"at") Position.fromSexpr xs ({} : Position) o.position ∧
    LastWins (tok k!"layer") (fun i => do return some (← i.idx 1)) xs (none : Option Val) o.layer ∧
    LastWins (tok k!"effects") Effects.fromSexpr xs ({} : Effects) o.effects ∧
    LastWins (tok k!"tstamp") (fun i => do return some (← i.idx 1)) xs (none : Option Val) o.tstamp ∧
    o.locked = xs.any (wordIn [k!"locked"]) ∧
    LastWins (tok k!"render_cache") (fun i => do return some (← RenderCache.fromSexpr i)) xs (none : Option RenderCache) o.renderCache := by
  rw [GrText.loopEq a1] at h
  exact ⟨((Track.folds (get := (·.text)) (fun o x o' hs => (GrText.trackAll o x o' hs).1) h)).const,
    ((Track.folds (get := (·.knockout)) (fun o x o' hs => (GrText.trackAll o x o' hs).2.1) h)),
    ((Track.folds (get := (·.position)) (fun o x o' hs => (GrText.trackAll o x o' hs).2.2.1) h)).last,
    ((Track.folds (get := (·.layer)) (fun o x o' hs => (GrText.trackAll o x o' hs).2.2.2.1) h)).last,
    ((Track.folds (get := (·.effects)) (fun o x o' hs => (GrText.trackAll o x o' hs).2.2.2.2.1) h)).last,
    ((Track.folds (get := (·.tstamp)) (fun o x o' hs => (GrText.trackAll o x o' hs).2.2.2.2.2.1) h)).last,
    ((Track.folds (get := (·.locked)) (fun o x o' hs => (GrText.trackAll o x o' hs).2.2.2.2.2.2.1) h)).flag,
    ((Track.folds (get := (·.renderCache)) (fun o x o' hs => (GrText.trackAll o x o' hs).2.2.2.2.2.2.2) h)).last⟩

/-- A repeated token with an unknown one in between. -/
example : (GrText.fromSexpr (.list [.str k!"gr_text", .str k!"x", .list [.str k!"tstamp", .str k!"a"], .list [.str k!"zzz", .int 1], .list [.str k!"tstamp", .str k!"b"]])).map (·.tstamp) = .ok (some (.str k!"b")) := rfl

theorem C36_GrText (a1 : Val) {xs ys : List Val} (hr : Reordered [] xs ys) (o : GrText) :
    GrText.fromSexpr (.list (.str k!"gr_text" :: a1 :: xs)) = .ok o ↔ GrText.fromSexpr (.list (.str k!"gr_text" :: a1 :: ys)) = .ok o := by
  rw [GrText.loopEq a1, GrText.loopEq a1]
  exact reordered_iff GrText.indep GrText.reordered hr o
example := C36_GrText (.str k!"x") (.swap [] [] [.int 1] [.int 2] k!"at" k!"layer" (by decide) (by decide))

theorem C10_GrText (a1 : Val) (xs ys : List Val) {u : Val} {r : List Val}
    (hu : ∀ k ∈ [k!"at", k!"layer", k!"effects", k!"tstamp", k!"render_cache"], u ≠ .str k) :
    GrText.fromSexpr (.list (.str k!"gr_text" :: a1 :: (xs ++ .list (u :: r) :: ys))) =
    GrText.fromSexpr (.list (.str k!"gr_text" :: a1 :: (xs ++ ys))) := by
  rw [GrText.loopEq a1, GrText.loopEq a1]
  exact forM_insert (GrText.unknown hu) _ xs ys
example := C10_GrText (.str k!"x") [.list [.str k!"at", .int 1]] [] (u := .str k!"zzz") (r := [.int 1]) (by simp)

theorem C37_GrTextBox {a : Val} (ha : a.is k!"locked" = false) (xs : List Val) (o : GrTextBox) (h : GrTextBox.fromSexpr (.list (.str k!"gr_text_box" :: a :: xs)) = .ok o) :
    o.locked = (false : Bool) ∧
    o.text = a ∧
    LastWins (tok k!"start") (fun i => do return some (← Position.fromSexpr i)) xs (none : Option Position) o.start ∧
    LastWins (tok k!"end") (fun i => do return some (← Position.fromSexpr i)) xs (none : Option Position) o.«end» ∧
    LastWins (tok k!"angle") (fun i => do return some (← i.idx 1)) xs (none : Option Val) o.angle ∧
    LastWins (tok k!"layer") (·.idx 1) xs (st k!"F.Cu" : Val) o.layer ∧
    LastWins (tok k!"tstamp") (fun i => do return some (← i.idx 1)) xs (none : Option Val) o.tstamp ∧
    LastWins (tok k!"effects") (fun i => do return some (← Effects.fromSexpr i)) xs (none : Option Effects) o.effects ∧
    LastWins (tok k!"stroke") (fun i => do return some (← Stroke.fromSexpr i)) xs (none : Option Stroke) o.stroke ∧
    LastWins (tok k!"render_cache") (fun i => do return some (← RenderCache.fromSexpr i)) xs (none : Option RenderCache) o.renderCache := by
  rw [GrTextBox.loopEq ha] at h
  exact ⟨((Track.folds (get := (·.locked)) (fun o x o' hs => (GrTextBox.trackAll o x o' hs).1) h)).const,
    ((Track.folds (get := (·.text)) (fun o x o' hs => (GrTextBox.trackAll o x o' hs).2.1) h)).const,
    ((Track.folds (get := (·.start)) (fun o x o' hs => (GrTextBox.trackAll o x o' hs).2.2.1) h)).last,
    ((Track.folds (get := (·.«end»)) (fun o x o' hs => (GrTextBox.trackAll o x o' hs).2.2.2.1) h)).last,
    ((Track.folds (get := (·.angle)) (fun o x o' hs => (GrTextBox.trackAll o x o' hs).2.2.2.2.2.1) h)).last,
    ((Track.folds (get := (·.layer)) (fun o x o' hs => (GrTextBox.trackAll o x o' hs).2.2.2.2.2.2.1) h)).last,
    ((Track.folds (get := (·.tstamp)) (fun o x o' hs => (GrTextBox.trackAll o x o' hs).2.2.2.2.2.2.2.1) h)).last,
    ((Track.folds (get := (·.effects)) (fun o x o' hs => (GrTextBox.trackAll o x o' hs).2.2.2.2.2.2.2.2.1) h)).last,
    ((Track.folds (get := (·.stroke)) (fun o x o' hs => (GrTextBox.trackAll o x o' hs).2.2.2.2.2.2.2.2.2.1) h)).last,
    ((Track.folds (get := (·.renderCache)) (fun o x o' hs => (GrTextBox.trackAll o x o' hs).2.2.2.2.2.2.2.2.2.2) h)).last⟩
example := C37_GrTextBox (a := .str k!"x") rfl [.list [.str k!"angle", .str k!"a"]] _ rfl

theorem C11_GrTextBox {a : Val} (ha : a.is k!"locked" = false) (xs : List Val) (o : GrTextBox) (h : GrTextBox.fromSexpr (.list (.str k!"gr_text_box" :: a :: xs)) = .ok o) :
    CollectedAll (tok k!"pts") (fun i => do mapM' Position.fromSexpr (← i.slice 1)) xs o.pts := by
  rw [GrTextBox.loopEq ha] at h
  exact ((Track.folds (get := (·.pts)) (fun o x o' hs => (GrTextBox.trackAll o x o' hs).2.2.2.2.1) h)).collectedAll

/-- A repeated token with an unknown one in between. -/
example : (GrTextBox.fromSexpr (.list [.str k!"gr_text_box", .str k!"x", .list [.str k!"angle", .str k!"a"], .list [.str k!"zzz", .int 1], .list [.str k!"angle", .str k!"b"]])).map (·.angle) = .ok (some (.str k!"b")) := rfl

theorem C36_GrTextBox {a : Val} (ha : a.is k!"locked" = false) {xs ys : List Val} (hr : Reordered [] xs ys) (o : GrTextBox) :
    GrTextBox.fromSexpr (.list (.str k!"gr_text_box" :: a :: xs)) = .ok o ↔ GrTextBox.fromSexpr (.list (.str k!"gr_text_box" :: a :: ys)) = .ok o := by
  rw [GrTextBox.loopEq ha, GrTextBox.loopEq ha]
  exact reordered_iff GrTextBox.indep GrTextBox.reordered hr o
example := C36_GrTextBox (a := .str k!"x") rfl (.swap [] [] [.int 1] [.int 2] k!"start" k!"end" (by decide) (by decide))

theorem C10_GrTextBox {a : Val} (ha : a.is k!"locked" = false) (xs ys : List Val) {u : Val} {r : List Val}
    (hu : ∀ k ∈ [k!"start", k!"end", k!"pts", k!"angle", k!"layer", k!"tstamp", k!"effects", k!"stroke", k!"render_cache"], u ≠ .str k) :
    GrTextBox.fromSexpr (.list (.str k!"gr_text_box" :: a :: (xs ++ .list (u :: r) :: ys))) =
    GrTextBox.fromSexpr (.list (.str k!"gr_text_box" :: a :: (xs ++ ys))) := by
  rw [GrTextBox.loopEq ha, GrTextBox.loopEq ha]
  exact forM_insert (GrTextBox.unknown hu) _ xs ys
example := C10_GrTextBox (a := .str k!"x") rfl [.list [.str k!"start", .int 1]] [] (u := .str k!"zzz") (r := [.int 1]) (by simp)

theorem C37_GrLine (xs : List Val) (o : GrLine) (h : GrLine.fromSexpr (.list (.str k!"gr_line" :: xs)) = .ok o) :
    LastWins (tok k!"start") Position.fromSexpr xs ({} : Position) o.start ∧
    LastWins (tok k!"end") Position.fromSexpr xs ({} : Position) o.«end» ∧
    o.angle = (none : Option Val) ∧
    LastWins (tok k!"layer") (fun i => do return some (← i.idx 1)) xs (none : Option Val) o.layer ∧
    LastWins (tok k!"width") (fun i => do return some (← i.idx 1)) xs (some (fl k!"0" k!"12") : Option Val) o.width ∧
    LastWins (tok k!"tstamp") (fun i => do return some (← i.idx 1)) xs (none : Option Val) o.tstamp ∧
    o.locked = xs.any (wordIn [k!"locked"]) := by
  rw [GrLine.loopEq ] at h
  exact ⟨((Track.folds (get := (·.start)) (fun o x o' hs => (GrLine.trackAll o x o' hs).1) h).drop rfl).last,
    ((Track.folds (get := (·.«end»)) (fun o x o' hs => (GrLine.trackAll o x o' hs).2.1) h).drop rfl).last,
    ((Track.folds (get := (·.angle)) (fun o x o' hs => (GrLine.trackAll o x o' hs).2.2.1) h)).const,
    ((Track.folds (get := (·.layer)) (fun o x o' hs => (GrLine.trackAll o x o' hs).2.2.2.1) h).drop rfl).last,
    ((Track.folds (get := (·.width)) (fun o x o' hs => (GrLine.trackAll o x o' hs).2.2.2.2.1) h).drop rfl).last,
    ((Track.folds (get := (·.tstamp)) (fun o x o' hs => (GrLine.trackAll o x o' hs).2.2.2.2.2.1) h).drop rfl).last,
    ((Track.folds (get := (·.locked)) (fun o x o' hs => (GrLine.trackAll o x o' hs).2.2.2.2.2.2) h).drop rfl).flag⟩

/-- A repeated token with an unknown one in between. -/
example : (GrLine.fromSexpr (.list [.str k!"gr_line", .list [.str k!"layer", .str k!"a"], .list [.str k!"zzz", .int 1], .list [.str k!"layer", .str k!"b"]])).map (·.layer) = .ok (some (.str k!"b")) := rfl

theorem C36_GrLine {xs ys : List Val} (hr : Reordered [] xs ys) (o : GrLine) :
    GrLine.fromSexpr (.list (.str k!"gr_line" :: xs)) = .ok o ↔ GrLine.fromSexpr (.list (.str k!"gr_line" :: ys)) = .ok o := by
  rw [GrLine.loopEq , GrLine.loopEq ]
  exact reordered_iff GrLine.indep GrLine.reordered (hr.cons _) o
example := C36_GrLine (.swap [] [] [.int 1] [.int 2] k!"start" k!"end" (by decide) (by decide))

theorem C10_GrLine (xs ys : List Val) {u : Val} {r : List Val}
    (hu : ∀ k ∈ [k!"start", k!"end", k!"layer", k!"tstamp", k!"width"], u ≠ .str k) :
    GrLine.fromSexpr (.list (.str k!"gr_line" :: (xs ++ .list (u :: r) :: ys))) =
    GrLine.fromSexpr (.list (.str k!"gr_line" :: (xs ++ ys))) := by
  rw [GrLine.loopEq , GrLine.loopEq ]
  exact forM_insert (GrLine.unknown hu) _ (.str k!"gr_line" :: xs) ys
example := C10_GrLine [.list [.str k!"start", .int 1]] [] (u := .str k!"zzz") (r := [.int 1]) (by simp)

theorem C37_GrRect (xs : List Val) (o : GrRect) (h : GrRect.fromSexpr (.list (.str k!"gr_rect" :: xs)) = .ok o) :
    LastWins (tok k!"start") Position.fromSexpr xs ({} : Position) o.start ∧
    LastWins (tok k!"end") Position.fromSexpr xs ({} : Position) o.«end» ∧
    LastWins (tok k!"layer") (fun i => do return some (← i.idx 1)) xs (none : Option Val) o.layer ∧
    LastWins (tok k!"width") (fun i => do return some (← i.idx 1)) xs (some (fl k!"0" k!"12") : Option Val) o.width ∧
    LastWins (tok k!"fill") (fun i => do return some (← i.idx 1)) xs (none : Option Val) o.fill ∧
    LastWins (tok k!"tstamp") (fun i => do return some (← i.idx 1)) xs (none : Option Val) o.tstamp ∧
    o.locked = xs.any (wordIn [k!"locked"]) := by
  rw [GrRect.loopEq ] at h
  exact ⟨((Track.folds (get := (·.start)) (fun o x o' hs => (GrRect.trackAll o x o' hs).1) h).drop rfl).last,
    ((Track.folds (get := (·.«end»)) (fun o x o' hs => (GrRect.trackAll o x o' hs).2.1) h).drop rfl).last,
    ((Track.folds (get := (·.layer)) (fun o x o' hs => (GrRect.trackAll o x o' hs).2.2.1) h).drop rfl).last,
    ((Track.folds (get := (·.width)) (fun o x o' hs => (GrRect.trackAll o x o' hs).2.2.2.1) h).drop rfl).last,
    ((Track.folds (get := (·.fill)) (fun o x o' hs => (GrRect.trackAll o x o' hs).2.2.2.2.1) h).drop rfl).last,
    ((Track.folds (get := (·.tstamp)) (fun o x o' hs => (GrRect.trackAll o x o' hs).2.2.2.2.2.1) h).drop rfl).last,
    ((Track.folds (get := (·.locked)) (fun o x o' hs => (GrRect.trackAll o x o' hs).2.2.2.2.2.2) h).drop rfl).flag⟩

/-- A repeated token with an unknown one in between. -/
example : (GrRect.fromSexpr (.list [.str k!"gr_rect", .list [.str k!"layer", .str k!"a"], .list [.str k!"zzz", .int 1], .list [.str k!"layer", .str k!"b"]])).map (·.layer) = .ok (some (.str k!"b")) := rfl

theorem C36_GrRect {xs ys : List Val} (hr : Reordered [] xs ys) (o : GrRect) :
    GrRect.fromSexpr (.list (.str k!"gr_rect" :: xs)) = .ok o ↔ GrRect.fromSexpr (.list (.str k!"gr_rect" :: ys)) = .ok o := by
  rw [GrRect.loopEq , GrRect.loopEq ]
  exact reordered_iff GrRect.indep GrRect.reordered (hr.cons _) o
example := C36_GrRect (.swap [] [] [.int 1] [.int 2] k!"start" k!"end" (by decide) (by decide))

theorem C10_GrRect (xs ys : List Val) {u : Val} {r : List Val}
    (hu : ∀ k ∈ [k!"start", k!"end", k!"layer", k!"tstamp", k!"fill", k!"width"], u ≠ .str k) :
    GrRect.fromSexpr (.list (.str k!"gr_rect" :: (xs ++ .list (u :: r) :: ys))) =
    GrRect.fromSexpr (.list (.str k!"gr_rect" :: (xs ++ ys))) := by
  rw [GrRect.loopEq , GrRect.loopEq ]
  exact forM_insert (GrRect.unknown hu) _ (.str k!"gr_rect" :: xs) ys
example := C10_GrRect [.list [.str k!"start", .int 1]] [] (u := .str k!"zzz") (r := [.int 1]) (by simp)

theorem C37_GrCircle (xs : List Val) (o : GrCircle) (h : GrCircle.fromSexpr (.list (.str k!"gr_circle" :: xs)) = .ok o) :
    LastWins (tok k!"center") Position.fromSexpr xs ({} : Position) o.center ∧
    LastWins (tok k!"end") Position.fromSexpr xs ({} : Position) o.«end» ∧
    LastWins (tok k!"layer") (fun i => do return some (← i.idx 1)) xs (none : Option Val) o.layer ∧
    LastWins (tok k!"width") (fun i => do return some (← i.idx 1)) xs (some (fl k!"0" k!"12") : Option Val) o.width ∧
    LastWins (tok k!"fill") (fun i => do return some (← i.idx 1)) xs (none : Option Val) o.fill ∧
    LastWins (tok k!"tstamp") (fun i => do return some (← i.idx 1)) xs (none : Option Val) o.tstamp ∧
    o.locked = xs.any (wordIn [k!"locked"]) := by
  rw [GrCircle.loopEq ] at h
  exact ⟨((Track.folds (get := (·.center)) (fun o x o' hs => (GrCircle.trackAll o x o' hs).1) h).drop rfl).last,
    ((Track.folds (get := (·.«end»)) (fun o x o' hs => (GrCircle.trackAll o x o' hs).2.1) h).drop rfl).last,
    ((Track.folds (get := (·.layer)) (fun o x o' hs => (GrCircle.trackAll o x o' hs).2.2.1) h).drop rfl).last,
    ((Track.folds (get := (·.width)) (fun o x o' hs => (GrCircle.trackAll o x o' hs).2.2.2.1) h).drop rfl).last,
    ((Track.folds (get := (·.fill)) (fun o x o' hs => (GrCircle.trackAll o x o' hs).2.2.2.2.1) h).drop rfl).last,
    ((Track.folds (get := (·.tstamp)) (fun o x o' hs => (GrCircle.trackAll o x o' hs).2.2.2.2.2.1) h).drop rfl).last,
    ((Track.folds (get := (·.locked)) (fun o x o' hs => (GrCircle.trackAll o x o' hs).2.2.2.2.2.2) h).drop rfl).flag⟩

/-- A repeated token with an unknown one in between. -/
example : (GrCircle.fromSexpr (.list [.str k!"gr_circle", .list [.str k!"layer", .str k!"a"], .list [.str k!"zzz", .int 1], .list [.str k!"layer", .str k!"b"]])).map (·.layer) = .ok (some (.str k!"b")) := rfl

theorem C36_GrCircle {xs ys : List Val} (hr : Reordered [] xs ys) (o : GrCircle) :
    GrCircle.fromSexpr (.list (.str k!"gr_circle" :: xs)) = .ok o ↔ GrCircle.fromSexpr (.list (.str k!"gr_circle" :: ys)) = .ok o := by
  rw [GrCircle.loopEq , GrCircle.loopEq ]
  exact reordered_iff GrCircle.indep GrCircle.reordered (hr.cons _) o
example := C36_GrCircle (.swap [] [] [.int 1] [.int 2] k!"center" k!"end" (by decide) (by decide))

theorem C10_GrCircle (xs ys : List Val) {u : Val} {r : List Val}
    (hu : ∀ k ∈ [k!"center", k!"end", k!"layer", k!"tstamp", k!"fill", k!"width"], u ≠ .str k) :
    GrCircle.fromSexpr (.list (.str k!"gr_circle" :: (xs ++ .list (u :: r) :: ys))) =
    GrCircle.fromSexpr (.list (.str k!"gr_circle" :: (xs ++ ys))) := by
  rw [GrCircle.loopEq , GrCircle.loopEq ]
  exact forM_insert (GrCircle.unknown hu) _ (.str k!"gr_circle" :: xs) ys
example := C10_GrCircle [.list [.str k!"center", .int 1]] [] (u := .str k!"zzz") (r := [.int 1]) (by simp)

theorem C37_GrArc (xs : List Val) (o : GrArc) (h : GrArc.fromSexpr (.list (.str k!"gr_arc" :: xs)) = .ok o) :
    LastWins (tok k!"start") Position.fromSexpr xs ({} : Position) o.start ∧
    LastWins (tok k!"mid") Position.fromSexpr xs ({} : Position) o.mid ∧
    LastWins (tok k!"end") Position.fromSexpr xs ({} : Position) o.«end» ∧
    LastWins (tok k!"layer") (fun i => do return some (← i.idx 1)) xs (none : Option Val) o.layer ∧
    LastWins (tok k!"width") (fun i => do return some (← i.idx 1)) xs (some (fl k!"0" k!"12") : Option Val) o.width ∧
    LastWins (tok k!"tstamp") (fun i => do return some (← i.idx 1)) xs (none : Option Val) o.tstamp ∧
    o.locked = xs.any (wordIn [k!"locked"]) := by
  rw [GrArc.loopEq ] at h
  exact ⟨((Track.folds (get := (·.start)) (fun o x o' hs => (GrArc.trackAll o x o' hs).1) h).drop rfl).last,
    ((Track.folds (get := (·.mid)) (fun o x o' hs => (GrArc.trackAll o x o' hs).2.1) h).drop rfl).last,
    ((Track.folds (get := (·.«end»)) (fun o x o' hs => (GrArc.trackAll o x o' hs).2.2.1) h).drop rfl).last,
    ((Track.folds (get := (·.layer)) (fun o x o' hs => (GrArc.trackAll o x o' hs).2.2.2.1) h).drop rfl).last,
    ((Track.folds (get := (·.width)) (fun o x o' hs => (GrArc.trackAll o x o' hs).2.2.2.2.1) h).drop rfl).last,
    ((Track.folds (get := (·.tstamp)) (fun o x o' hs => (GrArc.trackAll o x o' hs).2.2.2.2.2.1) h).drop rfl).last,
    ((Track.folds (get := (·.locked)) (fun o x o' hs => (GrArc.trackAll o x o' hs).2.2.2.2.2.2) h).drop rfl).flag⟩

/-- A repeated token with an unknown one in between. -/
example : (GrArc.fromSexpr (.list [.str k!"gr_arc", .list [.str k!"layer", .str k!"a"], .list [.str k!"zzz", .int 1], .list [.str k!"layer", .str k!"b"]])).map (·.layer) = .ok (some (.str k!"b")) := rfl

theorem C36_GrArc {xs ys : List Val} (hr : Reordered [] xs ys) (o : GrArc) :
    GrArc.fromSexpr (.list (.str k!"gr_arc" :: xs)) = .ok o ↔ GrArc.fromSexpr (.list (.str k!"gr_arc" :: ys)) = .ok o := by
  rw [GrArc.loopEq , GrArc.loopEq ]
  exact reordered_iff GrArc.indep GrArc.reordered (hr.cons _) o
example := C36_GrArc (.swap [] [] [.int 1] [.int 2] k!"start" k!"mid" (by decide) (by decide))

theorem C10_GrArc (xs ys : List Val) {u : Val} {r : List Val}
    (hu : ∀ k ∈ [k!"start", k!"mid", k!"end", k!"layer", k!"tstamp", k!"width"], u ≠ .str k) :
    GrArc.fromSexpr (.list (.str k!"gr_arc" :: (xs ++ .list (u :: r) :: ys))) =
    GrArc.fromSexpr (.list (.str k!"gr_arc" :: (xs ++ ys))) := by
  rw [GrArc.loopEq , GrArc.loopEq ]
  exact forM_insert (GrArc.unknown hu) _ (.str k!"gr_arc" :: xs) ys
example := C10_GrArc [.list [.str k!"start", .int 1]] [] (u := .str k!"zzz") (r := [.int 1]) (by simp)

theorem C37_GrPoly (xs : List Val) (o : GrPoly) (h : GrPoly.fromSexpr (.list (.str k!"gr_poly" :: xs)) = .ok o) :
    LastWins (tok k!"layer") (fun i => do return some (← i.idx 1)) xs (none : Option Val) o.layer ∧
    LastWins (tok k!"width") (fun i => do return some (← i.idx 1)) xs (some (fl k!"0" k!"12") : Option Val) o.width ∧
    LastWins (tok k!"fill") (fun i => do return some (← i.idx 1)) xs (none : Option Val) o.fill ∧
    LastWins (tok k!"tstamp") (fun i => do return some (← i.idx 1)) xs (none : Option Val) o.tstamp ∧
    o.locked = xs.any (wordIn [k!"locked"]) := by
  rw [GrPoly.loopEq ] at h
  exact ⟨((Track.folds (get := (·.layer)) (fun o x o' hs => (GrPoly.trackAll o x o' hs).1) h).drop rfl).last,
    ((Track.folds (get := (·.width)) (fun o x o' hs => (GrPoly.trackAll o x o' hs).2.2.1) h).drop rfl).last,
    ((Track.folds (get := (·.fill)) (fun o x o' hs => (GrPoly.trackAll o x o' hs).2.2.2.1) h).drop rfl).last,
    ((Track.folds (get := (·.tstamp)) (fun o x o' hs => (GrPoly.trackAll o x o' hs).2.2.2.2.1) h).drop rfl).last,
    ((Track.folds (get := (·.locked)) (fun o x o' hs => (GrPoly.trackAll o x o' hs).2.2.2.2.2) h).drop rfl).flag⟩
example := C37_GrPoly [.list [.str k!"layer", .str k!"a"], .str k!"locked"] _ rfl

theorem C11_GrPoly (xs : List Val) (o : GrPoly) (h : GrPoly.fromSexpr (.list (.str k!"gr_poly" :: xs)) = .ok o) :
    CollectedAll (tok k!"pts") (fun i => do mapM' Position.fromSexpr (← i.slice 1)) xs o.coordinates := by
  rw [GrPoly.loopEq ] at h
  exact ((Track.folds (get := (·.coordinates)) (fun o x o' hs => (GrPoly.trackAll o x o' hs).2.1) h).drop rfl).collectedAll

/-- A repeated token with an unknown one in between. -/
example : (GrPoly.fromSexpr (.list [.str k!"gr_poly", .list [.str k!"layer", .str k!"a"], .list [.str k!"zzz", .int 1], .list [.str k!"layer", .str k!"b"]])).map (·.layer) = .ok (some (.str k!"b")) := rfl

theorem C36_GrPoly {xs ys : List Val} (hr : Reordered [] xs ys) (o : GrPoly) :
    GrPoly.fromSexpr (.list (.str k!"gr_poly" :: xs)) = .ok o ↔ GrPoly.fromSexpr (.list (.str k!"gr_poly" :: ys)) = .ok o := by
  rw [GrPoly.loopEq , GrPoly.loopEq ]
  exact reordered_iff GrPoly.indep GrPoly.reordered (hr.cons _) o
example := C36_GrPoly (.swap [] [] [.int 1] [.int 2] k!"pts" k!"layer" (by decide) (by decide))

theorem C10_GrPoly (xs ys : List Val) {u : Val} {r : List Val}
    (hu : ∀ k ∈ [k!"pts", k!"layer", k!"tstamp", k!"fill", k!"width"], u ≠ .str k) :
    GrPoly.fromSexpr (.list (.str k!"gr_poly" :: (xs ++ .list (u :: r) :: ys))) =
    GrPoly.fromSexpr (.list (.str k!"gr_poly" :: (xs ++ ys))) := by
  rw [GrPoly.loopEq , GrPoly.loopEq ]
  exact forM_insert (GrPoly.unknown hu) _ (.str k!"gr_poly" :: xs) ys
example := C10_GrPoly [.list [.str k!"pts", .int 1]] [] (u := .str k!"zzz") (r := [.int 1]) (by simp)

theorem C37_GrCurve (xs : List Val) (o : GrCurve) (h : GrCurve.fromSexpr (.list (.str k!"gr_curve" :: xs)) = .ok o) :
    LastWins (tok k!"layer") (fun i => do return some (← i.idx 1)) xs (none : Option Val) o.layer ∧
    LastWins (tok k!"width") (fun i => do return some (← i.idx 1)) xs (some (fl k!"0" k!"12") : Option Val) o.width ∧
    LastWins (tok k!"tstamp") (fun i => do return some (← i.idx 1)) xs (none : Option Val) o.tstamp ∧
    o.locked = xs.any (wordIn [k!"locked"]) := by
  rw [GrCurve.loopEq ] at h
  exact ⟨((Track.folds (get := (·.layer)) (fun o x o' hs => (GrCurve.trackAll o x o' hs).2.1) h).drop rfl).last,
    ((Track.folds (get := (·.width)) (fun o x o' hs => (GrCurve.trackAll o x o' hs).2.2.1) h).drop rfl).last,
    ((Track.folds (get := (·.tstamp)) (fun o x o' hs => (GrCurve.trackAll o x o' hs).2.2.2.1) h).drop rfl).last,
    ((Track.folds (get := (·.locked)) (fun o x o' hs => (GrCurve.trackAll o x o' hs).2.2.2.2) h).drop rfl).flag⟩
example := C37_GrCurve [.list [.str k!"layer", .str k!"a"], .str k!"locked"] _ rfl

theorem C11_GrCurve (xs : List Val) (o : GrCurve) (h : GrCurve.fromSexpr (.list (.str k!"gr_curve" :: xs)) = .ok o) :
    CollectedAll (tok k!"pts") (fun i => do mapM' Position.fromSexpr (← i.slice 1)) xs o.coordinates := by
  rw [GrCurve.loopEq ] at h
  exact ((Track.folds (get := (·.coordinates)) (fun o x o' hs => (GrCurve.trackAll o x o' hs).1) h).drop rfl).collectedAll

/-- A repeated token with an unknown one in between. -/
example : (GrCurve.fromSexpr (.list [.str k!"gr_curve", .list [.str k!"layer", .str k!"a"], .list [.str k!"zzz", .int 1], .list [.str k!"layer", .str k!"b"]])).map (·.layer) = .ok (some (.str k!"b")) := rfl

theorem C36_GrCurve {xs ys : List Val} (hr : Reordered [] xs ys) (o : GrCurve) :
    GrCurve.fromSexpr (.list (.str k!"gr_curve" :: xs)) = .ok o ↔ GrCurve.fromSexpr (.list (.str k!"gr_curve" :: ys)) = .ok o := by
  rw [GrCurve.loopEq , GrCurve.loopEq ]
  exact reordered_iff GrCurve.indep GrCurve.reordered (hr.cons _) o
example := C36_GrCurve (.swap [] [] [.int 1] [.int 2] k!"pts" k!"layer" (by decide) (by decide))

theorem C10_GrCurve (xs ys : List Val) {u : Val} {r : List Val}
    (hu : ∀ k ∈ [k!"pts", k!"layer", k!"tstamp", k!"width"], u ≠ .str k) :
    GrCurve.fromSexpr (.list (.str k!"gr_curve" :: (xs ++ .list (u :: r) :: ys))) =
    GrCurve.fromSexpr (.list (.str k!"gr_curve" :: (xs ++ ys))) := by
  rw [GrCurve.loopEq , GrCurve.loopEq ]
  exact forM_insert (GrCurve.unknown hu) _ (.str k!"gr_curve" :: xs) ys
example := C10_GrCurve [.list [.str k!"pts", .int 1]] [] (u := .str k!"zzz") (r := [.int 1]) (by simp)

end Kiutils
