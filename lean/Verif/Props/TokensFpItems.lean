import Verif.Swap
import Verif.Tracks.FpItems
/-!
# What `from_sexpr` makes of the items of a list: FpItems

For each class: `C37` (every field is read from the last item with its token; flags are set when their word or token occurs),
`C11` (lists contain all items with their tokens, once each, in order), `C36` (unrelated items may change places), `C10` (items
with unknown tokens are ignored). The vocabulary is defined in `Verif/Tokens.lean`.
-/
namespace Kiutils

theorem C37_FpText (a1 a2 : Val) (xs : List Val) (o : FpText) (h : FpText.fromSexpr (.list (.str k!"fp_text" :: a1 :: a2 :: xs)) = .ok o) :
    o.type = a1 ∧
    o.text = a2 ∧
    LastWins (tok k!"at") Position.fromSexpr xs ({} : Position) o.position ∧
    LastWins (tok k!"layer") (·.idx 1) xs (st k!"F.Cu" : Val) o.layer ∧
    FoldsTo (tok k!"layer") (fun acc i => do if (← i.len) > 2 then if (← i.idx 2).is k!"knockout" then return true else return acc else return acc) xs (false : Bool) o.knockout ∧
    o.hide = xs.any (wordIn [k!"hide"]) ∧
    LastWins (tok k!"effects") Effects.fromSexpr xs ({} : Effects) o.effects ∧
    LastWins (tok k!"tstamp") (fun i => do return some (← i.idx 1)) xs (none : Option Val) o.tstamp ∧
    LastWins (tok k!"render_cache") (fun i => do return some (← RenderCache.fromSexpr i)) xs (none : Option RenderCache) o.renderCache := by
  rw [FpText.loopEq a1 a2] at h
  exact ⟨((Track.folds (get := (·.type)) (fun o x o' hs => (FpText.trackAll o x o' hs).1) h)).const,
    ((Track.folds (get := (·.text)) (fun o x o' hs => (FpText.trackAll o x o' hs).2.1) h)).const,
    ((Track.folds (get := (·.position)) (fun o x o' hs => (FpText.trackAll o x o' hs).2.2.1) h)).last,
    ((Track.folds (get := (·.layer)) (fun o x o' hs => (FpText.trackAll o x o' hs).2.2.2.1) h)).last,
    ((Track.folds (get := (·.knockout)) (fun o x o' hs => (FpText.trackAll o x o' hs).2.2.2.2.1) h)),
    ((Track.folds (get := (·.hide)) (fun o x o' hs => (FpText.trackAll o x o' hs).2.2.2.2.2.1) h)).flag,
    ((Track.folds (get := (·.effects)) (fun o x o' hs => (FpText.trackAll o x o' hs).2.2.2.2.2.2.1) h)).last,
    ((Track.folds (get := (·.tstamp)) (fun o x o' hs => (FpText.trackAll o x o' hs).2.2.2.2.2.2.2.1) h)).last,
    ((Track.folds (get := (·.renderCache)) (fun o x o' hs => (FpText.trackAll o x o' hs).2.2.2.2.2.2.2.2) h)).last⟩

/-- A repeated token with an unknown one in between. -/
example : (FpText.fromSexpr (.list [.str k!"fp_text", .str k!"x", .str k!"x", .list [.str k!"tstamp", .str k!"a"], .list [.str k!"zzz", .int 1], .list [.str k!"tstamp", .str k!"b"]])).map (·.tstamp) = .ok (some (.str k!"b")) := rfl

theorem C36_FpText (a1 a2 : Val) {xs ys : List Val} (hr : Reordered [] xs ys) (o : FpText) :
    FpText.fromSexpr (.list (.str k!"fp_text" :: a1 :: a2 :: xs)) = .ok o ↔ FpText.fromSexpr (.list (.str k!"fp_text" :: a1 :: a2 :: ys)) = .ok o := by
  rw [FpText.loopEq a1 a2, FpText.loopEq a1 a2]
  exact reordered_iff FpText.indep FpText.reordered hr o
example := C36_FpText (.str k!"x") (.str k!"x") (.swap [] [] [.int 1] [.int 2] k!"at" k!"layer" (by decide) (by decide))

theorem C10_FpText (a1 a2 : Val) (xs ys : List Val) {u : Val} {r : List Val}
    (hu : ∀ k ∈ [k!"at", k!"layer", k!"effects", k!"tstamp", k!"render_cache"], u ≠ .str k) :
    FpText.fromSexpr (.list (.str k!"fp_text" :: a1 :: a2 :: (xs ++ .list (u :: r) :: ys))) =
    FpText.fromSexpr (.list (.str k!"fp_text" :: a1 :: a2 :: (xs ++ ys))) := by
  rw [FpText.loopEq a1 a2, FpText.loopEq a1 a2]
  exact forM_insert (FpText.unknown hu) _ xs ys
example := C10_FpText (.str k!"x") (.str k!"x") [.list [.str k!"at", .int 1]] [] (u := .str k!"zzz") (r := [.int 1]) (by simp)

theorem C37_FpLine (xs : List Val) (o : FpLine) (h : FpLine.fromSexpr (.list (.str k!"fp_line" :: xs)) = .ok o) :
    LastWins (tok k!"start") Position.fromSexpr xs ({} : Position) o.start ∧
    LastWins (tok k!"end") Position.fromSexpr xs ({} : Position) o.«end» ∧
    LastWins (tok k!"layer") (·.idx 1) xs (st k!"F.Cu" : Val) o.layer ∧
    LastWins (tokIn [k!"width", k!"stroke"]) (fun i => if tok k!"width" i then do return some (← i.idx 1) else do return none) xs (some (fl k!"0" k!"12") : Option Val) o.width ∧
    LastWins (tokIn [k!"width", k!"stroke"]) (fun i => if tok k!"width" i then do return none else do return some (← Stroke.fromSexpr i)) xs (none : Option Stroke) o.stroke ∧
    o.locked = xs.any (wordIn [k!"locked"]) ∧
    LastWins (tok k!"tstamp") (fun i => do return some (← i.idx 1)) xs (none : Option Val) o.tstamp := by
  rw [FpLine.loopEq ] at h
  exact ⟨((Track.folds (get := (·.start)) (fun o x o' hs => (FpLine.trackAll o x o' hs).1) h).drop rfl).last,
    ((Track.folds (get := (·.«end»)) (fun o x o' hs => (FpLine.trackAll o x o' hs).2.1) h).drop rfl).last,
    ((Track.folds (get := (·.layer)) (fun o x o' hs => (FpLine.trackAll o x o' hs).2.2.1) h).drop rfl).last,
    ((Track.folds (get := (·.width)) (fun o x o' hs => (FpLine.trackAll o x o' hs).2.2.2.1) h).drop rfl).last,
    ((Track.folds (get := (·.stroke)) (fun o x o' hs => (FpLine.trackAll o x o' hs).2.2.2.2.1) h).drop rfl).last,
    ((Track.folds (get := (·.locked)) (fun o x o' hs => (FpLine.trackAll o x o' hs).2.2.2.2.2.1) h).drop rfl).flag,
    ((Track.folds (get := (·.tstamp)) (fun o x o' hs => (FpLine.trackAll o x o' hs).2.2.2.2.2.2) h).drop rfl).last⟩

/-- A repeated token with an unknown one in between. -/
example : (FpLine.fromSexpr (.list [.str k!"fp_line", .list [.str k!"layer", .str k!"a"], .list [.str k!"zzz", .int 1], .list [.str k!"layer", .str k!"b"]])).map (·.layer) = .ok (.str k!"b") := rfl

theorem C36_FpLine {xs ys : List Val} (hr : Reordered [[k!"width", k!"stroke"]] xs ys) (o : FpLine) :
    FpLine.fromSexpr (.list (.str k!"fp_line" :: xs)) = .ok o ↔ FpLine.fromSexpr (.list (.str k!"fp_line" :: ys)) = .ok o := by
  rw [FpLine.loopEq , FpLine.loopEq ]
  exact reordered_iff FpLine.indep FpLine.reordered (hr.cons _) o
example := C36_FpLine (.swap [] [] [.int 1] [.int 2] k!"start" k!"end" (by decide) (by decide))

theorem C10_FpLine (xs ys : List Val) {u : Val} {r : List Val}
    (hu : ∀ k ∈ [k!"start", k!"end", k!"layer", k!"tstamp", k!"width", k!"stroke"], u ≠ .str k) :
    FpLine.fromSexpr (.list (.str k!"fp_line" :: (xs ++ .list (u :: r) :: ys))) =
    FpLine.fromSexpr (.list (.str k!"fp_line" :: (xs ++ ys))) := by
  rw [FpLine.loopEq , FpLine.loopEq ]
  exact forM_insert (FpLine.unknown hu) _ (.str k!"fp_line" :: xs) ys
example := C10_FpLine [.list [.str k!"start", .int 1]] [] (u := .str k!"zzz") (r := [.int 1]) (by simp)

theorem C37_FpRect (xs : List Val) (o : FpRect) (h : FpRect.fromSexpr (.list (.str k!"fp_rect" :: xs)) = .ok o) :
    LastWins (tok k!"start") Position.fromSexpr xs ({} : Position) o.start ∧
    LastWins (tok k!"end") Position.fromSexpr xs ({} : Position) o.«end» ∧
    LastWins (tok k!"layer") (·.idx 1) xs (st k!"F.Cu" : Val) o.layer ∧
    LastWins (tokIn [k!"width", k!"stroke"]) (fun i => if tok k!"width" i then do return some (← i.idx 1) else do return none) xs (some (fl k!"0" k!"12") : Option Val) o.width ∧
    LastWins (tokIn [k!"width", k!"stroke"]) (fun i => if tok k!"width" i then do return none else do return some (← Stroke.fromSexpr i)) xs (none : Option Stroke) o.stroke ∧
    LastWins (tok k!"fill") (fun i => do return some (← i.idx 1)) xs (none : Option Val) o.fill ∧
    o.locked = xs.any (wordIn [k!"locked"]) ∧
    LastWins (tok k!"tstamp") (fun i => do return some (← i.idx 1)) xs (none : Option Val) o.tstamp := by
  rw [FpRect.loopEq ] at h
  exact ⟨((Track.folds (get := (·.start)) (fun o x o' hs => (FpRect.trackAll o x o' hs).1) h).drop rfl).last,
    ((Track.folds (get := (·.«end»)) (fun o x o' hs => (FpRect.trackAll o x o' hs).2.1) h).drop rfl).last,
    ((Track.folds (get := (·.layer)) (fun o x o' hs => (FpRect.trackAll o x o' hs).2.2.1) h).drop rfl).last,
    ((Track.folds (get := (·.width)) (fun o x o' hs => (FpRect.trackAll o x o' hs).2.2.2.1) h).drop rfl).last,
    ((Track.folds (get := (·.stroke)) (fun o x o' hs => (FpRect.trackAll o x o' hs).2.2.2.2.1) h).drop rfl).last,
    ((Track.folds (get := (·.fill)) (fun o x o' hs => (FpRect.trackAll o x o' hs).2.2.2.2.2.1) h).drop rfl).last,
    ((Track.folds (get := (·.locked)) (fun o x o' hs => (FpRect.trackAll o x o' hs).2.2.2.2.2.2.1) h).drop rfl).flag,
    ((Track.folds (get := (·.tstamp)) (fun o x o' hs => (FpRect.trackAll o x o' hs).2.2.2.2.2.2.2) h).drop rfl).last⟩

/-- A repeated token with an unknown one in between. -/
example : (FpRect.fromSexpr (.list [.str k!"fp_rect", .list [.str k!"layer", .str k!"a"], .list [.str k!"zzz", .int 1], .list [.str k!"layer", .str k!"b"]])).map (·.layer) = .ok (.str k!"b") := rfl

theorem C36_FpRect {xs ys : List Val} (hr : Reordered [[k!"width", k!"stroke"]] xs ys) (o : FpRect) :
    FpRect.fromSexpr (.list (.str k!"fp_rect" :: xs)) = .ok o ↔ FpRect.fromSexpr (.list (.str k!"fp_rect" :: ys)) = .ok o := by
  rw [FpRect.loopEq , FpRect.loopEq ]
  exact reordered_iff FpRect.indep FpRect.reordered (hr.cons _) o
example := C36_FpRect (.swap [] [] [.int 1] [.int 2] k!"start" k!"end" (by decide) (by decide))

theorem C10_FpRect (xs ys : List Val) {u : Val} {r : List Val}
    (hu : ∀ k ∈ [k!"start", k!"end", k!"layer", k!"tstamp", k!"fill", k!"width", k!"stroke"], u ≠ .str k) :
    FpRect.fromSexpr (.list (.str k!"fp_rect" :: (xs ++ .list (u :: r) :: ys))) =
    FpRect.fromSexpr (.list (.str k!"fp_rect" :: (xs ++ ys))) := by
  rw [FpRect.loopEq , FpRect.loopEq ]
  exact forM_insert (FpRect.unknown hu) _ (.str k!"fp_rect" :: xs) ys
example := C10_FpRect [.list [.str k!"start", .int 1]] [] (u := .str k!"zzz") (r := [.int 1]) (by simp)

theorem C37_FpTextBox {a : Val} (ha : a.is k!"locked" = false) (xs : List Val) (o : FpTextBox) (h : FpTextBox.fromSexpr (.list (.str k!"fp_text_box" :: a :: xs)) = .ok o) :
    o.locked = (false : Bool) ∧
    o.text = a ∧
    LastWins (tok k!"start") (fun i => do return some (← Position.fromSexpr i)) xs (none : Option Position) o.start ∧
    LastWins (tok k!"end") (fun i => do return some (← Position.fromSexpr i)) xs (none : Option Position) o.«end» ∧
    LastWins (tok k!"angle") (fun i => do return some (← i.idx 1)) xs (none : Option Val) o.angle ∧
    LastWins (tok k!"layer") (·.idx 1) xs (st k!"F.Cu" : Val) o.layer ∧
    LastWins (tok k!"tstamp") (fun i => do return some (← i.idx 1)) xs (none : Option Val) o.tstamp ∧
    LastWins (tok k!"effects") (fun i => do return some (← Effects.fromSexpr i)) xs (none : Option Effects) o.effects ∧
    LastWins (tok k!"stroke") (fun i => do return some (← Stroke.fromSexpr i)) xs (none : Option Stroke) o.stroke ∧
    LastWins (tok k!"render_cache") (fun i => do return some (← RenderCache.fromSexpr i)) xs (none : Option RenderCache) o.renderCache := by
  rw [FpTextBox.loopEq ha] at h
  exact ⟨((Track.folds (get := (·.locked)) (fun o x o' hs => (FpTextBox.trackAll o x o' hs).1) h)).const,
    ((Track.folds (get := (·.text)) (fun o x o' hs => (FpTextBox.trackAll o x o' hs).2.1) h)).const,
    ((Track.folds (get := (·.start)) (fun o x o' hs => (FpTextBox.trackAll o x o' hs).2.2.1) h)).last,
    ((Track.folds (get := (·.«end»)) (fun o x o' hs => (FpTextBox.trackAll o x o' hs).2.2.2.1) h)).last,
    ((Track.folds (get := (·.angle)) (fun o x o' hs => (FpTextBox.trackAll o x o' hs).2.2.2.2.2.1) h)).last,
    ((Track.folds (get := (·.layer)) (fun o x o' hs => (FpTextBox.trackAll o x o' hs).2.2.2.2.2.2.1) h)).last,
    ((Track.folds (get := (·.tstamp)) (fun o x o' hs => (FpTextBox.trackAll o x o' hs).2.2.2.2.2.2.2.1) h)).last,
    ((Track.folds (get := (·.effects)) (fun o x o' hs => (FpTextBox.trackAll o x o' hs).2.2.2.2.2.2.2.2.1) h)).last,
    ((Track.folds (get := (·.stroke)) (fun o x o' hs => (FpTextBox.trackAll o x o' hs).2.2.2.2.2.2.2.2.2.1) h)).last,
    ((Track.folds (get := (·.renderCache)) (fun o x o' hs => (FpTextBox.trackAll o x o' hs).2.2.2.2.2.2.2.2.2.2) h)).last⟩
example := C37_FpTextBox (a := .str k!"x") rfl [.list [.str k!"angle", .str k!"a"]] _ rfl

theorem C11_FpTextBox {a : Val} (ha : a.is k!"locked" = false) (xs : List Val) (o : FpTextBox) (h : FpTextBox.fromSexpr (.list (.str k!"fp_text_box" :: a :: xs)) = .ok o) :
    CollectedAll (tok k!"pts") (fun i => do mapM' Position.fromSexpr (← i.slice 1)) xs o.pts := by
  rw [FpTextBox.loopEq ha] at h
  exact ((Track.folds (get := (·.pts)) (fun o x o' hs => (FpTextBox.trackAll o x o' hs).2.2.2.2.1) h)).collectedAll

/-- A repeated token with an unknown one in between. -/
example : (FpTextBox.fromSexpr (.list [.str k!"fp_text_box", .str k!"x", .list [.str k!"angle", .str k!"a"], .list [.str k!"zzz", .int 1], .list [.str k!"angle", .str k!"b"]])).map (·.angle) = .ok (some (.str k!"b")) := rfl

theorem C36_FpTextBox {a : Val} (ha : a.is k!"locked" = false) {xs ys : List Val} (hr : Reordered [] xs ys) (o : FpTextBox) :
    FpTextBox.fromSexpr (.list (.str k!"fp_text_box" :: a :: xs)) = .ok o ↔ FpTextBox.fromSexpr (.list (.str k!"fp_text_box" :: a :: ys)) = .ok o := by
  rw [FpTextBox.loopEq ha, FpTextBox.loopEq ha]
  exact reordered_iff FpTextBox.indep FpTextBox.reordered hr o
example := C36_FpTextBox (a := .str k!"x") rfl (.swap [] [] [.int 1] [.int 2] k!"start" k!"end" (by decide) (by decide))

theorem C10_FpTextBox {a : Val} (ha : a.is k!"locked" = false) (xs ys : List Val) {u : Val} {r : List Val}
    (hu : ∀ k ∈ [k!"start", k!"end", k!"pts", k!"angle", k!"layer", k!"tstamp", k!"effects", k!"stroke", k!"render_cache"], u ≠ .str k) :
    FpTextBox.fromSexpr (.list (.str k!"fp_text_box" :: a :: (xs ++ .list (u :: r) :: ys))) =
    FpTextBox.fromSexpr (.list (.str k!"fp_text_box" :: a :: (xs ++ ys))) := by
  rw [FpTextBox.loopEq ha, FpTextBox.loopEq ha]
  exact forM_insert (FpTextBox.unknown hu) _ xs ys
example := C10_FpTextBox (a := .str k!"x") rfl [.list [.str k!"start", .int 1]] [] (u := .str k!"zzz") (r := [.int 1]) (by simp)

theorem C37_FpCircle (xs : List Val) (o : FpCircle) (h : FpCircle.fromSexpr (.list (.str k!"fp_circle" :: xs)) = .ok o) :
    LastWins (tok k!"center") Position.fromSexpr xs ({} : Position) o.center ∧
    LastWins (tok k!"end") Position.fromSexpr xs ({} : Position) o.«end» ∧
    LastWins (tok k!"layer") (·.idx 1) xs (st k!"F.Cu" : Val) o.layer ∧
    LastWins (tokIn [k!"width", k!"stroke"]) (fun i => if tok k!"width" i then do return some (← i.idx 1) else do return none) xs (some (fl k!"0" k!"12") : Option Val) o.width ∧
    LastWins (tokIn [k!"width", k!"stroke"]) (fun i => if tok k!"width" i then do return none else do return some (← Stroke.fromSexpr i)) xs (none : Option Stroke) o.stroke ∧
    LastWins (tok k!"fill") (fun i => do return some (← i.idx 1)) xs (none : Option Val) o.fill ∧
    o.locked = xs.any (wordIn [k!"locked"]) ∧
    LastWins (tok k!"tstamp") (fun i => do return some (← i.idx 1)) xs (none : Option Val) o.tstamp := by
  rw [FpCircle.loopEq ] at h
  exact ⟨((Track.folds (get := (·.center)) (fun o x o' hs => (FpCircle.trackAll o x o' hs).1) h).drop rfl).last,
    ((Track.folds (get := (·.«end»)) (fun o x o' hs => (FpCircle.trackAll o x o' hs).2.1) h).drop rfl).last,
    ((Track.folds (get := (·.layer)) (fun o x o' hs => (FpCircle.trackAll o x o' hs).2.2.1) h).drop rfl).last,
    ((Track.folds (get := (·.width)) (fun o x o' hs => (FpCircle.trackAll o x o' hs).2.2.2.1) h).drop rfl).last,
    ((Track.folds (get := (·.stroke)) (fun o x o' hs => (FpCircle.trackAll o x o' hs).2.2.2.2.1) h).drop rfl).last,
    ((Track.folds (get := (·.fill)) (fun o x o' hs => (FpCircle.trackAll o x o' hs).2.2.2.2.2.1) h).drop rfl).last,
    ((Track.folds (get := (·.locked)) (fun o x o' hs => (FpCircle.trackAll o x o' hs).2.2.2.2.2.2.1) h).drop rfl).flag,
    ((Track.folds (get := (·.tstamp)) (fun o x o' hs => (FpCircle.trackAll o x o' hs).2.2.2.2.2.2.2) h).drop rfl).last⟩

/-- A repeated token with an unknown one in between. -/
example : (FpCircle.fromSexpr (.list [.str k!"fp_circle", .list [.str k!"layer", .str k!"a"], .list [.str k!"zzz", .int 1], .list [.str k!"layer", .str k!"b"]])).map (·.layer) = .ok (.str k!"b") := rfl

theorem C36_FpCircle {xs ys : List Val} (hr : Reordered [[k!"width", k!"stroke"]] xs ys) (o : FpCircle) :
    FpCircle.fromSexpr (.list (.str k!"fp_circle" :: xs)) = .ok o ↔ FpCircle.fromSexpr (.list (.str k!"fp_circle" :: ys)) = .ok o := by
  rw [FpCircle.loopEq , FpCircle.loopEq ]
  exact reordered_iff FpCircle.indep FpCircle.reordered (hr.cons _) o
example := C36_FpCircle (.swap [] [] [.int 1] [.int 2] k!"center" k!"end" (by decide) (by decide))

theorem C10_FpCircle (xs ys : List Val) {u : Val} {r : List Val}
    (hu : ∀ k ∈ [k!"center", k!"end", k!"layer", k!"tstamp", k!"fill", k!"width", k!"stroke"], u ≠ .str k) :
    FpCircle.fromSexpr (.list (.str k!"fp_circle" :: (xs ++ .list (u :: r) :: ys))) =
    FpCircle.fromSexpr (.list (.str k!"fp_circle" :: (xs ++ ys))) := by
  rw [FpCircle.loopEq , FpCircle.loopEq ]
  exact forM_insert (FpCircle.unknown hu) _ (.str k!"fp_circle" :: xs) ys
example := C10_FpCircle [.list [.str k!"center", .int 1]] [] (u := .str k!"zzz") (r := [.int 1]) (by simp)

theorem C37_FpArc (xs : List Val) (o : FpArc) (h : FpArc.fromSexpr (.list (.str k!"fp_arc" :: xs)) = .ok o) :
    LastWins (tok k!"start") Position.fromSexpr xs ({} : Position) o.start ∧
    LastWins (tok k!"mid") Position.fromSexpr xs ({} : Position) o.mid ∧
    LastWins (tok k!"end") Position.fromSexpr xs ({} : Position) o.«end» ∧
    LastWins (tok k!"layer") (·.idx 1) xs (st k!"F.Cu" : Val) o.layer ∧
    LastWins (tokIn [k!"width", k!"stroke"]) (fun i => if tok k!"width" i then do return some (← i.idx 1) else do return none) xs (some (fl k!"0" k!"12") : Option Val) o.width ∧
    LastWins (tokIn [k!"width", k!"stroke"]) (fun i => if tok k!"width" i then do return none else do return some (← Stroke.fromSexpr i)) xs (none : Option Stroke) o.stroke ∧
    o.locked = xs.any (wordIn [k!"locked"]) ∧
    LastWins (tok k!"tstamp") (fun i => do return some (← i.idx 1)) xs (none : Option Val) o.tstamp := by
  rw [FpArc.loopEq ] at h
  exact ⟨((Track.folds (get := (·.start)) (fun o x o' hs => (FpArc.trackAll o x o' hs).1) h).drop rfl).last,
    ((Track.folds (get := (·.mid)) (fun o x o' hs => (FpArc.trackAll o x o' hs).2.1) h).drop rfl).last,
    ((Track.folds (get := (·.«end»)) (fun o x o' hs => (FpArc.trackAll o x o' hs).2.2.1) h).drop rfl).last,
    ((Track.folds (get := (·.layer)) (fun o x o' hs => (FpArc.trackAll o x o' hs).2.2.2.1) h).drop rfl).last,
    ((Track.folds (get := (·.width)) (fun o x o' hs => (FpArc.trackAll o x o' hs).2.2.2.2.1) h).drop rfl).last,
    ((Track.folds (get := (·.stroke)) (fun o x o' hs => (FpArc.trackAll o x o' hs).2.2.2.2.2.1) h).drop rfl).last,
    ((Track.folds (get := (·.locked)) (fun o x o' hs => (FpArc.trackAll o x o' hs).2.2.2.2.2.2.1) h).drop rfl).flag,
    ((Track.folds (get := (·.tstamp)) (fun o x o' hs => (FpArc.trackAll o x o' hs).2.2.2.2.2.2.2) h).drop rfl).last⟩

/-- A repeated token with an unknown one in between. -/
example : (FpArc.fromSexpr (.list [.str k!"fp_arc", .list [.str k!"layer", .str k!"a"], .list [.str k!"zzz", .int 1], .list [.str k!"layer", .str k!"b"]])).map (·.layer) = .ok (.str k!"b") := rfl

theorem C36_FpArc {xs ys : List Val} (hr : Reordered [[k!"width", k!"stroke"]] xs ys) (o : FpArc) :
    FpArc.fromSexpr (.list (.str k!"fp_arc" :: xs)) = .ok o ↔ FpArc.fromSexpr (.list (.str k!"fp_arc" :: ys)) = .ok o := by
  rw [FpArc.loopEq , FpArc.loopEq ]
  exact reordered_iff FpArc.indep FpArc.reordered (hr.cons _) o
example := C36_FpArc (.swap [] [] [.int 1] [.int 2] k!"start" k!"mid" (by decide) (by decide))

theorem C10_FpArc (xs ys : List Val) {u : Val} {r : List Val}
    (hu : ∀ k ∈ [k!"start", k!"mid", k!"end", k!"layer", k!"tstamp", k!"width", k!"stroke"], u ≠ .str k) :
    FpArc.fromSexpr (.list (.str k!"fp_arc" :: (xs ++ .list (u :: r) :: ys))) =
    FpArc.fromSexpr (.list (.str k!"fp_arc" :: (xs ++ ys))) := by
  rw [FpArc.loopEq , FpArc.loopEq ]
  exact forM_insert (FpArc.unknown hu) _ (.str k!"fp_arc" :: xs) ys
example := C10_FpArc [.list [.str k!"start", .int 1]] [] (u := .str k!"zzz") (r := [.int 1]) (by simp)

theorem C37_FpPoly (xs : List Val) (o : FpPoly) (h : FpPoly.fromSexpr (.list (.str k!"fp_poly" :: xs)) = .ok o) :
    LastWins (tok k!"layer") (·.idx 1) xs (st k!"F.Cu" : Val) o.layer ∧
    LastWins (tokIn [k!"width", k!"stroke"]) (fun i => if tok k!"width" i then do return some (← i.idx 1) else do return none) xs (some (fl k!"0" k!"12") : Option Val) o.width ∧
    LastWins (tokIn [k!"width", k!"stroke"]) (fun i => if tok k!"width" i then do return none else do return some (← Stroke.fromSexpr i)) xs (none : Option Stroke) o.stroke ∧
    LastWins (tok k!"fill") (fun i => do return some (← i.idx 1)) xs (none : Option Val) o.fill ∧
    o.locked = xs.any (wordIn [k!"locked"]) ∧
    LastWins (tok k!"tstamp") (fun i => do return some (← i.idx 1)) xs (none : Option Val) o.tstamp := by
  rw [FpPoly.loopEq ] at h
  exact ⟨((Track.folds (get := (·.layer)) (fun o x o' hs => (FpPoly.trackAll o x o' hs).1) h).drop rfl).last,
    ((Track.folds (get := (·.width)) (fun o x o' hs => (FpPoly.trackAll o x o' hs).2.2.1) h).drop rfl).last,
    ((Track.folds (get := (·.stroke)) (fun o x o' hs => (FpPoly.trackAll o x o' hs).2.2.2.1) h).drop rfl).last,
    ((Track.folds (get := (·.fill)) (fun o x o' hs => (FpPoly.trackAll o x o' hs).2.2.2.2.1) h).drop rfl).last,
    ((Track.folds (get := (·.locked)) (fun o x o' hs => (FpPoly.trackAll o x o' hs).2.2.2.2.2.1) h).drop rfl).flag,
    ((Track.folds (get := (·.tstamp)) (fun o x o' hs => (FpPoly.trackAll o x o' hs).2.2.2.2.2.2) h).drop rfl).last⟩
example := C37_FpPoly [.list [.str k!"layer", .str k!"a"], .str k!"locked"] _ rfl

theorem C11_FpPoly (xs : List Val) (o : FpPoly) (h : FpPoly.fromSexpr (.list (.str k!"fp_poly" :: xs)) = .ok o) :
    CollectedAll (tok k!"pts") (fun i => do mapM' Position.fromSexpr (← i.slice 1)) xs o.coordinates := by
  rw [FpPoly.loopEq ] at h
  exact ((Track.folds (get := (·.coordinates)) (fun o x o' hs => (FpPoly.trackAll o x o' hs).2.1) h).drop rfl).collectedAll

/-- A repeated token with an unknown one in between. -/
example : (FpPoly.fromSexpr (.list [.str k!"fp_poly", .list [.str k!"layer", .str k!"a"], .list [.str k!"zzz", .int 1], .list [.str k!"layer", .str k!"b"]])).map (·.layer) = .ok (.str k!"b") := rfl

theorem C36_FpPoly {xs ys : List Val} (hr : Reordered [[k!"width", k!"stroke"]] xs ys) (o : FpPoly) :
    FpPoly.fromSexpr (.list (.str k!"fp_poly" :: xs)) = .ok o ↔ FpPoly.fromSexpr (.list (.str k!"fp_poly" :: ys)) = .ok o := by
  rw [FpPoly.loopEq , FpPoly.loopEq ]
  exact reordered_iff FpPoly.indep FpPoly.reordered (hr.cons _) o
example := C36_FpPoly (.swap [] [] [.int 1] [.int 2] k!"pts" k!"layer" (by decide) (by decide))

theorem C10_FpPoly (xs ys : List Val) {u : Val} {r : List Val}
    (hu : ∀ k ∈ [k!"pts", k!"layer", k!"tstamp", k!"fill", k!"width", k!"stroke"], u ≠ .str k) :
    FpPoly.fromSexpr (.list (.str k!"fp_poly" :: (xs ++ .list (u :: r) :: ys))) =
    FpPoly.fromSexpr (.list (.str k!"fp_poly" :: (xs ++ ys))) := by
  rw [FpPoly.loopEq , FpPoly.loopEq ]
  exact forM_insert (FpPoly.unknown hu) _ (.str k!"fp_poly" :: xs) ys
example := C10_FpPoly [.list [.str k!"pts", .int 1]] [] (u := .str k!"zzz") (r := [.int 1]) (by simp)

theorem C37_FpCurve (xs : List Val) (o : FpCurve) (h : FpCurve.fromSexpr (.list (.str k!"fp_curve" :: xs)) = .ok o) :
    LastWins (tok k!"layer") (·.idx 1) xs (st k!"F.Cu" : Val) o.layer ∧
    LastWins (tokIn [k!"width", k!"stroke"]) (fun i => if tok k!"width" i then do return some (← i.idx 1) else do return none) xs (some (fl k!"0" k!"12") : Option Val) o.width ∧
    LastWins (tokIn [k!"width", k!"stroke"]) (fun i => if tok k!"width" i then do return none else do return some (← Stroke.fromSexpr i)) xs (none : Option Stroke) o.stroke ∧
    o.locked = xs.any (wordIn [k!"locked"]) ∧
    LastWins (tok k!"tstamp") (fun i => do return some (← i.idx 1)) xs (none : Option Val) o.tstamp := by
  rw [FpCurve.loopEq ] at h
  exact ⟨((Track.folds (get := (·.layer)) (fun o x o' hs => (FpCurve.trackAll o x o' hs).2.1) h).drop rfl).last,
    ((Track.folds (get := (·.width)) (fun o x o' hs => (FpCurve.trackAll o x o' hs).2.2.1) h).drop rfl).last,
    ((Track.folds (get := (·.stroke)) (fun o x o' hs => (FpCurve.trackAll o x o' hs).2.2.2.1) h).drop rfl).last,
    ((Track.folds (get := (·.locked)) (fun o x o' hs => (FpCurve.trackAll o x o' hs).2.2.2.2.1) h).drop rfl).flag,
    ((Track.folds (get := (·.tstamp)) (fun o x o' hs => (FpCurve.trackAll o x o' hs).2.2.2.2.2) h).drop rfl).last⟩
example := C37_FpCurve [.list [.str k!"layer", .str k!"a"], .str k!"locked"] _ rfl

theorem C11_FpCurve (xs : List Val) (o : FpCurve) (h : FpCurve.fromSexpr (.list (.str k!"fp_curve" :: xs)) = .ok o) :
    CollectedAll (tok k!"pts") (fun i => do mapM' Position.fromSexpr (← i.slice 1)) xs o.coordinates := by
  rw [FpCurve.loopEq ] at h
  exact ((Track.folds (get := (·.coordinates)) (fun o x o' hs => (FpCurve.trackAll o x o' hs).1) h).drop rfl).collectedAll

/-- A repeated token with an unknown one in between. -/
example : (FpCurve.fromSexpr (.list [.str k!"fp_curve", .list [.str k!"layer", .str k!"a"], .list [.str k!"zzz", .int 1], .list [.str k!"layer", .str k!"b"]])).map (·.layer) = .ok (.str k!"b") := rfl

theorem C36_FpCurve {xs ys : List Val} (hr : Reordered [[k!"width", k!"stroke"]] xs ys) (o : FpCurve) :
    FpCurve.fromSexpr (.list (.str k!"fp_curve" :: xs)) = .ok o ↔ FpCurve.fromSexpr (.list (.str k!"fp_curve" :: ys)) = .ok o := by
  rw [FpCurve.loopEq , FpCurve.loopEq ]
  exact reordered_iff FpCurve.indep FpCurve.reordered (hr.cons _) o
example := C36_FpCurve (.swap [] [] [.int 1] [.int 2] k!"pts" k!"layer" (by decide) (by decide))

theorem C10_FpCurve (xs ys : List Val) {u : Val} {r : List Val}
    (hu : ∀ k ∈ [k!"pts", k!"layer", k!"tstamp", k!"width", k!"stroke"], u ≠ .str k) :
    FpCurve.fromSexpr (.list (.str k!"fp_curve" :: (xs ++ .list (u :: r) :: ys))) =
    FpCurve.fromSexpr (.list (.str k!"fp_curve" :: (xs ++ ys))) := by
  rw [FpCurve.loopEq , FpCurve.loopEq ]
  exact forM_insert (FpCurve.unknown hu) _ (.str k!"fp_curve" :: xs) ys
example := C10_FpCurve [.list [.str k!"pts", .int 1]] [] (u := .str k!"zzz") (r := [.int 1]) (by simp)

end Kiutils
