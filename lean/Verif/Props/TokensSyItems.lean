import Verif.Swap
import Verif.Tracks.SyItems
/-!
# What `from_sexpr` makes of the items of a list: SyItems

For each class: `C37` (every field is read from the last item with its token; flags are set when their word or token occurs),
`C11` (lists contain all items with their tokens, once each, in order), `C36` (unrelated items may change places), `C10` (items
with unknown tokens are ignored). The vocabulary is defined in `Verif/Tokens.lean`.
-/
namespace Kiutils

theorem C37_SyArc (xs : List Val) (o : SyArc) (h : SyArc.fromSexpr (.list (.str k!"arc" :: xs)) = .ok o) :
    o.priv = xs.any (wordIn [k!"private"]) ∧
    LastWins (tok k!"start") Position.fromSexpr xs ({} : Position) o.start ∧
    LastWins (tok k!"mid") Position.fromSexpr xs ({} : Position) o.mid ∧
    LastWins (tok k!"end") Position.fromSexpr xs ({} : Position) o.«end» ∧
    LastWins (tok k!"stroke") Stroke.fromSexpr xs ({} : Stroke) o.stroke ∧
    LastWins (tok k!"fill") Fill.fromSexpr xs ({} : Fill) o.fill := by
  rw [SyArc.loopEq ] at h
  exact ⟨((Track.folds (get := (·.priv)) (fun o x o' hs => (SyArc.trackAll o x o' hs).1) h).drop rfl).flag,
    ((Track.folds (get := (·.start)) (fun o x o' hs => (SyArc.trackAll o x o' hs).2.1) h).drop rfl).last,
    ((Track.folds (get := (·.mid)) (fun o x o' hs => (SyArc.trackAll o x o' hs).2.2.1) h).drop rfl).last,
    ((Track.folds (get := (·.«end»)) (fun o x o' hs => (SyArc.trackAll o x o' hs).2.2.2.1) h).drop rfl).last,
    ((Track.folds (get := (·.stroke)) (fun o x o' hs => (SyArc.trackAll o x o' hs).2.2.2.2.1) h).drop rfl).last,
    ((Track.folds (get := (·.fill)) (fun o x o' hs => (SyArc.trackAll o x o' hs).2.2.2.2.2) h).drop rfl).last⟩
example := C37_SyArc [.str k!"private"] _ rfl

theorem C36_SyArc {xs ys : List Val} (hr : Reordered [] xs ys) (o : SyArc) :
    SyArc.fromSexpr (.list (.str k!"arc" :: xs)) = .ok o ↔ SyArc.fromSexpr (.list (.str k!"arc" :: ys)) = .ok o := by
  rw [SyArc.loopEq , SyArc.loopEq ]
  exact reordered_iff SyArc.indep SyArc.reordered (hr.cons _) o
example := C36_SyArc (.swap [] [] [.int 1] [.int 2] k!"start" k!"mid" (by decide) (by decide))

theorem C10_SyArc (xs ys : List Val) {u : Val} {r : List Val}
    (hu : ∀ k ∈ [k!"start", k!"mid", k!"end", k!"stroke", k!"fill"], u ≠ .str k) :
    SyArc.fromSexpr (.list (.str k!"arc" :: (xs ++ .list (u :: r) :: ys))) =
    SyArc.fromSexpr (.list (.str k!"arc" :: (xs ++ ys))) := by
  rw [SyArc.loopEq , SyArc.loopEq ]
  exact forM_insert (SyArc.unknown hu) _ (.str k!"arc" :: xs) ys
example := C10_SyArc [.list [.str k!"start", .int 1]] [] (u := .str k!"zzz") (r := [.int 1]) (by simp)

theorem C37_SyCircle (xs : List Val) (o : SyCircle) (h : SyCircle.fromSexpr (.list (.str k!"circle" :: xs)) = .ok o) :
    o.priv = xs.any (wordIn [k!"private"]) ∧
    LastWins (tok k!"center") Position.fromSexpr xs ({} : Position) o.center ∧
    LastWins (tok k!"radius") (·.idx 1) xs (fl k!"0" k!"0" : Val) o.radius ∧
    LastWins (tok k!"stroke") Stroke.fromSexpr xs ({} : Stroke) o.stroke ∧
    LastWins (tok k!"fill") Fill.fromSexpr xs ({} : Fill) o.fill := by
  rw [SyCircle.loopEq ] at h
  exact ⟨((Track.folds (get := (·.priv)) (fun o x o' hs => (SyCircle.trackAll o x o' hs).1) h).drop rfl).flag,
    ((Track.folds (get := (·.center)) (fun o x o' hs => (SyCircle.trackAll o x o' hs).2.1) h).drop rfl).last,
    ((Track.folds (get := (·.radius)) (fun o x o' hs => (SyCircle.trackAll o x o' hs).2.2.1) h).drop rfl).last,
    ((Track.folds (get := (·.stroke)) (fun o x o' hs => (SyCircle.trackAll o x o' hs).2.2.2.1) h).drop rfl).last,
    ((Track.folds (get := (·.fill)) (fun o x o' hs => (SyCircle.trackAll o x o' hs).2.2.2.2) h).drop rfl).last⟩

/-- A repeated token with an unknown one in between. -/
example : (SyCircle.fromSexpr (.list [.str k!"circle", .list [.str k!"radius", .str k!"a"], .list [.str k!"zzz", .int 1], .list [.str k!"radius", .str k!"b"]])).map (·.radius) = .ok (.str k!"b") := rfl

theorem C36_SyCircle {xs ys : List Val} (hr : Reordered [] xs ys) (o : SyCircle) :
    SyCircle.fromSexpr (.list (.str k!"circle" :: xs)) = .ok o ↔ SyCircle.fromSexpr (.list (.str k!"circle" :: ys)) = .ok o := by
  rw [SyCircle.loopEq , SyCircle.loopEq ]
  exact reordered_iff SyCircle.indep SyCircle.reordered (hr.cons _) o
example := C36_SyCircle (.swap [] [] [.int 1] [.int 2] k!"center" k!"radius" (by decide) (by decide))

theorem C10_SyCircle (xs ys : List Val) {u : Val} {r : List Val}
    (hu : ∀ k ∈ [k!"center", k!"radius", k!"stroke", k!"fill"], u ≠ .str k) :
    SyCircle.fromSexpr (.list (.str k!"circle" :: (xs ++ .list (u :: r) :: ys))) =
    SyCircle.fromSexpr (.list (.str k!"circle" :: (xs ++ ys))) := by
  rw [SyCircle.loopEq , SyCircle.loopEq ]
  exact forM_insert (SyCircle.unknown hu) _ (.str k!"circle" :: xs) ys
example := C10_SyCircle [.list [.str k!"center", .int 1]] [] (u := .str k!"zzz") (r := [.int 1]) (by simp)

theorem C37_SyCurve (xs : List Val) (o : SyCurve) (h : SyCurve.fromSexpr (.list (.str k!"curve" :: xs)) = .ok o) :
    LastWins (tok k!"stroke") Stroke.fromSexpr xs ({} : Stroke) o.stroke ∧
    LastWins (tok k!"fill") Fill.fromSexpr xs ({} : Fill) o.fill := by
  rw [SyCurve.loopEq ] at h
  exact ⟨((Track.folds (get := (·.stroke)) (fun o x o' hs => (SyCurve.trackAll o x o' hs).2.1) h).drop rfl).last,
    ((Track.folds (get := (·.fill)) (fun o x o' hs => (SyCurve.trackAll o x o' hs).2.2) h).drop rfl).last⟩
example := C37_SyCurve [.list [.str k!"zzz", .int 1]] _ rfl

theorem C11_SyCurve (xs : List Val) (o : SyCurve) (h : SyCurve.fromSexpr (.list (.str k!"curve" :: xs)) = .ok o) :
    CollectedAll (tok k!"pts") (fun i => do mapM' Position.fromSexpr (← i.slice 1)) xs o.points := by
  rw [SyCurve.loopEq ] at h
  exact ((Track.folds (get := (·.points)) (fun o x o' hs => (SyCurve.trackAll o x o' hs).1) h).drop rfl).collectedAll
example := C11_SyCurve [.list [.str k!"zzz", .int 1]] _ rfl

theorem C36_SyCurve {xs ys : List Val} (hr : Reordered [] xs ys) (o : SyCurve) :
    SyCurve.fromSexpr (.list (.str k!"curve" :: xs)) = .ok o ↔ SyCurve.fromSexpr (.list (.str k!"curve" :: ys)) = .ok o := by
  rw [SyCurve.loopEq , SyCurve.loopEq ]
  exact reordered_iff SyCurve.indep SyCurve.reordered (hr.cons _) o
example := C36_SyCurve (.swap [] [] [.int 1] [.int 2] k!"stroke" k!"fill" (by decide) (by decide))

theorem C10_SyCurve (xs ys : List Val) {u : Val} {r : List Val}
    (hu : ∀ k ∈ [k!"stroke", k!"fill", k!"pts"], u ≠ .str k) :
    SyCurve.fromSexpr (.list (.str k!"curve" :: (xs ++ .list (u :: r) :: ys))) =
    SyCurve.fromSexpr (.list (.str k!"curve" :: (xs ++ ys))) := by
  rw [SyCurve.loopEq , SyCurve.loopEq ]
  exact forM_insert (SyCurve.unknown hu) _ (.str k!"curve" :: xs) ys
example := C10_SyCurve [.list [.str k!"stroke", .int 1]] [] (u := .str k!"zzz") (r := [.int 1]) (by simp)

theorem C37_SyPolyLine (xs : List Val) (o : SyPolyLine) (h : SyPolyLine.fromSexpr (.list (.str k!"polyline" :: xs)) = .ok o) :
    LastWins (tok k!"stroke") Stroke.fromSexpr xs ({} : Stroke) o.stroke ∧
    LastWins (tok k!"fill") Fill.fromSexpr xs ({} : Fill) o.fill := by
  rw [SyPolyLine.loopEq ] at h
  exact ⟨((Track.folds (get := (·.stroke)) (fun o x o' hs => (SyPolyLine.trackAll o x o' hs).2.1) h).drop rfl).last,
    ((Track.folds (get := (·.fill)) (fun o x o' hs => (SyPolyLine.trackAll o x o' hs).2.2) h).drop rfl).last⟩
example := C37_SyPolyLine [.list [.str k!"zzz", .int 1]] _ rfl

theorem C11_SyPolyLine (xs : List Val) (o : SyPolyLine) (h : SyPolyLine.fromSexpr (.list (.str k!"polyline" :: xs)) = .ok o) :
    CollectedAll (tok k!"pts") (fun i => do mapM' Position.fromSexpr (← i.slice 1)) xs o.points := by
  rw [SyPolyLine.loopEq ] at h
  exact ((Track.folds (get := (·.points)) (fun o x o' hs => (SyPolyLine.trackAll o x o' hs).1) h).drop rfl).collectedAll
example := C11_SyPolyLine [.list [.str k!"zzz", .int 1]] _ rfl

theorem C36_SyPolyLine {xs ys : List Val} (hr : Reordered [] xs ys) (o : SyPolyLine) :
    SyPolyLine.fromSexpr (.list (.str k!"polyline" :: xs)) = .ok o ↔ SyPolyLine.fromSexpr (.list (.str k!"polyline" :: ys)) = .ok o := by
  rw [SyPolyLine.loopEq , SyPolyLine.loopEq ]
  exact reordered_iff SyPolyLine.indep SyPolyLine.reordered (hr.cons _) o
example := C36_SyPolyLine (.swap [] [] [.int 1] [.int 2] k!"stroke" k!"fill" (by decide) (by decide))

theorem C10_SyPolyLine (xs ys : List Val) {u : Val} {r : List Val}
    (hu : ∀ k ∈ [k!"stroke", k!"fill", k!"pts"], u ≠ .str k) :
    SyPolyLine.fromSexpr (.list (.str k!"polyline" :: (xs ++ .list (u :: r) :: ys))) =
    SyPolyLine.fromSexpr (.list (.str k!"polyline" :: (xs ++ ys))) := by
  rw [SyPolyLine.loopEq , SyPolyLine.loopEq ]
  exact forM_insert (SyPolyLine.unknown hu) _ (.str k!"polyline" :: xs) ys
example := C10_SyPolyLine [.list [.str k!"stroke", .int 1]] [] (u := .str k!"zzz") (r := [.int 1]) (by simp)

theorem C37_SyRect (xs : List Val) (o : SyRect) (h : SyRect.fromSexpr (.list (.str k!"rectangle" :: xs)) = .ok o) :
    o.priv = xs.any (wordIn [k!"private"]) ∧
    LastWins (tok k!"start") Position.fromSexpr xs ({} : Position) o.start ∧
    LastWins (tok k!"end") Position.fromSexpr xs ({} : Position) o.«end» ∧
    LastWins (tok k!"stroke") Stroke.fromSexpr xs ({} : Stroke) o.stroke ∧
    LastWins (tok k!"fill") Fill.fromSexpr xs ({} : Fill) o.fill := by
  rw [SyRect.loopEq ] at h
  exact ⟨((Track.folds (get := (·.priv)) (fun o x o' hs => (SyRect.trackAll o x o' hs).1) h).drop rfl).flag,
    ((Track.folds (get := (·.start)) (fun o x o' hs => (SyRect.trackAll o x o' hs).2.1) h).drop rfl).last,
    ((Track.folds (get := (·.«end»)) (fun o x o' hs => (SyRect.trackAll o x o' hs).2.2.1) h).drop rfl).last,
    ((Track.folds (get := (·.stroke)) (fun o x o' hs => (SyRect.trackAll o x o' hs).2.2.2.1) h).drop rfl).last,
    ((Track.folds (get := (·.fill)) (fun o x o' hs => (SyRect.trackAll o x o' hs).2.2.2.2) h).drop rfl).last⟩
example := C37_SyRect [.str k!"private"] _ rfl

theorem C36_SyRect {xs ys : List Val} (hr : Reordered [] xs ys) (o : SyRect) :
    SyRect.fromSexpr (.list (.str k!"rectangle" :: xs)) = .ok o ↔ SyRect.fromSexpr (.list (.str k!"rectangle" :: ys)) = .ok o := by
  rw [SyRect.loopEq , SyRect.loopEq ]
  exact reordered_iff SyRect.indep SyRect.reordered (hr.cons _) o
example := C36_SyRect (.swap [] [] [.int 1] [.int 2] k!"start" k!"end" (by decide) (by decide))

theorem C10_SyRect (xs ys : List Val) {u : Val} {r : List Val}
    (hu : ∀ k ∈ [k!"start", k!"end", k!"stroke", k!"fill"], u ≠ .str k) :
    SyRect.fromSexpr (.list (.str k!"rectangle" :: (xs ++ .list (u :: r) :: ys))) =
    SyRect.fromSexpr (.list (.str k!"rectangle" :: (xs ++ ys))) := by
  rw [SyRect.loopEq , SyRect.loopEq ]
  exact forM_insert (SyRect.unknown hu) _ (.str k!"rectangle" :: xs) ys
example := C10_SyRect [.list [.str k!"start", .int 1]] [] (u := .str k!"zzz") (r := [.int 1]) (by simp)

theorem C37_SyText (text : Val) (xs : List Val) (o : SyText) (h : SyText.fromSexpr (.list (.str k!"text" :: text :: xs)) = .ok o) :
    o.text = text ∧
    LastWins (tok k!"at") Position.fromSexpr xs ({} : Position) o.position ∧
    LastWins (tok k!"effects") Effects.fromSexpr xs ({} : Effects) o.effects := by
  rw [SyText.loopEq text] at h
  exact ⟨((Track.folds (get := (·.text)) (fun o x o' hs => (SyText.trackAll o x o' hs).1) h)).const,
    ((Track.folds (get := (·.position)) (fun o x o' hs => (SyText.trackAll o x o' hs).2.1) h)).last,
    ((Track.folds (get := (·.effects)) (fun o x o' hs => (SyText.trackAll o x o' hs).2.2) h)).last⟩
example := C37_SyText (.str k!"x") [.list [.str k!"zzz", .int 1]] _ rfl

theorem C36_SyText (text : Val) {xs ys : List Val} (hr : Reordered [] xs ys) (o : SyText) :
    SyText.fromSexpr (.list (.str k!"text" :: text :: xs)) = .ok o ↔ SyText.fromSexpr (.list (.str k!"text" :: text :: ys)) = .ok o := by
  rw [SyText.loopEq text, SyText.loopEq text]
  exact reordered_iff SyText.indep SyText.reordered hr o
example := C36_SyText (.str k!"x") (.swap [] [] [.int 1] [.int 2] k!"at" k!"effects" (by decide) (by decide))

theorem C10_SyText (text : Val) (xs ys : List Val) {u : Val} {r : List Val}
    (hu : ∀ k ∈ [k!"at", k!"effects"], u ≠ .str k) :
    SyText.fromSexpr (.list (.str k!"text" :: text :: (xs ++ .list (u :: r) :: ys))) =
    SyText.fromSexpr (.list (.str k!"text" :: text :: (xs ++ ys))) := by
  rw [SyText.loopEq text, SyText.loopEq text]
  exact forM_insert (SyText.unknown hu) _ xs ys
example := C10_SyText (.str k!"x") [.list [.str k!"at", .int 1]] [] (u := .str k!"zzz") (r := [.int 1]) (by simp)

theorem C37_SyTextBox {a : Val} (ha : a.is k!"private" = false) (xs : List Val) (o : SyTextBox) (h : SyTextBox.fromSexpr (.list (.str k!"text_box" :: a :: xs)) = .ok o) :
    o.text = a ∧
    o.priv = (false : Bool) ∧
    LastWins (tok k!"at") Position.fromSexpr xs ({} : Position) o.position ∧
    LastWins (tok k!"size") Position.fromSexpr xs ({} : Position) o.size ∧
    LastWins (tok k!"stroke") Stroke.fromSexpr xs ({} : Stroke) o.stroke ∧
    LastWins (tok k!"fill") Fill.fromSexpr xs ({} : Fill) o.fill ∧
    LastWins (tok k!"effects") Effects.fromSexpr xs ({} : Effects) o.effects ∧
    LastWins (tok k!"uuid") (fun i => do return some (← i.idx 1)) xs (none : Option Val) o.uuid := by
  rw [SyTextBox.loopEq ha] at h
  exact ⟨((Track.folds (get := (·.text)) (fun o x o' hs => (SyTextBox.trackAll o x o' hs).1) h)).const,
    ((Track.folds (get := (·.priv)) (fun o x o' hs => (SyTextBox.trackAll o x o' hs).2.1) h)).const,
    ((Track.folds (get := (·.position)) (fun o x o' hs => (SyTextBox.trackAll o x o' hs).2.2.1) h)).last,
    ((Track.folds (get := (·.size)) (fun o x o' hs => (SyTextBox.trackAll o x o' hs).2.2.2.1) h)).last,
    ((Track.folds (get := (·.stroke)) (fun o x o' hs => (SyTextBox.trackAll o x o' hs).2.2.2.2.1) h)).last,
    ((Track.folds (get := (·.fill)) (fun o x o' hs => (SyTextBox.trackAll o x o' hs).2.2.2.2.2.1) h)).last,
    ((Track.folds (get := (·.effects)) (fun o x o' hs => (SyTextBox.trackAll o x o' hs).2.2.2.2.2.2.1) h)).last,
    ((Track.folds (get := (·.uuid)) (fun o x o' hs => (SyTextBox.trackAll o x o' hs).2.2.2.2.2.2.2) h)).last⟩

/-- A repeated token with an unknown one in between. -/
example : (SyTextBox.fromSexpr (.list [.str k!"text_box", .str k!"x", .list [.str k!"uuid", .str k!"a"], .list [.str k!"zzz", .int 1], .list [.str k!"uuid", .str k!"b"]])).map (·.uuid) = .ok (some (.str k!"b")) := rfl

theorem C36_SyTextBox {a : Val} (ha : a.is k!"private" = false) {xs ys : List Val} (hr : Reordered [] xs ys) (o : SyTextBox) :
    SyTextBox.fromSexpr (.list (.str k!"text_box" :: a :: xs)) = .ok o ↔ SyTextBox.fromSexpr (.list (.str k!"text_box" :: a :: ys)) = .ok o := by
  rw [SyTextBox.loopEq ha, SyTextBox.loopEq ha]
  exact reordered_iff SyTextBox.indep SyTextBox.reordered hr o
example := C36_SyTextBox (a := .str k!"x") rfl (.swap [] [] [.int 1] [.int 2] k!"at" k!"size" (by decide) (by decide))

theorem C10_SyTextBox {a : Val} (ha : a.is k!"private" = false) (xs ys : List Val) {u : Val} {r : List Val}
    (hu : ∀ k ∈ [k!"at", k!"size", k!"effects", k!"stroke", k!"fill", k!"uuid"], u ≠ .str k) :
    SyTextBox.fromSexpr (.list (.str k!"text_box" :: a :: (xs ++ .list (u :: r) :: ys))) =
    SyTextBox.fromSexpr (.list (.str k!"text_box" :: a :: (xs ++ ys))) := by
  rw [SyTextBox.loopEq ha, SyTextBox.loopEq ha]
  exact forM_insert (SyTextBox.unknown hu) _ xs ys
example := C10_SyTextBox (a := .str k!"x") rfl [.list [.str k!"at", .int 1]] [] (u := .str k!"zzz") (r := [.int 1]) (by simp)

end Kiutils
