import Verif.Swap
import Verif.Tracks.Common
/-!
# What `from_sexpr` makes of the items of a list: Common

For each class: `C37` (every field is read from the last item with its token; flags are set when their word or token occurs),
`C11` (lists contain all items with their tokens, once each, in order), `C36` (unrelated items may change places), `C10` (items
with unknown tokens are ignored). The vocabulary is defined in `Verif/Tokens.lean`.
-/
namespace Kiutils

theorem C37_Stroke (a : Val) (xs : List Val) (o : Stroke) (h : Stroke.fromSexpr (.list (.str k!"stroke" :: a :: xs)) = .ok o) :
    LastWins (tok k!"width") (·.idx 1) (a :: xs) (fl k!"0" k!"0" : Val) o.width ∧
    LastWins (tok k!"type") (fun i => do return some (← i.idx 1)) (a :: xs) (none : Option Val) o.type ∧
    LastWins (tok k!"color") (fun i => do return some (← ColorRGBA.fromSexpr i)) (a :: xs) (none : Option ColorRGBA) o.color := by
  rw [Stroke.loopEq a] at h
  exact ⟨((Track.folds (get := (·.width)) (fun o x o' hs => (Stroke.trackAll o x o' hs).1) h).drop rfl).last,
    ((Track.folds (get := (·.type)) (fun o x o' hs => (Stroke.trackAll o x o' hs).2.1) h).drop rfl).last,
    ((Track.folds (get := (·.color)) (fun o x o' hs => (Stroke.trackAll o x o' hs).2.2) h).drop rfl).last⟩

/-- A repeated token with an unknown one in between. -/
example : (Stroke.fromSexpr (.list [.str k!"stroke", .str k!"x", .list [.str k!"width", .str k!"a"], .list [.str k!"zzz", .int 1], .list [.str k!"width", .str k!"b"]])).map (·.width) = .ok (.str k!"b") := rfl

theorem C36_Stroke (a : Val) {xs ys : List Val} (hr : Reordered [] xs ys) (o : Stroke) :
    Stroke.fromSexpr (.list (.str k!"stroke" :: a :: xs)) = .ok o ↔ Stroke.fromSexpr (.list (.str k!"stroke" :: a :: ys)) = .ok o := by
  rw [Stroke.loopEq a, Stroke.loopEq a]
  exact reordered_iff Stroke.indep Stroke.reordered ((hr.cons _).cons _) o
example := C36_Stroke (.str k!"x") (.swap [] [] [.int 1] [.int 2] k!"width" k!"type" (by decide) (by decide))

theorem C10_Stroke (a : Val) (xs ys : List Val) {u : Val} {r : List Val}
    (hu : ∀ k ∈ [k!"width", k!"type", k!"color"], u ≠ .str k) :
    Stroke.fromSexpr (.list (.str k!"stroke" :: a :: (xs ++ .list (u :: r) :: ys))) =
    Stroke.fromSexpr (.list (.str k!"stroke" :: a :: (xs ++ ys))) := by
  rw [Stroke.loopEq a, Stroke.loopEq a]
  exact forM_insert (Stroke.unknown hu) _ (.str k!"stroke" :: a :: xs) ys
example := C10_Stroke (.str k!"x") [.list [.str k!"width", .int 1]] [] (u := .str k!"zzz") (r := [.int 1]) (by simp)

theorem C37_Font (xs : List Val) (o : Font) (h : Font.fromSexpr (.list (.str k!"font" :: xs)) = .ok o) :
    LastWins (tok k!"face") (fun i => do return some (← i.idx 1)) xs (none : Option Val) o.face ∧
    LastWins (tok k!"size") (·.idx 1) xs (fl k!"1" k!"0" : Val) o.height ∧
    LastWins (tok k!"size") (·.idx 2) xs (fl k!"1" k!"0" : Val) o.width ∧
    LastWins (tok k!"thickness") (fun i => do return some (← i.idx 1)) xs (none : Option Val) o.thickness ∧
    o.bold = xs.any (wordIn [k!"bold"]) ∧
    o.italic = xs.any (wordIn [k!"italic"]) ∧
    LastWins (tok k!"line_spacing") (fun i => do return some (← i.idx 1)) xs (none : Option Val) o.lineSpacing ∧
    LastWins (tok k!"color") (fun i => do return some (← ColorRGBA.fromSexpr i)) xs (none : Option ColorRGBA) o.color := by
  rw [Font.loopEq ] at h
  exact ⟨((Track.folds (get := (·.face)) (fun o x o' hs => (Font.trackAll o x o' hs).1) h).drop rfl).last,
    ((Track.folds (get := (·.height)) (fun o x o' hs => (Font.trackAll o x o' hs).2.1) h).drop rfl).last,
    ((Track.folds (get := (·.width)) (fun o x o' hs => (Font.trackAll o x o' hs).2.2.1) h).drop rfl).last,
    ((Track.folds (get := (·.thickness)) (fun o x o' hs => (Font.trackAll o x o' hs).2.2.2.1) h).drop rfl).last,
    ((Track.folds (get := (·.bold)) (fun o x o' hs => (Font.trackAll o x o' hs).2.2.2.2.1) h).drop rfl).flag,
    ((Track.folds (get := (·.italic)) (fun o x o' hs => (Font.trackAll o x o' hs).2.2.2.2.2.1) h).drop rfl).flag,
    ((Track.folds (get := (·.lineSpacing)) (fun o x o' hs => (Font.trackAll o x o' hs).2.2.2.2.2.2.1) h).drop rfl).last,
    ((Track.folds (get := (·.color)) (fun o x o' hs => (Font.trackAll o x o' hs).2.2.2.2.2.2.2) h).drop rfl).last⟩

/-- A repeated token with an unknown one in between. -/
example : (Font.fromSexpr (.list [.str k!"font", .list [.str k!"face", .str k!"a"], .list [.str k!"zzz", .int 1], .list [.str k!"face", .str k!"b"]])).map (·.face) = .ok (some (.str k!"b")) := rfl

theorem C36_Font {xs ys : List Val} (hr : Reordered [] xs ys) (o : Font) :
    Font.fromSexpr (.list (.str k!"font" :: xs)) = .ok o ↔ Font.fromSexpr (.list (.str k!"font" :: ys)) = .ok o := by
  rw [Font.loopEq , Font.loopEq ]
  exact reordered_iff Font.indep Font.reordered (hr.cons _) o
example := C36_Font (.swap [] [] [.int 1] [.int 2] k!"face" k!"size" (by decide) (by decide))

theorem C10_Font (xs ys : List Val) {u : Val} {r : List Val}
    (hu : ∀ k ∈ [k!"face", k!"size", k!"thickness", k!"line_spacing", k!"color"], u ≠ .str k) :
    Font.fromSexpr (.list (.str k!"font" :: (xs ++ .list (u :: r) :: ys))) =
    Font.fromSexpr (.list (.str k!"font" :: (xs ++ ys))) := by
  rw [Font.loopEq , Font.loopEq ]
  exact forM_insert (Font.unknown hu) _ (.str k!"font" :: xs) ys
example := C10_Font [.list [.str k!"face", .int 1]] [] (u := .str k!"zzz") (r := [.int 1]) (by simp)

theorem C37_Justify (xs : List Val) (o : Justify) (h : Justify.fromSexpr (.list (.str k!"justify" :: xs)) = .ok o) :
    LastWins (wordIn [k!"left", k!"right", k!"center"]) (fun i => do return some i) xs (none : Option Val) o.horizontally ∧
    LastWins (wordIn [k!"top", k!"bottom"]) (fun i => do return some i) xs (none : Option Val) o.vertically ∧
    o.mirror = xs.any (wordIn [k!"mirror"]) := by
  rw [Justify.loopEq ] at h
  exact ⟨((Track.folds (get := (·.horizontally)) (fun o x o' hs => (Justify.trackAll o x o' hs).1) h).drop rfl).last,
    ((Track.folds (get := (·.vertically)) (fun o x o' hs => (Justify.trackAll o x o' hs).2.1) h).drop rfl).last,
    ((Track.folds (get := (·.mirror)) (fun o x o' hs => (Justify.trackAll o x o' hs).2.2) h).drop rfl).flag⟩
example := C37_Justify [.str k!"mirror"] _ rfl

theorem C36_Justify {xs ys : List Val} (hr : Reordered [] xs ys) (o : Justify) :
    Justify.fromSexpr (.list (.str k!"justify" :: xs)) = .ok o ↔ Justify.fromSexpr (.list (.str k!"justify" :: ys)) = .ok o := by
  rw [Justify.loopEq , Justify.loopEq ]
  exact reordered_iff Justify.indep Justify.reordered (hr.cons _) o
example := C36_Justify (.swap [] [] [.int 1] [.int 2] k!"zzz" k!"zzy" (by decide) (by decide))

theorem C37_Effects (xs : List Val) (o : Effects) (h : Effects.fromSexpr (.list (.str k!"effects" :: xs)) = .ok o) :
    LastWins (tok k!"font") Font.fromSexpr xs ({} : Font) o.font ∧
    LastWins (tok k!"justify") Justify.fromSexpr xs ({} : Justify) o.justify ∧
    o.hide = xs.any (wordIn [k!"hide"]) ∧
    LastWins (tok k!"href") (fun i => do return some (← i.idx 1)) xs (none : Option Val) o.href := by
  rw [Effects.loopEq ] at h
  exact ⟨((Track.folds (get := (·.font)) (fun o x o' hs => (Effects.trackAll o x o' hs).1) h).drop rfl).last,
    ((Track.folds (get := (·.justify)) (fun o x o' hs => (Effects.trackAll o x o' hs).2.1) h).drop rfl).last,
    ((Track.folds (get := (·.hide)) (fun o x o' hs => (Effects.trackAll o x o' hs).2.2.1) h).drop rfl).flag,
    ((Track.folds (get := (·.href)) (fun o x o' hs => (Effects.trackAll o x o' hs).2.2.2) h).drop rfl).last⟩

/-- A repeated token with an unknown one in between. -/
example : (Effects.fromSexpr (.list [.str k!"effects", .list [.str k!"href", .str k!"a"], .list [.str k!"zzz", .int 1], .list [.str k!"href", .str k!"b"]])).map (·.href) = .ok (some (.str k!"b")) := rfl

theorem C36_Effects {xs ys : List Val} (hr : Reordered [] xs ys) (o : Effects) :
    Effects.fromSexpr (.list (.str k!"effects" :: xs)) = .ok o ↔ Effects.fromSexpr (.list (.str k!"effects" :: ys)) = .ok o := by
  rw [Effects.loopEq , Effects.loopEq ]
  exact reordered_iff Effects.indep Effects.reordered (hr.cons _) o
example := C36_Effects (.swap [] [] [.int 1] [.int 2] k!"font" k!"justify" (by decide) (by decide))

theorem C10_Effects (xs ys : List Val) {u : Val} {r : List Val}
    (hu : ∀ k ∈ [k!"font", k!"justify", k!"href"], u ≠ .str k) :
    Effects.fromSexpr (.list (.str k!"effects" :: (xs ++ .list (u :: r) :: ys))) =
    Effects.fromSexpr (.list (.str k!"effects" :: (xs ++ ys))) := by
  rw [Effects.loopEq , Effects.loopEq ]
  exact forM_insert (Effects.unknown hu) _ (.str k!"effects" :: xs) ys
example := C10_Effects [.list [.str k!"font", .int 1]] [] (u := .str k!"zzz") (r := [.int 1]) (by simp)

theorem C37_Group (name : Val) (xs : List Val) (o : Group) (h : Group.fromSexpr (.list (.str k!"group" :: name :: xs)) = .ok o) :
    o.name = name ∧
    o.locked = (name :: xs).any (wordIn [k!"locked"]) ∧
    LastWins (tok k!"id") (·.idx 1) (name :: xs) (st k!"" : Val) o.id := by
  rw [Group.loopEq name] at h
  exact ⟨((Track.folds (get := (·.name)) (fun o x o' hs => (Group.trackAll o x o' hs).1) h)).const,
    ((Track.folds (get := (·.locked)) (fun o x o' hs => (Group.trackAll o x o' hs).2.1) h).drop rfl).flag,
    ((Track.folds (get := (·.id)) (fun o x o' hs => (Group.trackAll o x o' hs).2.2.1) h).drop rfl).last⟩
example := C37_Group (.str k!"x") [.list [.str k!"id", .str k!"a"], .str k!"locked"] _ rfl

theorem C11_Group (name : Val) (xs : List Val) (o : Group) (h : Group.fromSexpr (.list (.str k!"group" :: name :: xs)) = .ok o) :
    CollectedAll (tok k!"members") (·.slice 1) (name :: xs) o.members := by
  rw [Group.loopEq name] at h
  exact ((Track.folds (get := (·.members)) (fun o x o' hs => (Group.trackAll o x o' hs).2.2.2) h).drop rfl).collectedAll

/-- A repeated token with an unknown one in between. -/
example : (Group.fromSexpr (.list [.str k!"group", .str k!"x", .list [.str k!"id", .str k!"a"], .list [.str k!"zzz", .int 1], .list [.str k!"id", .str k!"b"]])).map (·.id) = .ok (.str k!"b") := rfl

theorem C36_Group (name : Val) {xs ys : List Val} (hr : Reordered [] xs ys) (o : Group) :
    Group.fromSexpr (.list (.str k!"group" :: name :: xs)) = .ok o ↔ Group.fromSexpr (.list (.str k!"group" :: name :: ys)) = .ok o := by
  rw [Group.loopEq name, Group.loopEq name]
  exact reordered_iff Group.indep Group.reordered ((hr.cons _).cons _) o
example := C36_Group (.str k!"x") (.swap [] [] [.int 1] [.int 2] k!"id" k!"members" (by decide) (by decide))

theorem C10_Group (name : Val) (xs ys : List Val) {u : Val} {r : List Val}
    (hu : ∀ k ∈ [k!"id", k!"members"], u ≠ .str k) :
    Group.fromSexpr (.list (.str k!"group" :: name :: (xs ++ .list (u :: r) :: ys))) =
    Group.fromSexpr (.list (.str k!"group" :: name :: (xs ++ ys))) := by
  rw [Group.loopEq name, Group.loopEq name]
  exact forM_insert (Group.unknown hu) _ (.str k!"group" :: name :: xs) ys
example := C10_Group (.str k!"x") [.list [.str k!"id", .int 1]] [] (u := .str k!"zzz") (r := [.int 1]) (by simp)

theorem C37_PageSettings {size : Val} (ha : size.is k!"User" = false) (xs : List Val) (o : PageSettings) (h : PageSettings.fromSexpr (.list (.str k!"paper" :: size :: xs)) = .ok o) :
    o.paperSize = size ∧
    o.width = (none : Option Val) ∧
    o.height = (none : Option Val) ∧
    o.portrait = (size :: xs).any (wordIn [k!"portrait"]) := by
  rw [PageSettings.loopEq ha] at h
  exact ⟨((Track.folds (get := (·.paperSize)) (fun o x o' hs => (PageSettings.trackAll o x o' hs).1) h)).const,
    ((Track.folds (get := (·.width)) (fun o x o' hs => (PageSettings.trackAll o x o' hs).2.1) h)).const,
    ((Track.folds (get := (·.height)) (fun o x o' hs => (PageSettings.trackAll o x o' hs).2.2.1) h)).const,
    ((Track.folds (get := (·.portrait)) (fun o x o' hs => (PageSettings.trackAll o x o' hs).2.2.2) h).drop rfl).flag⟩
example := C37_PageSettings (size := .str k!"x") rfl [.str k!"portrait"] _ rfl

theorem C36_PageSettings {size : Val} (ha : size.is k!"User" = false) {xs ys : List Val} (hr : Reordered [] xs ys) (o : PageSettings) :
    PageSettings.fromSexpr (.list (.str k!"paper" :: size :: xs)) = .ok o ↔ PageSettings.fromSexpr (.list (.str k!"paper" :: size :: ys)) = .ok o := by
  rw [PageSettings.loopEq ha, PageSettings.loopEq ha]
  exact reordered_iff PageSettings.indep PageSettings.reordered ((hr.cons _).cons _) o
example := C36_PageSettings (size := .str k!"x") rfl (.swap [] [] [.int 1] [.int 2] k!"zzz" k!"zzy" (by decide) (by decide))

theorem C37_TitleBlock (xs : List Val) (o : TitleBlock) (h : TitleBlock.fromSexpr (.list (.str k!"title_block" :: xs)) = .ok o) :
    LastWins (tok k!"title") (fun i => do return some (← i.idx 1)) xs (none : Option Val) o.title ∧
    LastWins (tok k!"date") (fun i => do return some (← i.idx 1)) xs (none : Option Val) o.date ∧
    LastWins (tok k!"rev") (fun i => do return some (← i.idx 1)) xs (none : Option Val) o.revision ∧
    LastWins (tok k!"company") (fun i => do return some (← i.idx 1)) xs (none : Option Val) o.company ∧
    FoldsTo (tok k!"comment") (fun acc i => do let n ← i.idx 1; let c ← i.idx 2; Dict.update acc n c) xs ([] : Dict Val) o.comments := by
  rw [TitleBlock.loopEq ] at h
  exact ⟨((Track.folds (get := (·.title)) (fun o x o' hs => (TitleBlock.trackAll o x o' hs).1) h).drop rfl).last,
    ((Track.folds (get := (·.date)) (fun o x o' hs => (TitleBlock.trackAll o x o' hs).2.1) h).drop rfl).last,
    ((Track.folds (get := (·.revision)) (fun o x o' hs => (TitleBlock.trackAll o x o' hs).2.2.1) h).drop rfl).last,
    ((Track.folds (get := (·.company)) (fun o x o' hs => (TitleBlock.trackAll o x o' hs).2.2.2.1) h).drop rfl).last,
    ((Track.folds (get := (·.comments)) (fun o x o' hs => (TitleBlock.trackAll o x o' hs).2.2.2.2) h).drop rfl)⟩

/-- A repeated token with an unknown one in between. -/
example : (TitleBlock.fromSexpr (.list [.str k!"title_block", .list [.str k!"title", .str k!"a"], .list [.str k!"zzz", .int 1], .list [.str k!"title", .str k!"b"]])).map (·.title) = .ok (some (.str k!"b")) := rfl

theorem C36_TitleBlock {xs ys : List Val} (hr : Reordered [] xs ys) (o : TitleBlock) :
    TitleBlock.fromSexpr (.list (.str k!"title_block" :: xs)) = .ok o ↔ TitleBlock.fromSexpr (.list (.str k!"title_block" :: ys)) = .ok o := by
  rw [TitleBlock.loopEq , TitleBlock.loopEq ]
  exact reordered_iff TitleBlock.indep TitleBlock.reordered (hr.cons _) o
example := C36_TitleBlock (.swap [] [] [.int 1] [.int 2] k!"title" k!"date" (by decide) (by decide))

theorem C10_TitleBlock (xs ys : List Val) {u : Val} {r : List Val}
    (hu : ∀ k ∈ [k!"title", k!"date", k!"rev", k!"company", k!"comment"], u ≠ .str k) :
    TitleBlock.fromSexpr (.list (.str k!"title_block" :: (xs ++ .list (u :: r) :: ys))) =
    TitleBlock.fromSexpr (.list (.str k!"title_block" :: (xs ++ ys))) := by
  rw [TitleBlock.loopEq , TitleBlock.loopEq ]
  exact forM_insert (TitleBlock.unknown hu) _ (.str k!"title_block" :: xs) ys
example := C10_TitleBlock [.list [.str k!"title", .int 1]] [] (u := .str k!"zzz") (r := [.int 1]) (by simp)

theorem C37_Property (key value : Val) (xs : List Val) (o : Property) (h : Property.fromSexpr (.list (.str k!"property" :: key :: value :: xs)) = .ok o) :
    o.key = key ∧
    o.value = value ∧
    LastWins (tok k!"id") (fun i => do return some (← i.idx 1)) xs (none : Option Val) o.id ∧
    LastWins (tok k!"at") Position.fromSexpr xs ({ angle := some (.int 0) } : Position) o.position ∧
    LastWins (tok k!"effects") (fun i => do return some (← Effects.fromSexpr i)) xs (none : Option Effects) o.effects ∧
    o.showName = xs.any (tok k!"show_name") := by
  rw [Property.loopEq key value] at h
  exact ⟨((Track.folds (get := (·.key)) (fun o x o' hs => (Property.trackAll o x o' hs).1) h)).const,
    ((Track.folds (get := (·.value)) (fun o x o' hs => (Property.trackAll o x o' hs).2.1) h)).const,
    ((Track.folds (get := (·.id)) (fun o x o' hs => (Property.trackAll o x o' hs).2.2.1) h)).last,
    ((Track.folds (get := (·.position)) (fun o x o' hs => (Property.trackAll o x o' hs).2.2.2.1) h)).last,
    ((Track.folds (get := (·.effects)) (fun o x o' hs => (Property.trackAll o x o' hs).2.2.2.2.1) h)).last,
    ((Track.folds (get := (·.showName)) (fun o x o' hs => (Property.trackAll o x o' hs).2.2.2.2.2) h)).flag⟩

/-- A repeated token with an unknown one in between. -/
example : (Property.fromSexpr (.list [.str k!"property", .str k!"x", .str k!"x", .list [.str k!"id", .str k!"a"], .list [.str k!"zzz", .int 1], .list [.str k!"id", .str k!"b"]])).map (·.id) = .ok (some (.str k!"b")) := rfl

theorem C36_Property (key value : Val) {xs ys : List Val} (hr : Reordered [] xs ys) (o : Property) :
    Property.fromSexpr (.list (.str k!"property" :: key :: value :: xs)) = .ok o ↔ Property.fromSexpr (.list (.str k!"property" :: key :: value :: ys)) = .ok o := by
  rw [Property.loopEq key value, Property.loopEq key value]
  exact reordered_iff Property.indep Property.reordered hr o
example := C36_Property (.str k!"x") (.str k!"x") (.swap [] [] [.int 1] [.int 2] k!"id" k!"at" (by decide) (by decide))

theorem C10_Property (key value : Val) (xs ys : List Val) {u : Val} {r : List Val}
    (hu : ∀ k ∈ [k!"id", k!"at", k!"effects", k!"show_name"], u ≠ .str k) :
    Property.fromSexpr (.list (.str k!"property" :: key :: value :: (xs ++ .list (u :: r) :: ys))) =
    Property.fromSexpr (.list (.str k!"property" :: key :: value :: (xs ++ ys))) := by
  rw [Property.loopEq key value, Property.loopEq key value]
  exact forM_insert (Property.unknown hu) _ xs ys
example := C10_Property (.str k!"x") (.str k!"x") [.list [.str k!"id", .int 1]] [] (u := .str k!"zzz") (r := [.int 1]) (by simp)

theorem C11_RenderCachePolygon (xs : List Val) (o : RenderCachePolygon) (h : RenderCachePolygon.fromSexpr (.list (.str k!"polygon" :: xs)) = .ok o) :
    CollectedAll (tok k!"pts") (fun i => do mapM' Position.fromSexpr (← i.slice 1)) xs o.pts := by
  rw [RenderCachePolygon.loopEq ] at h
  exact ((Track.folds (get := (·.pts)) (fun o x o' hs => (RenderCachePolygon.trackAll o x o' hs)) h).drop rfl).collectedAll
example := C11_RenderCachePolygon [.list [.str k!"zzz", .int 1]] _ rfl

theorem C36_RenderCachePolygon {xs ys : List Val} (hr : Reordered [] xs ys) (o : RenderCachePolygon) :
    RenderCachePolygon.fromSexpr (.list (.str k!"polygon" :: xs)) = .ok o ↔ RenderCachePolygon.fromSexpr (.list (.str k!"polygon" :: ys)) = .ok o := by
  rw [RenderCachePolygon.loopEq , RenderCachePolygon.loopEq ]
  exact reordered_iff RenderCachePolygon.indep RenderCachePolygon.reordered (hr.cons _) o
example := C36_RenderCachePolygon (.swap [] [] [.int 1] [.int 2] k!"pts" k!"zzz" (by decide) (by decide))

theorem C10_RenderCachePolygon (xs ys : List Val) {u : Val} {r : List Val}
    (hu : ∀ k ∈ [k!"pts"], u ≠ .str k) :
    RenderCachePolygon.fromSexpr (.list (.str k!"polygon" :: (xs ++ .list (u :: r) :: ys))) =
    RenderCachePolygon.fromSexpr (.list (.str k!"polygon" :: (xs ++ ys))) := by
  rw [RenderCachePolygon.loopEq , RenderCachePolygon.loopEq ]
  exact forM_insert (RenderCachePolygon.unknown hu) _ (.str k!"polygon" :: xs) ys
example := C10_RenderCachePolygon [.list [.str k!"pts", .int 1]] [] (u := .str k!"zzz") (r := [.int 1]) (by simp)

theorem C37_RenderCache (text id : Val) (xs : List Val) (o : RenderCache) (h : RenderCache.fromSexpr (.list (.str k!"render_cache" :: text :: id :: xs)) = .ok o) :
    o.text = text ∧
    o.id = id := by
  rw [RenderCache.loopEq text id] at h
  exact ⟨((Track.folds (get := (·.text)) (fun o x o' hs => (RenderCache.trackAll o x o' hs).1) h)).const,
    ((Track.folds (get := (·.id)) (fun o x o' hs => (RenderCache.trackAll o x o' hs).2.1) h)).const⟩
example := C37_RenderCache (.str k!"x") (.str k!"x") [.list [.str k!"zzz", .int 1]] _ rfl

theorem C11_RenderCache (text id : Val) (xs : List Val) (o : RenderCache) (h : RenderCache.fromSexpr (.list (.str k!"render_cache" :: text :: id :: xs)) = .ok o) :
    Collected (tok k!"polygon") RenderCachePolygon.fromSexpr (text :: id :: xs) o.polygons := by
  rw [RenderCache.loopEq text id] at h
  exact ((Track.folds (get := (·.polygons)) (fun o x o' hs => (RenderCache.trackAll o x o' hs).2.2) h).drop rfl).collected
example := C11_RenderCache (.str k!"x") (.str k!"x") [.list [.str k!"zzz", .int 1]] _ rfl

theorem C36_RenderCache (text id : Val) {xs ys : List Val} (hr : Reordered [] xs ys) (o : RenderCache) :
    RenderCache.fromSexpr (.list (.str k!"render_cache" :: text :: id :: xs)) = .ok o ↔ RenderCache.fromSexpr (.list (.str k!"render_cache" :: text :: id :: ys)) = .ok o := by
  rw [RenderCache.loopEq text id, RenderCache.loopEq text id]
  exact reordered_iff RenderCache.indep RenderCache.reordered (((hr.cons _).cons _).cons _) o
example := C36_RenderCache (.str k!"x") (.str k!"x") (.swap [] [] [.int 1] [.int 2] k!"polygon" k!"zzz" (by decide) (by decide))

theorem C10_RenderCache (text id : Val) (xs ys : List Val) {u : Val} {r : List Val}
    (hu : ∀ k ∈ [k!"polygon"], u ≠ .str k) :
    RenderCache.fromSexpr (.list (.str k!"render_cache" :: text :: id :: (xs ++ .list (u :: r) :: ys))) =
    RenderCache.fromSexpr (.list (.str k!"render_cache" :: text :: id :: (xs ++ ys))) := by
  rw [RenderCache.loopEq text id, RenderCache.loopEq text id]
  exact forM_insert (RenderCache.unknown hu) _ (.str k!"render_cache" :: text :: id :: xs) ys
example := C10_RenderCache (.str k!"x") (.str k!"x") [.list [.str k!"polygon", .int 1]] [] (u := .str k!"zzz") (r := [.int 1]) (by simp)

theorem C37_Fill (xs : List Val) (o : Fill) (h : Fill.fromSexpr (.list (.str k!"fill" :: xs)) = .ok o) :
    LastWins (tok k!"type") (·.idx 1) xs (st k!"none" : Val) o.type ∧
    LastWins (tok k!"color") (fun i => do return some (← ColorRGBA.fromSexpr i)) xs (none : Option ColorRGBA) o.color := by
  rw [Fill.loopEq ] at h
  exact ⟨((Track.folds (get := (·.type)) (fun o x o' hs => (Fill.trackAll o x o' hs).1) h).drop rfl).last,
    ((Track.folds (get := (·.color)) (fun o x o' hs => (Fill.trackAll o x o' hs).2) h).drop rfl).last⟩

/-- A repeated token with an unknown one in between. -/
example : (Fill.fromSexpr (.list [.str k!"fill", .list [.str k!"type", .str k!"a"], .list [.str k!"zzz", .int 1], .list [.str k!"type", .str k!"b"]])).map (·.type) = .ok (.str k!"b") := rfl

theorem C36_Fill {xs ys : List Val} (hr : Reordered [] xs ys) (o : Fill) :
    Fill.fromSexpr (.list (.str k!"fill" :: xs)) = .ok o ↔ Fill.fromSexpr (.list (.str k!"fill" :: ys)) = .ok o := by
  rw [Fill.loopEq , Fill.loopEq ]
  exact reordered_iff Fill.indep Fill.reordered (hr.cons _) o
example := C36_Fill (.swap [] [] [.int 1] [.int 2] k!"type" k!"color" (by decide) (by decide))

theorem C10_Fill (xs ys : List Val) {u : Val} {r : List Val}
    (hu : ∀ k ∈ [k!"type", k!"color"], u ≠ .str k) :
    Fill.fromSexpr (.list (.str k!"fill" :: (xs ++ .list (u :: r) :: ys))) =
    Fill.fromSexpr (.list (.str k!"fill" :: (xs ++ ys))) := by
  rw [Fill.loopEq , Fill.loopEq ]
  exact forM_insert (Fill.unknown hu) _ (.str k!"fill" :: xs) ys
example := C10_Fill [.list [.str k!"type", .int 1]] [] (u := .str k!"zzz") (r := [.int 1]) (by simp)

theorem C37_Image (xs : List Val) (o : Image) (h : Image.fromSexpr (.list (.str k!"image" :: xs)) = .ok o) :
    LastWins (tok k!"at") Position.fromSexpr xs ({} : Position) o.position ∧
    LastWins (tok k!"scale") (fun i => do return some (← i.idx 1)) xs (none : Option Val) o.scale ∧
    LastWins (tok k!"uuid") (fun i => do return some (← i.idx 1)) xs (none : Option Val) o.uuid ∧
    LastWins (tok k!"layer") (fun i => do return some (← i.idx 1)) xs (none : Option Val) o.layer := by
  rw [Image.loopEq ] at h
  exact ⟨((Track.folds (get := (·.position)) (fun o x o' hs => (Image.trackAll o x o' hs).1) h).drop rfl).last,
    ((Track.folds (get := (·.scale)) (fun o x o' hs => (Image.trackAll o x o' hs).2.1) h).drop rfl).last,
    ((Track.folds (get := (·.uuid)) (fun o x o' hs => (Image.trackAll o x o' hs).2.2.2.1) h).drop rfl).last,
    ((Track.folds (get := (·.layer)) (fun o x o' hs => (Image.trackAll o x o' hs).2.2.2.2) h).drop rfl).last⟩
example := C37_Image [.list [.str k!"scale", .str k!"a"]] _ rfl

theorem C11_Image (xs : List Val) (o : Image) (h : Image.fromSexpr (.list (.str k!"image" :: xs)) = .ok o) :
    CollectedAll (tok k!"data") (·.slice 1) xs o.data := by
  rw [Image.loopEq ] at h
  exact ((Track.folds (get := (·.data)) (fun o x o' hs => (Image.trackAll o x o' hs).2.2.1) h).drop rfl).collectedAll

/-- A repeated token with an unknown one in between. -/
example : (Image.fromSexpr (.list [.str k!"image", .list [.str k!"scale", .str k!"a"], .list [.str k!"zzz", .int 1], .list [.str k!"scale", .str k!"b"]])).map (·.scale) = .ok (some (.str k!"b")) := rfl

theorem C36_Image {xs ys : List Val} (hr : Reordered [] xs ys) (o : Image) :
    Image.fromSexpr (.list (.str k!"image" :: xs)) = .ok o ↔ Image.fromSexpr (.list (.str k!"image" :: ys)) = .ok o := by
  rw [Image.loopEq , Image.loopEq ]
  exact reordered_iff Image.indep Image.reordered (hr.cons _) o
example := C36_Image (.swap [] [] [.int 1] [.int 2] k!"at" k!"scale" (by decide) (by decide))

theorem C10_Image (xs ys : List Val) {u : Val} {r : List Val}
    (hu : ∀ k ∈ [k!"at", k!"scale", k!"uuid", k!"layer", k!"data"], u ≠ .str k) :
    Image.fromSexpr (.list (.str k!"image" :: (xs ++ .list (u :: r) :: ys))) =
    Image.fromSexpr (.list (.str k!"image" :: (xs ++ ys))) := by
  rw [Image.loopEq , Image.loopEq ]
  exact forM_insert (Image.unknown hu) _ (.str k!"image" :: xs) ys
example := C10_Image [.list [.str k!"at", .int 1]] [] (u := .str k!"zzz") (r := [.int 1]) (by simp)

end Kiutils
