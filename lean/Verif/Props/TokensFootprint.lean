import Verif.Swap
import Verif.Tracks.Footprint
/-!
# What `from_sexpr` makes of the items of a list: Footprint

For each class: `C37` (every field is read from the last item with its token; flags are set when their word or token occurs),
`C11` (lists contain all items with their tokens, once each, in order), `C36` (unrelated items may change places), `C10` (items
with unknown tokens are ignored). The vocabulary is defined in `Verif/Tokens.lean`.
-/
namespace Kiutils

theorem C37_Attributes (t : Val) (xs : List Val) (o : Attributes) (h : Attributes.fromSexpr (.list (.str k!"attr" :: t :: xs)) = .ok o) :
    o.type = (if t.is k!"through_hole" || t.is k!"smd" then some t else none) ∧
    o.boardOnly = (t :: xs).any (wordIn [k!"board_only"]) ∧
    o.excludeFromPosFiles = (t :: xs).any (wordIn [k!"exclude_from_pos_files"]) ∧
    o.excludeFromBom = (t :: xs).any (wordIn [k!"exclude_from_bom"]) ∧
    o.allowMissingCourtyard = (t :: xs).any (wordIn [k!"allow_missing_courtyard"]) := by
  rw [Attributes.loopEq t] at h
  exact ⟨((Track.folds (get := (·.type)) (fun o x o' hs => (Attributes.trackAll o x o' hs).1) h)).const,
    ((Track.folds (get := (·.boardOnly)) (fun o x o' hs => (Attributes.trackAll o x o' hs).2.1) h).drop rfl).flag,
    ((Track.folds (get := (·.excludeFromPosFiles)) (fun o x o' hs => (Attributes.trackAll o x o' hs).2.2.1) h).drop rfl).flag,
    ((Track.folds (get := (·.excludeFromBom)) (fun o x o' hs => (Attributes.trackAll o x o' hs).2.2.2.1) h).drop rfl).flag,
    ((Track.folds (get := (·.allowMissingCourtyard)) (fun o x o' hs => (Attributes.trackAll o x o' hs).2.2.2.2) h).drop rfl).flag⟩
example := C37_Attributes (.str k!"x") [.str k!"board_only"] _ rfl

theorem C36_Attributes (t : Val) {xs ys : List Val} (hr : Reordered [] xs ys) (o : Attributes) :
    Attributes.fromSexpr (.list (.str k!"attr" :: t :: xs)) = .ok o ↔ Attributes.fromSexpr (.list (.str k!"attr" :: t :: ys)) = .ok o := by
  rw [Attributes.loopEq t, Attributes.loopEq t]
  exact reordered_iff Attributes.indep Attributes.reordered ((hr.cons _).cons _) o
example := C36_Attributes (.str k!"x") (.swap [] [] [.int 1] [.int 2] k!"zzz" k!"zzy" (by decide) (by decide))

theorem C37_Model (path x y z : Val) (xs : List Val) (o : Model) (h : Model.fromSexpr (.list (.str k!"model" :: path :: x :: y :: z :: xs)) = .ok o) :
    o.path = path ∧
    LastWins (tok k!"offset") (fun i => do return ← Coordinate.fromSexpr (← i.idx 1)) (x :: y :: z :: xs) ({ X := fl k!"0" k!"0", Y := fl k!"0" k!"0", Z := fl k!"0" k!"0" } : Coordinate) o.pos ∧
    LastWins (tok k!"scale") (fun i => do return ← Coordinate.fromSexpr (← i.idx 1)) (x :: y :: z :: xs) ({ X := fl k!"1" k!"0", Y := fl k!"1" k!"0", Z := fl k!"1" k!"0" } : Coordinate) o.scale ∧
    LastWins (tok k!"rotate") (fun i => do return ← Coordinate.fromSexpr (← i.idx 1)) (x :: y :: z :: xs) ({ X := fl k!"0" k!"0", Y := fl k!"0" k!"0", Z := fl k!"0" k!"0" } : Coordinate) o.rotate ∧
    o.hide = (x.is k!"hide") ∧
    LastWins (tok k!"opacity") (fun i => do return some (← i.idx 1)) (x :: y :: z :: xs) (none : Option Val) o.opacity := by
  rw [Model.loopEq path x y z] at h
  exact ⟨((Track.folds (get := (·.path)) (fun o x o' hs => (Model.trackAll o x o' hs).1) h)).const,
    ((Track.folds (get := (·.pos)) (fun o x o' hs => (Model.trackAll o x o' hs).2.1) h)).last,
    ((Track.folds (get := (·.scale)) (fun o x o' hs => (Model.trackAll o x o' hs).2.2.1) h)).last,
    ((Track.folds (get := (·.rotate)) (fun o x o' hs => (Model.trackAll o x o' hs).2.2.2.1) h)).last,
    ((Track.folds (get := (·.hide)) (fun o x o' hs => (Model.trackAll o x o' hs).2.2.2.2.1) h)).const,
    ((Track.folds (get := (·.opacity)) (fun o x o' hs => (Model.trackAll o x o' hs).2.2.2.2.2) h)).last⟩

/-- A repeated token with an unknown one in between. -/
example : (Model.fromSexpr (.list [.str k!"model", .str k!"x", .list [.str k!"a"], .list [.str k!"a"], .list [.str k!"a"], .list [.str k!"opacity", .str k!"a"], .list [.str k!"zzz", .int 1], .list [.str k!"opacity", .str k!"b"]])).map (·.opacity) = .ok (some (.str k!"b")) := rfl

theorem C10_Model (path x y z : Val) (xs ys : List Val) {u : Val} {r : List Val}
    (hu : ∀ k ∈ [k!"opacity", k!"offset", k!"scale", k!"rotate"], u ≠ .str k) :
    Model.fromSexpr (.list (.str k!"model" :: path :: x :: y :: z :: (xs ++ .list (u :: r) :: ys))) =
    Model.fromSexpr (.list (.str k!"model" :: path :: x :: y :: z :: (xs ++ ys))) := by
  rw [Model.loopEq path x y z, Model.loopEq path x y z]
  exact forM_insert (Model.unknown hu) _ (x :: y :: z :: xs) ys
example := C10_Model (.str k!"x") (.str k!"x") (.str k!"x") (.str k!"x") [.list [.str k!"opacity", .int 1]] [] (u := .str k!"zzz") (r := [.int 1]) (by simp)

theorem C37_DrillDefinition {d w : Val} (ha : d.is k!"oval" = false) (xs : List Val) (o : DrillDefinition) (h : DrillDefinition.fromSexpr (.list (.str k!"drill" :: d :: w :: xs)) = .ok o) :
    o.oval = (false : Bool) ∧
    o.diameter = d ∧
    o.width = (some w) ∧
    LastWins (tok k!"offset") (fun i => do return some (← Position.fromSexpr i)) (d :: w :: xs) (none : Option Position) o.offset := by
  rw [DrillDefinition.loopEq ha] at h
  exact ⟨((Track.folds (get := (·.oval)) (fun o x o' hs => (DrillDefinition.trackAll o x o' hs).1) h)).const,
    ((Track.folds (get := (·.diameter)) (fun o x o' hs => (DrillDefinition.trackAll o x o' hs).2.1) h)).const,
    ((Track.folds (get := (·.width)) (fun o x o' hs => (DrillDefinition.trackAll o x o' hs).2.2.1) h)).const,
    ((Track.folds (get := (·.offset)) (fun o x o' hs => (DrillDefinition.trackAll o x o' hs).2.2.2) h).drop rfl).last⟩
example := C37_DrillDefinition (d := .str k!"x") (w := .str k!"x") rfl [.list [.str k!"zzz", .int 1]] _ rfl

theorem C36_DrillDefinition {d w : Val} (ha : d.is k!"oval" = false) {xs ys : List Val} (hr : Reordered [] xs ys) (o : DrillDefinition) :
    DrillDefinition.fromSexpr (.list (.str k!"drill" :: d :: w :: xs)) = .ok o ↔ DrillDefinition.fromSexpr (.list (.str k!"drill" :: d :: w :: ys)) = .ok o := by
  rw [DrillDefinition.loopEq ha, DrillDefinition.loopEq ha]
  exact reordered_iff DrillDefinition.indep DrillDefinition.reordered (((hr.cons _).cons _).cons _) o
example := C36_DrillDefinition (d := .str k!"x") (w := .str k!"x") rfl (.swap [] [] [.int 1] [.int 2] k!"offset" k!"zzz" (by decide) (by decide))

theorem C10_DrillDefinition {d w : Val} (ha : d.is k!"oval" = false) (xs ys : List Val) {u : Val} {r : List Val}
    (hu : ∀ k ∈ [k!"offset"], u ≠ .str k) :
    DrillDefinition.fromSexpr (.list (.str k!"drill" :: d :: w :: (xs ++ .list (u :: r) :: ys))) =
    DrillDefinition.fromSexpr (.list (.str k!"drill" :: d :: w :: (xs ++ ys))) := by
  rw [DrillDefinition.loopEq ha, DrillDefinition.loopEq ha]
  exact forM_insert (DrillDefinition.unknown hu) _ (.str k!"drill" :: d :: w :: xs) ys
example := C10_DrillDefinition (d := .str k!"x") (w := .str k!"x") rfl [.list [.str k!"offset", .int 1]] [] (u := .str k!"zzz") (r := [.int 1]) (by simp)

theorem C37_PadOptions (xs : List Val) (o : PadOptions) (h : PadOptions.fromSexpr (.list (.str k!"options" :: xs)) = .ok o) :
    LastWins (tok k!"clearance") (·.idx 1) xs (st k!"outline" : Val) o.clearance ∧
    LastWins (tok k!"anchor") (·.idx 1) xs (st k!"rect" : Val) o.anchor := by
  rw [PadOptions.loopEq ] at h
  exact ⟨((Track.folds (get := (·.clearance)) (fun o x o' hs => (PadOptions.trackAll o x o' hs).1) h).drop rfl).last,
    ((Track.folds (get := (·.anchor)) (fun o x o' hs => (PadOptions.trackAll o x o' hs).2) h).drop rfl).last⟩

/-- A repeated token with an unknown one in between. -/
example : (PadOptions.fromSexpr (.list [.str k!"options", .list [.str k!"clearance", .str k!"a"], .list [.str k!"zzz", .int 1], .list [.str k!"clearance", .str k!"b"]])).map (·.clearance) = .ok (.str k!"b") := rfl

theorem C36_PadOptions {xs ys : List Val} (hr : Reordered [] xs ys) (o : PadOptions) :
    PadOptions.fromSexpr (.list (.str k!"options" :: xs)) = .ok o ↔ PadOptions.fromSexpr (.list (.str k!"options" :: ys)) = .ok o := by
  rw [PadOptions.loopEq , PadOptions.loopEq ]
  exact reordered_iff PadOptions.indep PadOptions.reordered (hr.cons _) o
example := C36_PadOptions (.swap [] [] [.int 1] [.int 2] k!"clearance" k!"anchor" (by decide) (by decide))

theorem C10_PadOptions (xs ys : List Val) {u : Val} {r : List Val}
    (hu : ∀ k ∈ [k!"clearance", k!"anchor"], u ≠ .str k) :
    PadOptions.fromSexpr (.list (.str k!"options" :: (xs ++ .list (u :: r) :: ys))) =
    PadOptions.fromSexpr (.list (.str k!"options" :: (xs ++ ys))) := by
  rw [PadOptions.loopEq , PadOptions.loopEq ]
  exact forM_insert (PadOptions.unknown hu) _ (.str k!"options" :: xs) ys
example := C10_PadOptions [.list [.str k!"clearance", .int 1]] [] (u := .str k!"zzz") (r := [.int 1]) (by simp)

theorem C37_Pad (a1 a2 a3 : Val) (xs : List Val) (o : Pad) (h : Pad.fromSexpr (.list (.str k!"pad" :: a1 :: a2 :: a3 :: xs)) = .ok o) :
    o.number = a1 ∧
    o.type = a2 ∧
    o.shape = a3 ∧
    LastWins (tok k!"at") Position.fromSexpr (a3 :: xs) ({} : Position) o.position ∧
    o.locked = (a3 :: xs).any (wordIn [k!"locked"]) ∧
    LastWins (tok k!"size") Position.fromSexpr (a3 :: xs) ({} : Position) o.size ∧
    LastWins (tok k!"drill") (fun i => do return some (← DrillDefinition.fromSexpr i)) (a3 :: xs) (none : Option DrillDefinition) o.drill ∧
    LastWins (tok k!"property") (fun i => do return some (← i.idx 1)) (a3 :: xs) (none : Option Val) o.property ∧
    o.removeUnusedLayers = (a3 :: xs).any (tok k!"remove_unused_layers") ∧
    o.keepEndLayers = (a3 :: xs).any (tok k!"keep_end_layers") ∧
    LastWins (tok k!"roundrect_rratio") (fun i => do return some (← i.idx 1)) (a3 :: xs) (none : Option Val) o.roundrectRatio ∧
    LastWins (tok k!"chamfer_ratio") (fun i => do return some (← i.idx 1)) (a3 :: xs) (none : Option Val) o.chamferRatio ∧
    LastWins (tok k!"net") (fun i => do return some (← Net.fromSexpr i)) (a3 :: xs) (none : Option Net) o.net ∧
    LastWins (tok k!"tstamp") (fun i => do return some (← i.idx 1)) (a3 :: xs) (none : Option Val) o.tstamp ∧
    LastWins (tok k!"pinfunction") (fun i => do return some (← i.idx 1)) (a3 :: xs) (none : Option Val) o.pinFunction ∧
    LastWins (tok k!"pintype") (fun i => do return some (← i.idx 1)) (a3 :: xs) (none : Option Val) o.pinType ∧
    LastWins (tok k!"die_length") (fun i => do return some (← i.idx 1)) (a3 :: xs) (none : Option Val) o.dieLength ∧
    LastWins (tok k!"solder_mask_margin") (fun i => do return some (← i.idx 1)) (a3 :: xs) (none : Option Val) o.solderMaskMargin ∧
    LastWins (tok k!"solder_paste_margin") (fun i => do return some (← i.idx 1)) (a3 :: xs) (none : Option Val) o.solderPasteMargin ∧
    LastWins (tok k!"solder_paste_margin_ratio") (fun i => do return some (← i.idx 1)) (a3 :: xs) (none : Option Val) o.solderPasteMarginRatio ∧
    LastWins (tok k!"clearance") (fun i => do return some (← i.idx 1)) (a3 :: xs) (none : Option Val) o.clearance ∧
    LastWins (tok k!"zone_connect") (fun i => do return some (← i.idx 1)) (a3 :: xs) (none : Option Val) o.zoneConnect ∧
    LastWins (tok k!"thermal_width") (fun i => do return some (← i.idx 1)) (a3 :: xs) (none : Option Val) o.thermalWidth ∧
    LastWins (tok k!"thermal_gap") (fun i => do return some (← i.idx 1)) (a3 :: xs) (none : Option Val) o.thermalGap ∧
    LastWins (tok k!"options") (fun i => do return some (← PadOptions.fromSexpr i)) (a3 :: xs) (none : Option PadOptions) o.customPadOptions ∧
    FoldsTo (tok k!"primitives") (fun acc i => do forM padPrimitive acc (← i.slice 1)) (a3 :: xs) ([] : List GrItem) o.customPadPrimitives := by
  rw [Pad.loopEq a1 a2 a3] at h
  exact ⟨((Track.folds (get := (·.number)) (fun o x o' hs => (Pad.trackAll o x o' hs).1) h)).const,
    ((Track.folds (get := (·.type)) (fun o x o' hs => (Pad.trackAll o x o' hs).2.1) h)).const,
    ((Track.folds (get := (·.shape)) (fun o x o' hs => (Pad.trackAll o x o' hs).2.2.1) h)).const,
    ((Track.folds (get := (·.position)) (fun o x o' hs => (Pad.trackAll o x o' hs).2.2.2.1) h)).last,
    ((Track.folds (get := (·.locked)) (fun o x o' hs => (Pad.trackAll o x o' hs).2.2.2.2.1) h)).flag,
    ((Track.folds (get := (·.size)) (fun o x o' hs => (Pad.trackAll o x o' hs).2.2.2.2.2.1) h)).last,
    ((Track.folds (get := (·.drill)) (fun o x o' hs => (Pad.trackAll o x o' hs).2.2.2.2.2.2.1) h)).last,
    ((Track.folds (get := (·.property)) (fun o x o' hs => (Pad.trackAll o x o' hs).2.2.2.2.2.2.2.2.1) h)).last,
    ((Track.folds (get := (·.removeUnusedLayers)) (fun o x o' hs => (Pad.trackAll o x o' hs).2.2.2.2.2.2.2.2.2.1) h)).flag,
    ((Track.folds (get := (·.keepEndLayers)) (fun o x o' hs => (Pad.trackAll o x o' hs).2.2.2.2.2.2.2.2.2.2.1) h)).flag,
    ((Track.folds (get := (·.roundrectRatio)) (fun o x o' hs => (Pad.trackAll o x o' hs).2.2.2.2.2.2.2.2.2.2.2.1) h)).last,
    ((Track.folds (get := (·.chamferRatio)) (fun o x o' hs => (Pad.trackAll o x o' hs).2.2.2.2.2.2.2.2.2.2.2.2.1) h)).last,
    ((Track.folds (get := (·.net)) (fun o x o' hs => (Pad.trackAll o x o' hs).2.2.2.2.2.2.2.2.2.2.2.2.2.2.1) h)).last,
    ((Track.folds (get := (·.tstamp)) (fun o x o' hs => (Pad.trackAll o x o' hs).2.2.2.2.2.2.2.2.2.2.2.2.2.2.2.1) h)).last,
    ((Track.folds (get := (·.pinFunction)) (fun o x o' hs => (Pad.trackAll o x o' hs).2.2.2.2.2.2.2.2.2.2.2.2.2.2.2.2.1) h)).last,
    ((Track.folds (get := (·.pinType)) (fun o x o' hs => (Pad.trackAll o x o' hs).2.2.2.2.2.2.2.2.2.2.2.2.2.2.2.2.2.1) h)).last,
    ((Track.folds (get := (·.dieLength)) (fun o x o' hs => (Pad.trackAll o x o' hs).2.2.2.2.2.2.2.2.2.2.2.2.2.2.2.2.2.2.1) h)).last,
    ((Track.folds (get := (·.solderMaskMargin)) (fun o x o' hs => (Pad.trackAll o x o' hs).2.2.2.2.2.2.2.2.2.2.2.2.2.2.2.2.2.2.2.1) h)).last,
    ((Track.folds (get := (·.solderPasteMargin)) (fun o x o' hs => (Pad.trackAll o x o' hs).2.2.2.2.2.2.2.2.2.2.2.2.2.2.2.2.2.2.2.2.1) h)).last,
    ((Track.folds (get := (·.solderPasteMarginRatio)) (fun o x o' hs => (Pad.trackAll o x o' hs).2.2.2.2.2.2.2.2.2.2.2.2.2.2.2.2.2.2.2.2.2.1) h)).last,
    ((Track.folds (get := (·.clearance)) (fun o x o' hs => (Pad.trackAll o x o' hs).2.2.2.2.2.2.2.2.2.2.2.2.2.2.2.2.2.2.2.2.2.2.1) h)).last,
    ((Track.folds (get := (·.zoneConnect)) (fun o x o' hs => (Pad.trackAll o x o' hs).2.2.2.2.2.2.2.2.2.2.2.2.2.2.2.2.2.2.2.2.2.2.2.1) h)).last,
    ((Track.folds (get := (·.thermalWidth)) (fun o x o' hs => (Pad.trackAll o x o' hs).2.2.2.2.2.2.2.2.2.2.2.2.2.2.2.2.2.2.2.2.2.2.2.2.1) h)).last,
    ((Track.folds (get := (·.thermalGap)) (fun o x o' hs => (Pad.trackAll o x o' hs).2.2.2.2.2.2.2.2.2.2.2.2.2.2.2.2.2.2.2.2.2.2.2.2.2.1) h)).last,
    ((Track.folds (get := (·.customPadOptions)) (fun o x o' hs => (Pad.trackAll o x o' hs).2.2.2.2.2.2.2.2.2.2.2.2.2.2.2.2.2.2.2.2.2.2.2.2.2.2.1) h)).last,
    ((Track.folds (get := (·.customPadPrimitives)) (fun o x o' hs => (Pad.trackAll o x o' hs).2.2.2.2.2.2.2.2.2.2.2.2.2.2.2.2.2.2.2.2.2.2.2.2.2.2.2) h))⟩
example := C37_Pad (.str k!"x") (.str k!"x") (.str k!"x") [.list [.str k!"property", .str k!"a"], .str k!"locked"] _ rfl

theorem C11_Pad (a1 a2 a3 : Val) (xs : List Val) (o : Pad) (h : Pad.fromSexpr (.list (.str k!"pad" :: a1 :: a2 :: a3 :: xs)) = .ok o) :
    CollectedAll (tok k!"layers") (·.slice 1) (a3 :: xs) o.layers ∧
    CollectedAll (tok k!"chamfer") (·.slice 1) (a3 :: xs) o.chamfer := by
  rw [Pad.loopEq a1 a2 a3] at h
  exact ⟨((Track.folds (get := (·.layers)) (fun o x o' hs => (Pad.trackAll o x o' hs).2.2.2.2.2.2.2.1) h)).collectedAll,
    ((Track.folds (get := (·.chamfer)) (fun o x o' hs => (Pad.trackAll o x o' hs).2.2.2.2.2.2.2.2.2.2.2.2.2.1) h)).collectedAll⟩

/-- A repeated token with an unknown one in between. -/
example : (Pad.fromSexpr (.list [.str k!"pad", .str k!"x", .str k!"x", .str k!"x", .list [.str k!"property", .str k!"a"], .list [.str k!"zzz", .int 1], .list [.str k!"property", .str k!"b"]])).map (·.property) = .ok (some (.str k!"b")) := rfl

theorem C36_Pad (a1 a2 a3 : Val) {xs ys : List Val} (hr : Reordered [] xs ys) (o : Pad) :
    Pad.fromSexpr (.list (.str k!"pad" :: a1 :: a2 :: a3 :: xs)) = .ok o ↔ Pad.fromSexpr (.list (.str k!"pad" :: a1 :: a2 :: a3 :: ys)) = .ok o := by
  rw [Pad.loopEq a1 a2 a3, Pad.loopEq a1 a2 a3]
  exact reordered_iff Pad.indep Pad.reordered (hr.cons _) o
example := C36_Pad (.str k!"x") (.str k!"x") (.str k!"x") (.swap [] [] [.int 1] [.int 2] k!"at" k!"size" (by decide) (by decide))

theorem C10_Pad (a1 a2 a3 : Val) (xs ys : List Val) {u : Val} {r : List Val}
    (hu : ∀ k ∈ [k!"at", k!"size", k!"drill", k!"layers", k!"property", k!"remove_unused_layers", k!"keep_end_layers", k!"roundrect_rratio", k!"chamfer_ratio", k!"chamfer", k!"net", k!"tstamp", k!"pinfunction", k!"pintype", k!"die_length", k!"solder_mask_margin", k!"solder_paste_margin", k!"solder_paste_margin_ratio", k!"clearance", k!"zone_connect", k!"thermal_width", k!"thermal_gap", k!"options", k!"primitives"], u ≠ .str k) :
    Pad.fromSexpr (.list (.str k!"pad" :: a1 :: a2 :: a3 :: (xs ++ .list (u :: r) :: ys))) =
    Pad.fromSexpr (.list (.str k!"pad" :: a1 :: a2 :: a3 :: (xs ++ ys))) := by
  rw [Pad.loopEq a1 a2 a3, Pad.loopEq a1 a2 a3]
  exact forM_insert (Pad.unknown hu) _ (a3 :: xs) ys
example := C10_Pad (.str k!"x") (.str k!"x") (.str k!"x") [.list [.str k!"at", .int 1]] [] (u := .str k!"zzz") (r := [.int 1]) (by simp)

theorem C37_Footprint (tedit : Val) {hd : Str} (id : Val) (hh : hd = k!"module" ∨ hd = k!"footprint") (xs : List Val) (o : Footprint) (h : Footprint.fromSexpr tedit (.list (.str hd :: id :: xs)) = .ok o) :
    o.libraryNickname = ((Footprint.setLibId { tedit := tedit } id).libraryNickname) ∧
    o.entryName = ((Footprint.setLibId { tedit := tedit } id).entryName) ∧
    LastWins (tok k!"version") (fun i => do return some (← i.idx 1)) xs (none : Option Val) o.version ∧
    LastWins (tok k!"generator") (fun i => do return some (← i.idx 1)) xs (none : Option Val) o.generator ∧
    o.locked = xs.any (wordIn [k!"locked"]) ∧
    o.placed = xs.any (wordIn [k!"placed"]) ∧
    LastWins (tok k!"layer") (·.idx 1) xs (st k!"F.Cu" : Val) o.layer ∧
    LastWins (tok k!"tedit") (·.idx 1) xs tedit o.tedit ∧
    LastWins (tok k!"tstamp") (fun i => do return some (← i.idx 1)) xs (none : Option Val) o.tstamp ∧
    LastWins (tok k!"at") (fun i => do return some (← Position.fromSexpr i)) xs (none : Option Position) o.position ∧
    LastWins (tok k!"descr") (fun i => do return some (← i.idx 1)) xs (none : Option Val) o.description ∧
    LastWins (tok k!"tags") (fun i => do return some (← i.idx 1)) xs (none : Option Val) o.tags ∧
    FoldsTo (tok k!"property") (fun acc i => do let k ← i.idx 1; let v ← i.idx 2; Dict.update acc k v) xs ([] : Dict Val) o.properties ∧
    LastWins (tok k!"path") (fun i => do return some (← i.idx 1)) xs (none : Option Val) o.path ∧
    LastWins (tok k!"autoplace_cost90") (fun i => do return some (← i.idx 1)) xs (none : Option Val) o.autoplaceCost90 ∧
    LastWins (tok k!"autoplace_cost180") (fun i => do return some (← i.idx 1)) xs (none : Option Val) o.autoplaceCost180 ∧
    LastWins (tok k!"solder_mask_margin") (fun i => do return some (← i.idx 1)) xs (none : Option Val) o.solderMaskMargin ∧
    LastWins (tok k!"solder_paste_margin") (fun i => do return some (← i.idx 1)) xs (none : Option Val) o.solderPasteMargin ∧
    LastWins (tok k!"solder_paste_ratio") (fun i => do return some (← i.idx 1)) xs (none : Option Val) o.solderPasteRatio ∧
    LastWins (tok k!"clearance") (fun i => do return some (← i.idx 1)) xs (none : Option Val) o.clearance ∧
    LastWins (tok k!"zone_connect") (fun i => do return some (← i.idx 1)) xs (none : Option Val) o.zoneConnect ∧
    LastWins (tok k!"thermal_width") (fun i => do return some (← i.idx 1)) xs (none : Option Val) o.thermalWidth ∧
    LastWins (tok k!"thermal_gap") (fun i => do return some (← i.idx 1)) xs (none : Option Val) o.thermalGap ∧
    LastWins (tok k!"attr") Attributes.fromSexpr xs ({} : Attributes) o.attributes ∧
    o.filePath = (none : Option Str) := by
  rw [Footprint.loopEq tedit id hh] at h
  exact ⟨((Track.folds (get := (·.libraryNickname)) (fun o x o' hs => (Footprint.trackAll o x o' hs).1) h)).const,
    ((Track.folds (get := (·.entryName)) (fun o x o' hs => (Footprint.trackAll o x o' hs).2.1) h)).const,
    ((Track.folds (get := (·.version)) (fun o x o' hs => (Footprint.trackAll o x o' hs).2.2.1) h)).last,
    ((Track.folds (get := (·.generator)) (fun o x o' hs => (Footprint.trackAll o x o' hs).2.2.2.1) h)).last,
    ((Track.folds (get := (·.locked)) (fun o x o' hs => (Footprint.trackAll o x o' hs).2.2.2.2.1) h)).flag,
    ((Track.folds (get := (·.placed)) (fun o x o' hs => (Footprint.trackAll o x o' hs).2.2.2.2.2.1) h)).flag,
    ((Track.folds (get := (·.layer)) (fun o x o' hs => (Footprint.trackAll o x o' hs).2.2.2.2.2.2.1) h)).last,
    ((Track.folds (get := (·.tedit)) (fun o x o' hs => (Footprint.trackAll o x o' hs).2.2.2.2.2.2.2.1) h)).last,
    ((Track.folds (get := (·.tstamp)) (fun o x o' hs => (Footprint.trackAll o x o' hs).2.2.2.2.2.2.2.2.1) h)).last,
    ((Track.folds (get := (·.position)) (fun o x o' hs => (Footprint.trackAll o x o' hs).2.2.2.2.2.2.2.2.2.1) h)).last,
    ((Track.folds (get := (·.description)) (fun o x o' hs => (Footprint.trackAll o x o' hs).2.2.2.2.2.2.2.2.2.2.1) h)).last,
    ((Track.folds (get := (·.tags)) (fun o x o' hs => (Footprint.trackAll o x o' hs).2.2.2.2.2.2.2.2.2.2.2.1) h)).last,
    ((Track.folds (get := (·.properties)) (fun o x o' hs => (Footprint.trackAll o x o' hs).2.2.2.2.2.2.2.2.2.2.2.2.1) h)),
    ((Track.folds (get := (·.path)) (fun o x o' hs => (Footprint.trackAll o x o' hs).2.2.2.2.2.2.2.2.2.2.2.2.2.1) h)).last,
    ((Track.folds (get := (·.autoplaceCost90)) (fun o x o' hs => (Footprint.trackAll o x o' hs).2.2.2.2.2.2.2.2.2.2.2.2.2.2.1) h)).last,
    ((Track.folds (get := (·.autoplaceCost180)) (fun o x o' hs => (Footprint.trackAll o x o' hs).2.2.2.2.2.2.2.2.2.2.2.2.2.2.2.1) h)).last,
    ((Track.folds (get := (·.solderMaskMargin)) (fun o x o' hs => (Footprint.trackAll o x o' hs).2.2.2.2.2.2.2.2.2.2.2.2.2.2.2.2.1) h)).last,
    ((Track.folds (get := (·.solderPasteMargin)) (fun o x o' hs => (Footprint.trackAll o x o' hs).2.2.2.2.2.2.2.2.2.2.2.2.2.2.2.2.2.1) h)).last,
    ((Track.folds (get := (·.solderPasteRatio)) (fun o x o' hs => (Footprint.trackAll o x o' hs).2.2.2.2.2.2.2.2.2.2.2.2.2.2.2.2.2.2.1) h)).last,
    ((Track.folds (get := (·.clearance)) (fun o x o' hs => (Footprint.trackAll o x o' hs).2.2.2.2.2.2.2.2.2.2.2.2.2.2.2.2.2.2.2.1) h)).last,
    ((Track.folds (get := (·.zoneConnect)) (fun o x o' hs => (Footprint.trackAll o x o' hs).2.2.2.2.2.2.2.2.2.2.2.2.2.2.2.2.2.2.2.2.1) h)).last,
    ((Track.folds (get := (·.thermalWidth)) (fun o x o' hs => (Footprint.trackAll o x o' hs).2.2.2.2.2.2.2.2.2.2.2.2.2.2.2.2.2.2.2.2.2.1) h)).last,
    ((Track.folds (get := (·.thermalGap)) (fun o x o' hs => (Footprint.trackAll o x o' hs).2.2.2.2.2.2.2.2.2.2.2.2.2.2.2.2.2.2.2.2.2.2.1) h)).last,
    ((Track.folds (get := (·.attributes)) (fun o x o' hs => (Footprint.trackAll o x o' hs).2.2.2.2.2.2.2.2.2.2.2.2.2.2.2.2.2.2.2.2.2.2.2.1) h)).last,
    ((Track.folds (get := (·.filePath)) (fun o x o' hs => (Footprint.trackAll o x o' hs).2.2.2.2.2.2.2.2.2.2.2.2.2.2.2.2.2.2.2.2.2.2.2.2.2.2.2.2.2.2.2) h)).const⟩
example := C37_Footprint (.int 0) (.str k!"x") (.inl rfl) [.list [.str k!"version", .str k!"a"], .str k!"locked"] _ rfl

theorem C11_Footprint (tedit : Val) {hd : Str} (id : Val) (hh : hd = k!"module" ∨ hd = k!"footprint") (xs : List Val) (o : Footprint) (h : Footprint.fromSexpr tedit (.list (.str hd :: id :: xs)) = .ok o) :
    CollectedAll (tok k!"private_layers") (·.slice 1) xs o.privateLayers ∧
    CollectedAll (tok k!"net_tie_pad_groups") (·.slice 1) xs o.netTiePadGroups ∧
    Collected (tokIn [k!"fp_text", k!"fp_text_box", k!"fp_line", k!"fp_rect", k!"fp_circle", k!"fp_arc", k!"fp_poly", k!"fp_curve", k!"image"]) (fun i => if tok k!"fp_text" i then do return .text (← FpText.fromSexpr i) else if tok k!"fp_text_box" i then do return .textBox (← FpTextBox.fromSexpr i) else if tok k!"fp_line" i then do return .line (← FpLine.fromSexpr i) else if tok k!"fp_rect" i then do return .rect (← FpRect.fromSexpr i) else if tok k!"fp_circle" i then do return .circle (← FpCircle.fromSexpr i) else if tok k!"fp_arc" i then do return .arc (← FpArc.fromSexpr i) else if tok k!"fp_poly" i then do return .poly (← FpPoly.fromSexpr i) else if tok k!"fp_curve" i then do return .curve (← FpCurve.fromSexpr i) else do return .image (← Image.fromSexpr i)) xs o.graphicItems ∧
    Collected (tok k!"pad") Pad.fromSexpr xs o.pads ∧
    Collected (tok k!"zone") Zone.fromSexpr xs o.zones ∧
    Collected (tok k!"group") Group.fromSexpr xs o.groups ∧
    Collected (tok k!"model") Model.fromSexpr xs o.models := by
  rw [Footprint.loopEq tedit id hh] at h
  exact ⟨((Track.folds (get := (·.privateLayers)) (fun o x o' hs => (Footprint.trackAll o x o' hs).2.2.2.2.2.2.2.2.2.2.2.2.2.2.2.2.2.2.2.2.2.2.2.2.1) h)).collectedAll,
    ((Track.folds (get := (·.netTiePadGroups)) (fun o x o' hs => (Footprint.trackAll o x o' hs).2.2.2.2.2.2.2.2.2.2.2.2.2.2.2.2.2.2.2.2.2.2.2.2.2.1) h)).collectedAll,
    ((Track.folds (get := (·.graphicItems)) (fun o x o' hs => (Footprint.trackAll o x o' hs).2.2.2.2.2.2.2.2.2.2.2.2.2.2.2.2.2.2.2.2.2.2.2.2.2.2.1) h)).collected,
    ((Track.folds (get := (·.pads)) (fun o x o' hs => (Footprint.trackAll o x o' hs).2.2.2.2.2.2.2.2.2.2.2.2.2.2.2.2.2.2.2.2.2.2.2.2.2.2.2.1) h)).collected,
    ((Track.folds (get := (·.zones)) (fun o x o' hs => (Footprint.trackAll o x o' hs).2.2.2.2.2.2.2.2.2.2.2.2.2.2.2.2.2.2.2.2.2.2.2.2.2.2.2.2.1) h)).collected,
    ((Track.folds (get := (·.groups)) (fun o x o' hs => (Footprint.trackAll o x o' hs).2.2.2.2.2.2.2.2.2.2.2.2.2.2.2.2.2.2.2.2.2.2.2.2.2.2.2.2.2.1) h)).collected,
    ((Track.folds (get := (·.models)) (fun o x o' hs => (Footprint.trackAll o x o' hs).2.2.2.2.2.2.2.2.2.2.2.2.2.2.2.2.2.2.2.2.2.2.2.2.2.2.2.2.2.2.1) h)).collected⟩

/-- A repeated token with an unknown one in between. -/
example : (Footprint.fromSexpr (.int 0) (.list [.str k!"footprint", .str k!"x", .list [.str k!"version", .str k!"a"], .list [.str k!"zzz", .int 1], .list [.str k!"version", .str k!"b"]])).map (·.version) = .ok (some (.str k!"b")) := rfl

theorem C36_Footprint (tedit : Val) {hd : Str} (id : Val) (hh : hd = k!"module" ∨ hd = k!"footprint") {xs ys : List Val} (hr : Reordered [[k!"fp_text", k!"fp_text_box", k!"fp_line", k!"fp_rect", k!"fp_circle", k!"fp_arc", k!"fp_poly", k!"fp_curve", k!"image"]] xs ys) (o : Footprint) :
    Footprint.fromSexpr tedit (.list (.str hd :: id :: xs)) = .ok o ↔ Footprint.fromSexpr tedit (.list (.str hd :: id :: ys)) = .ok o := by
  rw [Footprint.loopEq tedit id hh, Footprint.loopEq tedit id hh]
  exact reordered_iff Footprint.indep Footprint.reordered hr o
example := C36_Footprint (.int 0) (.str k!"x") (.inl rfl) (.swap [] [] [.int 1] [.int 2] k!"version" k!"generator" (by decide) (by decide))

theorem C10_Footprint (tedit : Val) {hd : Str} (id : Val) (hh : hd = k!"module" ∨ hd = k!"footprint") (xs ys : List Val) {u : Val} {r : List Val}
    (hu : ∀ k ∈ [k!"version", k!"generator", k!"layer", k!"tedit", k!"tstamp", k!"descr", k!"tags", k!"path", k!"at", k!"autoplace_cost90", k!"autoplace_cost180", k!"solder_mask_margin", k!"solder_paste_margin", k!"solder_paste_ratio", k!"clearance", k!"zone_connect", k!"thermal_width", k!"thermal_gap", k!"attr", k!"model", k!"fp_text", k!"fp_text_box", k!"fp_line", k!"fp_rect", k!"fp_circle", k!"fp_arc", k!"fp_poly", k!"fp_curve", k!"image", k!"pad", k!"zone", k!"property", k!"group", k!"private_layers", k!"net_tie_pad_groups", k!"dimension"], u ≠ .str k) :
    Footprint.fromSexpr tedit (.list (.str hd :: id :: (xs ++ .list (u :: r) :: ys))) =
    Footprint.fromSexpr tedit (.list (.str hd :: id :: (xs ++ ys))) := by
  rw [Footprint.loopEq tedit id hh, Footprint.loopEq tedit id hh]
  exact forM_insert (Footprint.unknown hu) _ xs ys
example := C10_Footprint (.int 0) (.str k!"x") (.inl rfl) [.list [.str k!"version", .int 1]] [] (u := .str k!"zzz") (r := [.int 1]) (by simp)

end Kiutils
