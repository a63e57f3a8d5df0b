import Verif.Swap
import Verif.Tracks.Zones
/-!
# What `from_sexpr` makes of the items of a list: Zones

For each class: `C37` (every field is read from the last item with its token; flags are set when their word or token occurs),
`C11` (lists contain all items with their tokens, once each, in order), `C36` (unrelated items may change places), `C10` (items
with unknown tokens are ignored). The vocabulary is defined in `Verif/Tokens.lean`.
-/
namespace Kiutils

theorem C37_KeepoutSettings (xs : List Val) (o : KeepoutSettings) (h : KeepoutSettings.fromSexpr (.list (.str k!"keepout" :: xs)) = .ok o) :
    LastWins (tok k!"tracks") (·.idx 1) xs (st k!"allowed" : Val) o.tracks ∧
    LastWins (tok k!"vias") (·.idx 1) xs (st k!"allowed" : Val) o.vias ∧
    LastWins (tok k!"pads") (·.idx 1) xs (st k!"allowed" : Val) o.pads ∧
    LastWins (tok k!"copperpour") (·.idx 1) xs (st k!"not-allowed" : Val) o.copperpour ∧
    LastWins (tok k!"footprints") (·.idx 1) xs (st k!"not-allowed" : Val) o.footprints := by
  rw [KeepoutSettings.loopEq ] at h
  exact ⟨((Track.folds (get := (·.tracks)) (fun o x o' hs => (KeepoutSettings.trackAll o x o' hs).1) h).drop rfl).last,
    ((Track.folds (get := (·.vias)) (fun o x o' hs => (KeepoutSettings.trackAll o x o' hs).2.1) h).drop rfl).last,
    ((Track.folds (get := (·.pads)) (fun o x o' hs => (KeepoutSettings.trackAll o x o' hs).2.2.1) h).drop rfl).last,
    ((Track.folds (get := (·.copperpour)) (fun o x o' hs => (KeepoutSettings.trackAll o x o' hs).2.2.2.1) h).drop rfl).last,
    ((Track.folds (get := (·.footprints)) (fun o x o' hs => (KeepoutSettings.trackAll o x o' hs).2.2.2.2) h).drop rfl).last⟩

/-- A repeated token with an unknown one in between. -/
example : (KeepoutSettings.fromSexpr (.list [.str k!"keepout", .list [.str k!"tracks", .str k!"a"], .list [.str k!"zzz", .int 1], .list [.str k!"tracks", .str k!"b"]])).map (·.tracks) = .ok (.str k!"b") := rfl

theorem C36_KeepoutSettings {xs ys : List Val} (hr : Reordered [] xs ys) (o : KeepoutSettings) :
    KeepoutSettings.fromSexpr (.list (.str k!"keepout" :: xs)) = .ok o ↔ KeepoutSettings.fromSexpr (.list (.str k!"keepout" :: ys)) = .ok o := by
  rw [KeepoutSettings.loopEq , KeepoutSettings.loopEq ]
  exact reordered_iff KeepoutSettings.indep KeepoutSettings.reordered (hr.cons _) o
example := C36_KeepoutSettings (.swap [] [] [.int 1] [.int 2] k!"tracks" k!"vias" (by decide) (by decide))

theorem C10_KeepoutSettings (xs ys : List Val) {u : Val} {r : List Val}
    (hu : ∀ k ∈ [k!"tracks", k!"vias", k!"pads", k!"copperpour", k!"footprints"], u ≠ .str k) :
    KeepoutSettings.fromSexpr (.list (.str k!"keepout" :: (xs ++ .list (u :: r) :: ys))) =
    KeepoutSettings.fromSexpr (.list (.str k!"keepout" :: (xs ++ ys))) := by
  rw [KeepoutSettings.loopEq , KeepoutSettings.loopEq ]
  exact forM_insert (KeepoutSettings.unknown hu) _ (.str k!"keepout" :: xs) ys
example := C10_KeepoutSettings [.list [.str k!"tracks", .int 1]] [] (u := .str k!"zzz") (r := [.int 1]) (by simp)

theorem C37_FillSettings (xs : List Val) (o : FillSettings) (h : FillSettings.fromSexpr (.list (.str k!"fill" :: xs)) = .ok o) :
    o.yes = xs.any (wordIn [k!"yes"]) ∧
    LastWins (tok k!"mode") (fun i => do return some (← i.idx 1)) xs (none : Option Val) o.mode ∧
    LastWins (tok k!"thermal_gap") (fun i => do return some (← i.idx 1)) xs (none : Option Val) o.thermalGap ∧
    LastWins (tok k!"thermal_bridge_width") (fun i => do return some (← i.idx 1)) xs (none : Option Val) o.thermalBridgeWidth ∧
    LastWins (tok k!"smoothing") (fun i => do return some (← i.idx 1)) xs (none : Option Val) o.smoothingStyle ∧
    LastWins (tok k!"radius") (fun i => do return some (← i.idx 1)) xs (none : Option Val) o.smoothingRadius ∧
    LastWins (tok k!"island_removal_mode") (fun i => do return some (← i.idx 1)) xs (none : Option Val) o.islandRemovalMode ∧
    LastWins (tok k!"island_area_min") (fun i => do return some (← i.idx 1)) xs (none : Option Val) o.islandAreaMin ∧
    LastWins (tok k!"hatch_thickness") (fun i => do return some (← i.idx 1)) xs (none : Option Val) o.hatchThickness ∧
    LastWins (tok k!"hatch_gap") (fun i => do return some (← i.idx 1)) xs (none : Option Val) o.hatchGap ∧
    LastWins (tok k!"hatch_orientation") (fun i => do return some (← i.idx 1)) xs (none : Option Val) o.hatchOrientation ∧
    LastWins (tok k!"hatch_smoothing_level") (fun i => do return some (← i.idx 1)) xs (none : Option Val) o.hatchSmoothingLevel ∧
    LastWins (tok k!"hatch_smoothing_value") (fun i => do return some (← i.idx 1)) xs (none : Option Val) o.hatchSmoothingValue ∧
    LastWins (tok k!"hatch_border_algorithm") (fun i => do return some (← i.idx 1)) xs (none : Option Val) o.hatchBorderAlgorithm ∧
    LastWins (tok k!"hatch_min_hole_area") (fun i => do return some (← i.idx 1)) xs (none : Option Val) o.hatchMinHoleArea := by
  rw [FillSettings.loopEq ] at h
  exact ⟨((Track.folds (get := (·.yes)) (fun o x o' hs => (FillSettings.trackAll o x o' hs).1) h).drop rfl).flag,
    ((Track.folds (get := (·.mode)) (fun o x o' hs => (FillSettings.trackAll o x o' hs).2.1) h).drop rfl).last,
    ((Track.folds (get := (·.thermalGap)) (fun o x o' hs => (FillSettings.trackAll o x o' hs).2.2.1) h).drop rfl).last,
    ((Track.folds (get := (·.thermalBridgeWidth)) (fun o x o' hs => (FillSettings.trackAll o x o' hs).2.2.2.1) h).drop rfl).last,
    ((Track.folds (get := (·.smoothingStyle)) (fun o x o' hs => (FillSettings.trackAll o x o' hs).2.2.2.2.1) h).drop rfl).last,
    ((Track.folds (get := (·.smoothingRadius)) (fun o x o' hs => (FillSettings.trackAll o x o' hs).2.2.2.2.2.1) h).drop rfl).last,
    ((Track.folds (get := (·.islandRemovalMode)) (fun o x o' hs => (FillSettings.trackAll o x o' hs).2.2.2.2.2.2.1) h).drop rfl).last,
    ((Track.folds (get := (·.islandAreaMin)) (fun o x o' hs => (FillSettings.trackAll o x o' hs).2.2.2.2.2.2.2.1) h).drop rfl).last,
    ((Track.folds (get := (·.hatchThickness)) (fun o x o' hs => (FillSettings.trackAll o x o' hs).2.2.2.2.2.2.2.2.1) h).drop rfl).last,
    ((Track.folds (get := (·.hatchGap)) (fun o x o' hs => (FillSettings.trackAll o x o' hs).2.2.2.2.2.2.2.2.2.1) h).drop rfl).last,
    ((Track.folds (get := (·.hatchOrientation)) (fun o x o' hs => (FillSettings.trackAll o x o' hs).2.2.2.2.2.2.2.2.2.2.1) h).drop rfl).last,
    ((Track.folds (get := (·.hatchSmoothingLevel)) (fun o x o' hs => (FillSettings.trackAll o x o' hs).2.2.2.2.2.2.2.2.2.2.2.1) h).drop rfl).last,
    ((Track.folds (get := (·.hatchSmoothingValue)) (fun o x o' hs => (FillSettings.trackAll o x o' hs).2.2.2.2.2.2.2.2.2.2.2.2.1) h).drop rfl).last,
    ((Track.folds (get := (·.hatchBorderAlgorithm)) (fun o x o' hs => (FillSettings.trackAll o x o' hs).2.2.2.2.2.2.2.2.2.2.2.2.2.1) h).drop rfl).last,
    ((Track.folds (get := (·.hatchMinHoleArea)) (fun o x o' hs => (FillSettings.trackAll o x o' hs).2.2.2.2.2.2.2.2.2.2.2.2.2.2) h).drop rfl).last⟩

/-- A repeated token with an unknown one in between. -/
example : (FillSettings.fromSexpr (.list [.str k!"fill", .list [.str k!"mode", .str k!"a"], .list [.str k!"zzz", .int 1], .list [.str k!"mode", .str k!"b"]])).map (·.mode) = .ok (some (.str k!"b")) := rfl

theorem C36_FillSettings {xs ys : List Val} (hr : Reordered [] xs ys) (o : FillSettings) :
    FillSettings.fromSexpr (.list (.str k!"fill" :: xs)) = .ok o ↔ FillSettings.fromSexpr (.list (.str k!"fill" :: ys)) = .ok o := by
  rw [FillSettings.loopEq , FillSettings.loopEq ]
  exact reordered_iff FillSettings.indep FillSettings.reordered (hr.cons _) o
example := C36_FillSettings (.swap [] [] [.int 1] [.int 2] k!"mode" k!"thermal_gap" (by decide) (by decide))

theorem C10_FillSettings (xs ys : List Val) {u : Val} {r : List Val}
    (hu : ∀ k ∈ [k!"mode", k!"thermal_gap", k!"thermal_bridge_width", k!"smoothing", k!"radius", k!"island_removal_mode", k!"island_area_min", k!"hatch_thickness", k!"hatch_gap", k!"hatch_orientation", k!"hatch_smoothing_level", k!"hatch_smoothing_value", k!"hatch_border_algorithm", k!"hatch_min_hole_area"], u ≠ .str k) :
    FillSettings.fromSexpr (.list (.str k!"fill" :: (xs ++ .list (u :: r) :: ys))) =
    FillSettings.fromSexpr (.list (.str k!"fill" :: (xs ++ ys))) := by
  rw [FillSettings.loopEq , FillSettings.loopEq ]
  exact forM_insert (FillSettings.unknown hu) _ (.str k!"fill" :: xs) ys
example := C10_FillSettings [.list [.str k!"mode", .int 1]] [] (u := .str k!"zzz") (r := [.int 1]) (by simp)

theorem C11_ZonePolygon (xs : List Val) (o : ZonePolygon) (h : ZonePolygon.fromSexpr (.list (.str k!"polygon" :: xs)) = .ok o) :
    CollectedAll (tok k!"pts") (fun i => do mapM' Position.fromSexpr (← i.slice 1)) xs o.coordinates := by
  rw [ZonePolygon.loopEq ] at h
  exact ((Track.folds (get := (·.coordinates)) (fun o x o' hs => (ZonePolygon.trackAll o x o' hs)) h).drop rfl).collectedAll
example := C11_ZonePolygon [.list [.str k!"zzz", .int 1]] _ rfl

theorem C36_ZonePolygon {xs ys : List Val} (hr : Reordered [] xs ys) (o : ZonePolygon) :
    ZonePolygon.fromSexpr (.list (.str k!"polygon" :: xs)) = .ok o ↔ ZonePolygon.fromSexpr (.list (.str k!"polygon" :: ys)) = .ok o := by
  rw [ZonePolygon.loopEq , ZonePolygon.loopEq ]
  exact reordered_iff ZonePolygon.indep ZonePolygon.reordered (hr.cons _) o
example := C36_ZonePolygon (.swap [] [] [.int 1] [.int 2] k!"pts" k!"zzz" (by decide) (by decide))

theorem C10_ZonePolygon (xs ys : List Val) {u : Val} {r : List Val}
    (hu : ∀ k ∈ [k!"pts"], u ≠ .str k) :
    ZonePolygon.fromSexpr (.list (.str k!"polygon" :: (xs ++ .list (u :: r) :: ys))) =
    ZonePolygon.fromSexpr (.list (.str k!"polygon" :: (xs ++ ys))) := by
  rw [ZonePolygon.loopEq , ZonePolygon.loopEq ]
  exact forM_insert (ZonePolygon.unknown hu) _ (.str k!"polygon" :: xs) ys
example := C10_ZonePolygon [.list [.str k!"pts", .int 1]] [] (u := .str k!"zzz") (r := [.int 1]) (by simp)

theorem C37_FilledPolygon (xs : List Val) (o : FilledPolygon) (h : FilledPolygon.fromSexpr (.list (.str k!"filled_polygon" :: xs)) = .ok o) :
    LastWins (tok k!"layer") (·.idx 1) xs (st k!"F.Cu" : Val) o.layer ∧
    o.island = xs.any (tok k!"island") := by
  rw [FilledPolygon.loopEq ] at h
  exact ⟨((Track.folds (get := (·.layer)) (fun o x o' hs => (FilledPolygon.trackAll o x o' hs).1) h).drop rfl).last,
    ((Track.folds (get := (·.island)) (fun o x o' hs => (FilledPolygon.trackAll o x o' hs).2.1) h).drop rfl).flag⟩
example := C37_FilledPolygon [.list [.str k!"layer", .str k!"a"]] _ rfl

theorem C11_FilledPolygon (xs : List Val) (o : FilledPolygon) (h : FilledPolygon.fromSexpr (.list (.str k!"filled_polygon" :: xs)) = .ok o) :
    CollectedAll (tok k!"pts") (fun i => do mapM' Position.fromSexpr (← i.slice 1)) xs o.coordinates := by
  rw [FilledPolygon.loopEq ] at h
  exact ((Track.folds (get := (·.coordinates)) (fun o x o' hs => (FilledPolygon.trackAll o x o' hs).2.2) h).drop rfl).collectedAll

/-- A repeated token with an unknown one in between. -/
example : (FilledPolygon.fromSexpr (.list [.str k!"filled_polygon", .list [.str k!"layer", .str k!"a"], .list [.str k!"zzz", .int 1], .list [.str k!"layer", .str k!"b"]])).map (·.layer) = .ok (.str k!"b") := rfl

theorem C36_FilledPolygon {xs ys : List Val} (hr : Reordered [] xs ys) (o : FilledPolygon) :
    FilledPolygon.fromSexpr (.list (.str k!"filled_polygon" :: xs)) = .ok o ↔ FilledPolygon.fromSexpr (.list (.str k!"filled_polygon" :: ys)) = .ok o := by
  rw [FilledPolygon.loopEq , FilledPolygon.loopEq ]
  exact reordered_iff FilledPolygon.indep FilledPolygon.reordered (hr.cons _) o
example := C36_FilledPolygon (.swap [] [] [.int 1] [.int 2] k!"layer" k!"island" (by decide) (by decide))

theorem C10_FilledPolygon (xs ys : List Val) {u : Val} {r : List Val}
    (hu : ∀ k ∈ [k!"layer", k!"island", k!"pts"], u ≠ .str k) :
    FilledPolygon.fromSexpr (.list (.str k!"filled_polygon" :: (xs ++ .list (u :: r) :: ys))) =
    FilledPolygon.fromSexpr (.list (.str k!"filled_polygon" :: (xs ++ ys))) := by
  rw [FilledPolygon.loopEq , FilledPolygon.loopEq ]
  exact forM_insert (FilledPolygon.unknown hu) _ (.str k!"filled_polygon" :: xs) ys
example := C10_FilledPolygon [.list [.str k!"layer", .int 1]] [] (u := .str k!"zzz") (r := [.int 1]) (by simp)

theorem C37_FillSegments (xs : List Val) (o : FillSegments) (h : FillSegments.fromSexpr (.list (.str k!"fill_segments" :: xs)) = .ok o) :
    LastWins (tok k!"layer") (·.idx 1) xs (st k!"F.Cu" : Val) o.layer := by
  rw [FillSegments.loopEq ] at h
  exact ((Track.folds (get := (·.layer)) (fun o x o' hs => (FillSegments.trackAll o x o' hs).1) h).drop rfl).last
example := C37_FillSegments [.list [.str k!"layer", .str k!"a"]] _ rfl

theorem C11_FillSegments (xs : List Val) (o : FillSegments) (h : FillSegments.fromSexpr (.list (.str k!"fill_segments" :: xs)) = .ok o) :
    CollectedAll (tok k!"pts") (fun i => do mapM' Position.fromSexpr (← i.slice 1)) xs o.coordinates := by
  rw [FillSegments.loopEq ] at h
  exact ((Track.folds (get := (·.coordinates)) (fun o x o' hs => (FillSegments.trackAll o x o' hs).2) h).drop rfl).collectedAll

/-- A repeated token with an unknown one in between. -/
example : (FillSegments.fromSexpr (.list [.str k!"fill_segments", .list [.str k!"layer", .str k!"a"], .list [.str k!"zzz", .int 1], .list [.str k!"layer", .str k!"b"]])).map (·.layer) = .ok (.str k!"b") := rfl

theorem C36_FillSegments {xs ys : List Val} (hr : Reordered [] xs ys) (o : FillSegments) :
    FillSegments.fromSexpr (.list (.str k!"fill_segments" :: xs)) = .ok o ↔ FillSegments.fromSexpr (.list (.str k!"fill_segments" :: ys)) = .ok o := by
  rw [FillSegments.loopEq , FillSegments.loopEq ]
  exact reordered_iff FillSegments.indep FillSegments.reordered (hr.cons _) o
example := C36_FillSegments (.swap [] [] [.int 1] [.int 2] k!"layer" k!"pts" (by decide) (by decide))

theorem C10_FillSegments (xs ys : List Val) {u : Val} {r : List Val}
    (hu : ∀ k ∈ [k!"layer", k!"pts"], u ≠ .str k) :
    FillSegments.fromSexpr (.list (.str k!"fill_segments" :: (xs ++ .list (u :: r) :: ys))) =
    FillSegments.fromSexpr (.list (.str k!"fill_segments" :: (xs ++ ys))) := by
  rw [FillSegments.loopEq , FillSegments.loopEq ]
  exact forM_insert (FillSegments.unknown hu) _ (.str k!"fill_segments" :: xs) ys
example := C10_FillSegments [.list [.str k!"layer", .int 1]] [] (u := .str k!"zzz") (r := [.int 1]) (by simp)

theorem C37_Zone (xs : List Val) (o : Zone) (h : Zone.fromSexpr (.list (.str k!"zone" :: xs)) = .ok o) :
    o.locked = xs.any (wordIn [k!"locked"]) ∧
    LastWins (tok k!"net") (·.idx 1) xs (.int 0 : Val) o.net ∧
    LastWins (tok k!"net_name") (·.idx 1) xs (st k!"unknown" : Val) o.netName ∧
    LastWins (tok k!"tstamp") (fun i => do return some (← i.idx 1)) xs (none : Option Val) o.tstamp ∧
    LastWins (tok k!"name") (fun i => do return some (← i.idx 1)) xs (none : Option Val) o.name ∧
    LastWins (tok k!"hatch") (fun i => do return { style := ← i.idx 1, pitch := ← i.idx 2 }) xs ({} : Hatch) o.hatch ∧
    LastWins (tok k!"priority") (fun i => do return some (← i.idx 1)) xs (none : Option Val) o.priority ∧
    FoldsTo (tok k!"connect_pads") (fun acc i => do if (← i.len) == 2 then return acc else return some (← i.idx 1)) xs (none : Option Val) o.connectPads ∧
    LastWins (tok k!"connect_pads") (fun i => do if (← i.len) == 2 then (← i.idx 1).idx 1 else (← i.idx 2).idx 1) xs (fl k!"0" k!"254" : Val) o.clearance ∧
    LastWins (tok k!"min_thickness") (·.idx 1) xs (fl k!"0" k!"254" : Val) o.minThickness ∧
    LastWins (tok k!"filled_areas_thickness") (fun i => do return some (← i.idx 1)) xs (none : Option Val) o.filledAreasThickness ∧
    LastWins (tok k!"keepout") (fun i => do return some (← KeepoutSettings.fromSexpr i)) xs (none : Option KeepoutSettings) o.keepoutSettings ∧
    LastWins (tok k!"fill") (fun i => do return some (← FillSettings.fromSexpr i)) xs (none : Option FillSettings) o.fillSettings ∧
    LastWins (tok k!"fill_segments") (fun i => do return some (← FillSegments.fromSexpr i)) xs (none : Option FillSegments) o.fillSegments := by
  rw [Zone.loopEq ] at h
  exact ⟨((Track.folds (get := (·.locked)) (fun o x o' hs => (Zone.trackAll o x o' hs).1) h).drop rfl).flag,
    ((Track.folds (get := (·.net)) (fun o x o' hs => (Zone.trackAll o x o' hs).2.1) h).drop rfl).last,
    ((Track.folds (get := (·.netName)) (fun o x o' hs => (Zone.trackAll o x o' hs).2.2.1) h).drop rfl).last,
    ((Track.folds (get := (·.tstamp)) (fun o x o' hs => (Zone.trackAll o x o' hs).2.2.2.2.1) h).drop rfl).last,
    ((Track.folds (get := (·.name)) (fun o x o' hs => (Zone.trackAll o x o' hs).2.2.2.2.2.1) h).drop rfl).last,
    ((Track.folds (get := (·.hatch)) (fun o x o' hs => (Zone.trackAll o x o' hs).2.2.2.2.2.2.1) h).drop rfl).last,
    ((Track.folds (get := (·.priority)) (fun o x o' hs => (Zone.trackAll o x o' hs).2.2.2.2.2.2.2.1) h).drop rfl).last,
    ((Track.folds (get := (·.connectPads)) (fun o x o' hs => (Zone.trackAll o x o' hs).2.2.2.2.2.2.2.2.1) h).drop rfl),
    ((Track.folds (get := (·.clearance)) (fun o x o' hs => (Zone.trackAll o x o' hs).2.2.2.2.2.2.2.2.2.1) h).drop rfl).last,
    ((Track.folds (get := (·.minThickness)) (fun o x o' hs => (Zone.trackAll o x o' hs).2.2.2.2.2.2.2.2.2.2.1) h).drop rfl).last,
    ((Track.folds (get := (·.filledAreasThickness)) (fun o x o' hs => (Zone.trackAll o x o' hs).2.2.2.2.2.2.2.2.2.2.2.1) h).drop rfl).last,
    ((Track.folds (get := (·.keepoutSettings)) (fun o x o' hs => (Zone.trackAll o x o' hs).2.2.2.2.2.2.2.2.2.2.2.2.1) h).drop rfl).last,
    ((Track.folds (get := (·.fillSettings)) (fun o x o' hs => (Zone.trackAll o x o' hs).2.2.2.2.2.2.2.2.2.2.2.2.2.1) h).drop rfl).last,
    ((Track.folds (get := (·.fillSegments)) (fun o x o' hs => (Zone.trackAll o x o' hs).2.2.2.2.2.2.2.2.2.2.2.2.2.2.2.2) h).drop rfl).last⟩
example := C37_Zone [.list [.str k!"net", .str k!"a"], .str k!"locked"] _ rfl

theorem C11_Zone (xs : List Val) (o : Zone) (h : Zone.fromSexpr (.list (.str k!"zone" :: xs)) = .ok o) :
    CollectedAll (tokIn [k!"layers", k!"layer"]) (·.slice 1) xs o.layers ∧
    Collected (tok k!"polygon") ZonePolygon.fromSexpr xs o.polygons ∧
    Collected (tok k!"filled_polygon") FilledPolygon.fromSexpr xs o.filledPolygons := by
  rw [Zone.loopEq ] at h
  exact ⟨((Track.folds (get := (·.layers)) (fun o x o' hs => (Zone.trackAll o x o' hs).2.2.2.1) h).drop rfl).collectedAll,
    ((Track.folds (get := (·.polygons)) (fun o x o' hs => (Zone.trackAll o x o' hs).2.2.2.2.2.2.2.2.2.2.2.2.2.2.1) h).drop rfl).collected,
    ((Track.folds (get := (·.filledPolygons)) (fun o x o' hs => (Zone.trackAll o x o' hs).2.2.2.2.2.2.2.2.2.2.2.2.2.2.2.1) h).drop rfl).collected⟩

/-- A repeated token with an unknown one in between. -/
example : (Zone.fromSexpr (.list [.str k!"zone", .list [.str k!"net", .str k!"a"], .list [.str k!"zzz", .int 1], .list [.str k!"net", .str k!"b"]])).map (·.net) = .ok (.str k!"b") := rfl

theorem C36_Zone {xs ys : List Val} (hr : Reordered [[k!"layers", k!"layer"]] xs ys) (o : Zone) :
    Zone.fromSexpr (.list (.str k!"zone" :: xs)) = .ok o ↔ Zone.fromSexpr (.list (.str k!"zone" :: ys)) = .ok o := by
  rw [Zone.loopEq , Zone.loopEq ]
  exact reordered_iff Zone.indep Zone.reordered (hr.cons _) o
example := C36_Zone (.swap [] [] [.int 1] [.int 2] k!"net" k!"net_name" (by decide) (by decide))

theorem C10_Zone (xs ys : List Val) {u : Val} {r : List Val}
    (hu : ∀ k ∈ [k!"net", k!"net_name", k!"layers", k!"layer", k!"tstamp", k!"name", k!"hatch", k!"priority", k!"connect_pads", k!"min_thickness", k!"filled_areas_thickness", k!"keepout", k!"fill", k!"polygon", k!"filled_polygon", k!"fill_segments"], u ≠ .str k) :
    Zone.fromSexpr (.list (.str k!"zone" :: (xs ++ .list (u :: r) :: ys))) =
    Zone.fromSexpr (.list (.str k!"zone" :: (xs ++ ys))) := by
  rw [Zone.loopEq , Zone.loopEq ]
  exact forM_insert (Zone.unknown hu) _ (.str k!"zone" :: xs) ys
example := C10_Zone [.list [.str k!"net", .int 1]] [] (u := .str k!"zzz") (r := [.int 1]) (by simp)

end Kiutils
