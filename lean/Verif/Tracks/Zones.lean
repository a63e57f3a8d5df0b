import Verif.Tokens
import Verif.Model.Zones
/-!
# Loop bodies of `from_sexpr` item by item: Zones
-/
namespace Kiutils

theorem KeepoutSettings.trackAll (o : KeepoutSettings) (x : Val) : Post (KeepoutSettings.step o x) fun o' =>
    Track (tok k!"tracks") (fun _ => (·.idx 1)) x o.tracks o'.tracks ∧
    Track (tok k!"vias") (fun _ => (·.idx 1)) x o.vias o'.vias ∧
    Track (tok k!"pads") (fun _ => (·.idx 1)) x o.pads o'.pads ∧
    Track (tok k!"copperpour") (fun _ => (·.idx 1)) x o.copperpour o'.copperpour ∧
    Track (tok k!"footprints") (fun _ => (·.idx 1)) x o.footprints o'.footprints := by
  unfold KeepoutSettings.step
  cases x <;> trackBoth

theorem KeepoutSettings.indep (o o' : KeepoutSettings) (x : Val) : Same (KeepoutSettings.step o x) (KeepoutSettings.step o' x) := by
  unfold KeepoutSettings.step
  cases x <;> same

theorem KeepoutSettings.unknown {h : Val} {r : List Val} (hu : ∀ k ∈ [k!"tracks", k!"vias", k!"pads", k!"copperpour", k!"footprints"], h ≠ .str k) (o : KeepoutSettings) :
    KeepoutSettings.step o (.list (h :: r)) = .ok o := by
  unfold KeepoutSettings.step
  unknownHead hu

theorem KeepoutSettings.reordered {o a b : KeepoutSettings} {xs ys : List Val} (hr : Reordered [] xs ys) (ha : forM KeepoutSettings.step o xs = .ok a)
    (hb : forM KeepoutSettings.step o ys = .ok b) : a = b := by
  have f0 : a.tracks = b.tracks := (Track.folds (get := (·.tracks)) (fun o x o' hs => (KeepoutSettings.trackAll o x o' hs).1) ha).unique
    (Track.folds (get := (·.tracks)) (fun o x o' hs => (KeepoutSettings.trackAll o x o' hs).1) hb) (hr.tokens _)
  have f1 : a.vias = b.vias := (Track.folds (get := (·.vias)) (fun o x o' hs => (KeepoutSettings.trackAll o x o' hs).2.1) ha).unique
    (Track.folds (get := (·.vias)) (fun o x o' hs => (KeepoutSettings.trackAll o x o' hs).2.1) hb) (hr.tokens _)
  have f2 : a.pads = b.pads := (Track.folds (get := (·.pads)) (fun o x o' hs => (KeepoutSettings.trackAll o x o' hs).2.2.1) ha).unique
    (Track.folds (get := (·.pads)) (fun o x o' hs => (KeepoutSettings.trackAll o x o' hs).2.2.1) hb) (hr.tokens _)
  have f3 : a.copperpour = b.copperpour := (Track.folds (get := (·.copperpour)) (fun o x o' hs => (KeepoutSettings.trackAll o x o' hs).2.2.2.1) ha).unique
    (Track.folds (get := (·.copperpour)) (fun o x o' hs => (KeepoutSettings.trackAll o x o' hs).2.2.2.1) hb) (hr.tokens _)
  have f4 : a.footprints = b.footprints := (Track.folds (get := (·.footprints)) (fun o x o' hs => (KeepoutSettings.trackAll o x o' hs).2.2.2.2) ha).unique
    (Track.folds (get := (·.footprints)) (fun o x o' hs => (KeepoutSettings.trackAll o x o' hs).2.2.2.2) hb) (hr.tokens _)
  show KeepoutSettings.mk a.tracks a.vias a.pads a.copperpour a.footprints =
    KeepoutSettings.mk b.tracks b.vias b.pads b.copperpour b.footprints
  rw [f0, f1, f2, f3, f4]

theorem KeepoutSettings.loopEq (xs : List Val) :
    KeepoutSettings.fromSexpr (.list (.str k!"keepout" :: xs)) = forM KeepoutSettings.step {} (.str k!"keepout" :: xs) :=
  rfl

theorem FillSettings.trackAll (o : FillSettings) (x : Val) : Post (FillSettings.step o x) fun o' =>
    Track (wordIn [k!"yes"]) (fun _ _ => .ok true) x o.yes o'.yes ∧
    Track (tok k!"mode") (fun _ => fun i => do return some (← i.idx 1)) x o.mode o'.mode ∧
    Track (tok k!"thermal_gap") (fun _ => fun i => do return some (← i.idx 1)) x o.thermalGap o'.thermalGap ∧
    Track (tok k!"thermal_bridge_width") (fun _ => fun i => do return some (← i.idx 1)) x o.thermalBridgeWidth o'.thermalBridgeWidth ∧
    Track (tok k!"smoothing") (fun _ => fun i => do return some (← i.idx 1)) x o.smoothingStyle o'.smoothingStyle ∧
    Track (tok k!"radius") (fun _ => fun i => do return some (← i.idx 1)) x o.smoothingRadius o'.smoothingRadius ∧
    Track (tok k!"island_removal_mode") (fun _ => fun i => do return some (← i.idx 1)) x o.islandRemovalMode o'.islandRemovalMode ∧
    Track (tok k!"island_area_min") (fun _ => fun i => do return some (← i.idx 1)) x o.islandAreaMin o'.islandAreaMin ∧
    Track (tok k!"hatch_thickness") (fun _ => fun i => do return some (← i.idx 1)) x o.hatchThickness o'.hatchThickness ∧
    Track (tok k!"hatch_gap") (fun _ => fun i => do return some (← i.idx 1)) x o.hatchGap o'.hatchGap ∧
    Track (tok k!"hatch_orientation") (fun _ => fun i => do return some (← i.idx 1)) x o.hatchOrientation o'.hatchOrientation ∧
    Track (tok k!"hatch_smoothing_level") (fun _ => fun i => do return some (← i.idx 1)) x o.hatchSmoothingLevel o'.hatchSmoothingLevel ∧
    Track (tok k!"hatch_smoothing_value") (fun _ => fun i => do return some (← i.idx 1)) x o.hatchSmoothingValue o'.hatchSmoothingValue ∧
    Track (tok k!"hatch_border_algorithm") (fun _ => fun i => do return some (← i.idx 1)) x o.hatchBorderAlgorithm o'.hatchBorderAlgorithm ∧
    Track (tok k!"hatch_min_hole_area") (fun _ => fun i => do return some (← i.idx 1)) x o.hatchMinHoleArea o'.hatchMinHoleArea := by
  unfold FillSettings.step
  cases x <;> trackBoth

theorem FillSettings.indep (o o' : FillSettings) (x : Val) : Same (FillSettings.step o x) (FillSettings.step o' x) := by
  unfold FillSettings.step
  cases x <;> same

theorem FillSettings.unknown {h : Val} {r : List Val} (hu : ∀ k ∈ [k!"mode", k!"thermal_gap", k!"thermal_bridge_width", k!"smoothing", k!"radius", k!"island_removal_mode", k!"island_area_min", k!"hatch_thickness", k!"hatch_gap", k!"hatch_orientation", k!"hatch_smoothing_level", k!"hatch_smoothing_value", k!"hatch_border_algorithm", k!"hatch_min_hole_area"], h ≠ .str k) (o : FillSettings) :
    FillSettings.step o (.list (h :: r)) = .ok o := by
  unfold FillSettings.step
  unknownHead hu

theorem FillSettings.reordered {o a b : FillSettings} {xs ys : List Val} (hr : Reordered [] xs ys) (ha : forM FillSettings.step o xs = .ok a)
    (hb : forM FillSettings.step o ys = .ok b) : a = b := by
  have f0 : a.yes = b.yes := (Track.folds (get := (·.yes)) (fun o x o' hs => (FillSettings.trackAll o x o' hs).1) ha).unique
    (Track.folds (get := (·.yes)) (fun o x o' hs => (FillSettings.trackAll o x o' hs).1) hb) (hr.word _)
  have f1 : a.mode = b.mode := (Track.folds (get := (·.mode)) (fun o x o' hs => (FillSettings.trackAll o x o' hs).2.1) ha).unique
    (Track.folds (get := (·.mode)) (fun o x o' hs => (FillSettings.trackAll o x o' hs).2.1) hb) (hr.tokens _)
  have f2 : a.thermalGap = b.thermalGap := (Track.folds (get := (·.thermalGap)) (fun o x o' hs => (FillSettings.trackAll o x o' hs).2.2.1) ha).unique
    (Track.folds (get := (·.thermalGap)) (fun o x o' hs => (FillSettings.trackAll o x o' hs).2.2.1) hb) (hr.tokens _)
  have f3 : a.thermalBridgeWidth = b.thermalBridgeWidth := (Track.folds (get := (·.thermalBridgeWidth)) (fun o x o' hs => (FillSettings.trackAll o x o' hs).2.2.2.1) ha).unique
    (Track.folds (get := (·.thermalBridgeWidth)) (fun o x o' hs => (FillSettings.trackAll o x o' hs).2.2.2.1) hb) (hr.tokens _)
  have f4 : a.smoothingStyle = b.smoothingStyle := (Track.folds (get := (·.smoothingStyle)) (fun o x o' hs => (FillSettings.trackAll o x o' hs).2.2.2.2.1) ha).unique
    (Track.folds (get := (·.smoothingStyle)) (fun o x o' hs => (FillSettings.trackAll o x o' hs).2.2.2.2.1) hb) (hr.tokens _)
  have f5 : a.smoothingRadius = b.smoothingRadius := (Track.folds (get := (·.smoothingRadius)) (fun o x o' hs => (FillSettings.trackAll o x o' hs).2.2.2.2.2.1) ha).unique
    (Track.folds (get := (·.smoothingRadius)) (fun o x o' hs => (FillSettings.trackAll o x o' hs).2.2.2.2.2.1) hb) (hr.tokens _)
  have f6 : a.islandRemovalMode = b.islandRemovalMode := (Track.folds (get := (·.islandRemovalMode)) (fun o x o' hs => (FillSettings.trackAll o x o' hs).2.2.2.2.2.2.1) ha).unique
    (Track.folds (get := (·.islandRemovalMode)) (fun o x o' hs => (FillSettings.trackAll o x o' hs).2.2.2.2.2.2.1) hb) (hr.tokens _)
  have f7 : a.islandAreaMin = b.islandAreaMin := (Track.folds (get := (·.islandAreaMin)) (fun o x o' hs => (FillSettings.trackAll o x o' hs).2.2.2.2.2.2.2.1) ha).unique
    (Track.folds (get := (·.islandAreaMin)) (fun o x o' hs => (FillSettings.trackAll o x o' hs).2.2.2.2.2.2.2.1) hb) (hr.tokens _)
  have f8 : a.hatchThickness = b.hatchThickness := (Track.folds (get := (·.hatchThickness)) (fun o x o' hs => (FillSettings.trackAll o x o' hs).2.2.2.2.2.2.2.2.1) ha).unique
    (Track.folds (get := (·.hatchThickness)) (fun o x o' hs => (FillSettings.trackAll o x o' hs).2.2.2.2.2.2.2.2.1) hb) (hr.tokens _)
  have f9 : a.hatchGap = b.hatchGap := (Track.folds (get := (·.hatchGap)) (fun o x o' hs => (FillSettings.trackAll o x o' hs).2.2.2.2.2.2.2.2.2.1) ha).unique
    (Track.folds (get := (·.hatchGap)) (fun o x o' hs => (FillSettings.trackAll o x o' hs).2.2.2.2.2.2.2.2.2.1) hb) (hr.tokens _)
  have f10 : a.hatchOrientation = b.hatchOrientation := (Track.folds (get := (·.hatchOrientation)) (fun o x o' hs => (FillSettings.trackAll o x o' hs).2.2.2.2.2.2.2.2.2.2.1) ha).unique
    (Track.folds (get := (·.hatchOrientation)) (fun o x o' hs => (FillSettings.trackAll o x o' hs).2.2.2.2.2.2.2.2.2.2.1) hb) (hr.tokens _)
  have f11 : a.hatchSmoothingLevel = b.hatchSmoothingLevel := (Track.folds (get := (·.hatchSmoothingLevel)) (fun o x o' hs => (FillSettings.trackAll o x o' hs).2.2.2.2.2.2.2.2.2.2.2.1) ha).unique
    (Track.folds (get := (·.hatchSmoothingLevel)) (fun o x o' hs => (FillSettings.trackAll o x o' hs).2.2.2.2.2.2.2.2.2.2.2.1) hb) (hr.tokens _)
  have f12 : a.hatchSmoothingValue = b.hatchSmoothingValue := (Track.folds (get := (·.hatchSmoothingValue)) (fun o x o' hs => (FillSettings.trackAll o x o' hs).2.2.2.2.2.2.2.2.2.2.2.2.1) ha).unique
    (Track.folds (get := (·.hatchSmoothingValue)) (fun o x o' hs => (FillSettings.trackAll o x o' hs).2.2.2.2.2.2.2.2.2.2.2.2.1) hb) (hr.tokens _)
  have f13 : a.hatchBorderAlgorithm = b.hatchBorderAlgorithm := (Track.folds (get := (·.hatchBorderAlgorithm)) (fun o x o' hs => (FillSettings.trackAll o x o' hs).2.2.2.2.2.2.2.2.2.2.2.2.2.1) ha).unique
    (Track.folds (get := (·.hatchBorderAlgorithm)) (fun o x o' hs => (FillSettings.trackAll o x o' hs).2.2.2.2.2.2.2.2.2.2.2.2.2.1) hb) (hr.tokens _)
  have f14 : a.hatchMinHoleArea = b.hatchMinHoleArea := (Track.folds (get := (·.hatchMinHoleArea)) (fun o x o' hs => (FillSettings.trackAll o x o' hs).2.2.2.2.2.2.2.2.2.2.2.2.2.2) ha).unique
    (Track.folds (get := (·.hatchMinHoleArea)) (fun o x o' hs => (FillSettings.trackAll o x o' hs).2.2.2.2.2.2.2.2.2.2.2.2.2.2) hb) (hr.tokens _)
  show FillSettings.mk a.yes a.mode a.thermalGap a.thermalBridgeWidth a.smoothingStyle a.smoothingRadius a.islandRemovalMode a.islandAreaMin a.hatchThickness a.hatchGap a.hatchOrientation a.hatchSmoothingLevel a.hatchSmoothingValue a.hatchBorderAlgorithm a.hatchMinHoleArea =
    FillSettings.mk b.yes b.mode b.thermalGap b.thermalBridgeWidth b.smoothingStyle b.smoothingRadius b.islandRemovalMode b.islandAreaMin b.hatchThickness b.hatchGap b.hatchOrientation b.hatchSmoothingLevel b.hatchSmoothingValue b.hatchBorderAlgorithm b.hatchMinHoleArea
  rw [f0, f1, f2, f3, f4, f5, f6, f7, f8, f9, f10, f11, f12, f13, f14]

theorem FillSettings.loopEq (xs : List Val) :
    FillSettings.fromSexpr (.list (.str k!"fill" :: xs)) = forM FillSettings.step {} (.str k!"fill" :: xs) :=
  rfl

theorem ZonePolygon.trackAll (o : ZonePolygon) (x : Val) : Post (ZonePolygon.step o x) fun o' =>
    Track (tok k!"pts") (fun l i => do return l ++ (← (fun i => do mapM' Position.fromSexpr (← i.slice 1)) i)) x o.coordinates o'.coordinates := by
  unfold ZonePolygon.step
  cases x <;> trackBoth

theorem ZonePolygon.indep (o o' : ZonePolygon) (x : Val) : Same (ZonePolygon.step o x) (ZonePolygon.step o' x) := by
  unfold ZonePolygon.step
  cases x <;> same

theorem ZonePolygon.unknown {h : Val} {r : List Val} (hu : ∀ k ∈ [k!"pts"], h ≠ .str k) (o : ZonePolygon) :
    ZonePolygon.step o (.list (h :: r)) = .ok o := by
  unfold ZonePolygon.step
  unknownHead hu

theorem ZonePolygon.reordered {o a b : ZonePolygon} {xs ys : List Val} (hr : Reordered [] xs ys) (ha : forM ZonePolygon.step o xs = .ok a)
    (hb : forM ZonePolygon.step o ys = .ok b) : a = b := by
  have f0 : a.coordinates = b.coordinates := (Track.folds (get := (·.coordinates)) (fun o x o' hs => (ZonePolygon.trackAll o x o' hs)) ha).unique
    (Track.folds (get := (·.coordinates)) (fun o x o' hs => (ZonePolygon.trackAll o x o' hs)) hb) (hr.tokens _)
  show ZonePolygon.mk a.coordinates =
    ZonePolygon.mk b.coordinates
  rw [f0]

theorem ZonePolygon.loopEq (xs : List Val) :
    ZonePolygon.fromSexpr (.list (.str k!"polygon" :: xs)) = forM ZonePolygon.step {} (.str k!"polygon" :: xs) :=
  rfl

theorem FilledPolygon.trackAll (o : FilledPolygon) (x : Val) : Post (FilledPolygon.step o x) fun o' =>
    Track (tok k!"layer") (fun _ => (·.idx 1)) x o.layer o'.layer ∧
    Track (tok k!"island") (fun _ _ => .ok true) x o.island o'.island ∧
    Track (tok k!"pts") (fun l i => do return l ++ (← (fun i => do mapM' Position.fromSexpr (← i.slice 1)) i)) x o.coordinates o'.coordinates := by
  unfold FilledPolygon.step
  cases x <;> trackBoth

theorem FilledPolygon.indep (o o' : FilledPolygon) (x : Val) : Same (FilledPolygon.step o x) (FilledPolygon.step o' x) := by
  unfold FilledPolygon.step
  cases x <;> same

theorem FilledPolygon.unknown {h : Val} {r : List Val} (hu : ∀ k ∈ [k!"layer", k!"island", k!"pts"], h ≠ .str k) (o : FilledPolygon) :
    FilledPolygon.step o (.list (h :: r)) = .ok o := by
  unfold FilledPolygon.step
  unknownHead hu

theorem FilledPolygon.reordered {o a b : FilledPolygon} {xs ys : List Val} (hr : Reordered [] xs ys) (ha : forM FilledPolygon.step o xs = .ok a)
    (hb : forM FilledPolygon.step o ys = .ok b) : a = b := by
  have f0 : a.layer = b.layer := (Track.folds (get := (·.layer)) (fun o x o' hs => (FilledPolygon.trackAll o x o' hs).1) ha).unique
    (Track.folds (get := (·.layer)) (fun o x o' hs => (FilledPolygon.trackAll o x o' hs).1) hb) (hr.tokens _)
  have f1 : a.island = b.island := (Track.folds (get := (·.island)) (fun o x o' hs => (FilledPolygon.trackAll o x o' hs).2.1) ha).unique
    (Track.folds (get := (·.island)) (fun o x o' hs => (FilledPolygon.trackAll o x o' hs).2.1) hb) (hr.tokens _)
  have f2 : a.coordinates = b.coordinates := (Track.folds (get := (·.coordinates)) (fun o x o' hs => (FilledPolygon.trackAll o x o' hs).2.2) ha).unique
    (Track.folds (get := (·.coordinates)) (fun o x o' hs => (FilledPolygon.trackAll o x o' hs).2.2) hb) (hr.tokens _)
  show FilledPolygon.mk a.layer a.island a.coordinates =
    FilledPolygon.mk b.layer b.island b.coordinates
  rw [f0, f1, f2]

theorem FilledPolygon.loopEq (xs : List Val) :
    FilledPolygon.fromSexpr (.list (.str k!"filled_polygon" :: xs)) = forM FilledPolygon.step {} (.str k!"filled_polygon" :: xs) :=
  rfl

theorem FillSegments.trackAll (o : FillSegments) (x : Val) : Post (FillSegments.step o x) fun o' =>
    Track (tok k!"layer") (fun _ => (·.idx 1)) x o.layer o'.layer ∧
    Track (tok k!"pts") (fun l i => do return l ++ (← (fun i => do mapM' Position.fromSexpr (← i.slice 1)) i)) x o.coordinates o'.coordinates := by
  unfold FillSegments.step
  cases x <;> trackBoth

theorem FillSegments.indep (o o' : FillSegments) (x : Val) : Same (FillSegments.step o x) (FillSegments.step o' x) := by
  unfold FillSegments.step
  cases x <;> same

theorem FillSegments.unknown {h : Val} {r : List Val} (hu : ∀ k ∈ [k!"layer", k!"pts"], h ≠ .str k) (o : FillSegments) :
    FillSegments.step o (.list (h :: r)) = .ok o := by
  unfold FillSegments.step
  unknownHead hu

theorem FillSegments.reordered {o a b : FillSegments} {xs ys : List Val} (hr : Reordered [] xs ys) (ha : forM FillSegments.step o xs = .ok a)
    (hb : forM FillSegments.step o ys = .ok b) : a = b := by
  have f0 : a.layer = b.layer := (Track.folds (get := (·.layer)) (fun o x o' hs => (FillSegments.trackAll o x o' hs).1) ha).unique
    (Track.folds (get := (·.layer)) (fun o x o' hs => (FillSegments.trackAll o x o' hs).1) hb) (hr.tokens _)
  have f1 : a.coordinates = b.coordinates := (Track.folds (get := (·.coordinates)) (fun o x o' hs => (FillSegments.trackAll o x o' hs).2) ha).unique
    (Track.folds (get := (·.coordinates)) (fun o x o' hs => (FillSegments.trackAll o x o' hs).2) hb) (hr.tokens _)
  show FillSegments.mk a.layer a.coordinates =
    FillSegments.mk b.layer b.coordinates
  rw [f0, f1]

theorem FillSegments.loopEq (xs : List Val) :
    FillSegments.fromSexpr (.list (.str k!"fill_segments" :: xs)) = forM FillSegments.step {} (.str k!"fill_segments" :: xs) :=
  rfl

theorem Zone.trackAll (o : Zone) (x : Val) : Post (Zone.step o x) fun o' =>
    Track (wordIn [k!"locked"]) (fun _ _ => .ok true) x o.locked o'.locked ∧
    Track (tok k!"net") (fun _ => (·.idx 1)) x o.net o'.net ∧
    Track (tok k!"net_name") (fun _ => (·.idx 1)) x o.netName o'.netName ∧
    Track (tokIn [k!"layers", k!"layer"]) (fun l i => do return l ++ (← (·.slice 1) i)) x o.layers o'.layers ∧
    Track (tok k!"tstamp") (fun _ => fun i => do return some (← i.idx 1)) x o.tstamp o'.tstamp ∧
    Track (tok k!"name") (fun _ => fun i => do return some (← i.idx 1)) x o.name o'.name ∧
    Track (tok k!"hatch") (fun _ => fun i => do return { style := ← i.idx 1, pitch := ← i.idx 2 }) x o.hatch o'.hatch ∧
    Track (tok k!"priority") (fun _ => fun i => do return some (← i.idx 1)) x o.priority o'.priority ∧
    Track (tok k!"connect_pads") (fun acc i => do if (← i.len) == 2 then return acc else return some (← i.idx 1)) x o.connectPads o'.connectPads ∧
    Track (tok k!"connect_pads") (fun _ => fun i => do if (← i.len) == 2 then (← i.idx 1).idx 1 else (← i.idx 2).idx 1) x o.clearance o'.clearance ∧
    Track (tok k!"min_thickness") (fun _ => (·.idx 1)) x o.minThickness o'.minThickness ∧
    Track (tok k!"filled_areas_thickness") (fun _ => fun i => do return some (← i.idx 1)) x o.filledAreasThickness o'.filledAreasThickness ∧
    Track (tok k!"keepout") (fun _ => fun i => do return some (← KeepoutSettings.fromSexpr i)) x o.keepoutSettings o'.keepoutSettings ∧
    Track (tok k!"fill") (fun _ => fun i => do return some (← FillSettings.fromSexpr i)) x o.fillSettings o'.fillSettings ∧
    Track (tok k!"polygon") (fun l i => do return l ++ [← ZonePolygon.fromSexpr i]) x o.polygons o'.polygons ∧
    Track (tok k!"filled_polygon") (fun l i => do return l ++ [← FilledPolygon.fromSexpr i]) x o.filledPolygons o'.filledPolygons ∧
    Track (tok k!"fill_segments") (fun _ => fun i => do return some (← FillSegments.fromSexpr i)) x o.fillSegments o'.fillSegments := by
  unfold Zone.step
  cases x <;> trackBoth

theorem Zone.indep (o o' : Zone) (x : Val) : Same (Zone.step o x) (Zone.step o' x) := by
  unfold Zone.step
  cases x <;> same

theorem Zone.unknown {h : Val} {r : List Val} (hu : ∀ k ∈ [k!"net", k!"net_name", k!"layers", k!"layer", k!"tstamp", k!"name", k!"hatch", k!"priority", k!"connect_pads", k!"min_thickness", k!"filled_areas_thickness", k!"keepout", k!"fill", k!"polygon", k!"filled_polygon", k!"fill_segments"], h ≠ .str k) (o : Zone) :
    Zone.step o (.list (h :: r)) = .ok o := by
  unfold Zone.step
  unknownHead hu

theorem Zone.reordered {o a b : Zone} {xs ys : List Val} (hr : Reordered [[k!"layers", k!"layer"]] xs ys) (ha : forM Zone.step o xs = .ok a)
    (hb : forM Zone.step o ys = .ok b) : a = b := by
  have f0 : a.locked = b.locked := (Track.folds (get := (·.locked)) (fun o x o' hs => (Zone.trackAll o x o' hs).1) ha).unique
    (Track.folds (get := (·.locked)) (fun o x o' hs => (Zone.trackAll o x o' hs).1) hb) (hr.word _)
  have f1 : a.net = b.net := (Track.folds (get := (·.net)) (fun o x o' hs => (Zone.trackAll o x o' hs).2.1) ha).unique
    (Track.folds (get := (·.net)) (fun o x o' hs => (Zone.trackAll o x o' hs).2.1) hb) (hr.tokens _)
  have f2 : a.netName = b.netName := (Track.folds (get := (·.netName)) (fun o x o' hs => (Zone.trackAll o x o' hs).2.2.1) ha).unique
    (Track.folds (get := (·.netName)) (fun o x o' hs => (Zone.trackAll o x o' hs).2.2.1) hb) (hr.tokens _)
  have f3 : a.layers = b.layers := (Track.folds (get := (·.layers)) (fun o x o' hs => (Zone.trackAll o x o' hs).2.2.2.1) ha).unique
    (Track.folds (get := (·.layers)) (fun o x o' hs => (Zone.trackAll o x o' hs).2.2.2.1) hb) (hr.groups _ (by simp))
  have f4 : a.tstamp = b.tstamp := (Track.folds (get := (·.tstamp)) (fun o x o' hs => (Zone.trackAll o x o' hs).2.2.2.2.1) ha).unique
    (Track.folds (get := (·.tstamp)) (fun o x o' hs => (Zone.trackAll o x o' hs).2.2.2.2.1) hb) (hr.tokens _)
  have f5 : a.name = b.name := (Track.folds (get := (·.name)) (fun o x o' hs => (Zone.trackAll o x o' hs).2.2.2.2.2.1) ha).unique
    (Track.folds (get := (·.name)) (fun o x o' hs => (Zone.trackAll o x o' hs).2.2.2.2.2.1) hb) (hr.tokens _)
  have f6 : a.hatch = b.hatch := (Track.folds (get := (·.hatch)) (fun o x o' hs => (Zone.trackAll o x o' hs).2.2.2.2.2.2.1) ha).unique
    (Track.folds (get := (·.hatch)) (fun o x o' hs => (Zone.trackAll o x o' hs).2.2.2.2.2.2.1) hb) (hr.tokens _)
  have f7 : a.priority = b.priority := (Track.folds (get := (·.priority)) (fun o x o' hs => (Zone.trackAll o x o' hs).2.2.2.2.2.2.2.1) ha).unique
    (Track.folds (get := (·.priority)) (fun o x o' hs => (Zone.trackAll o x o' hs).2.2.2.2.2.2.2.1) hb) (hr.tokens _)
  have f8 : a.connectPads = b.connectPads := (Track.folds (get := (·.connectPads)) (fun o x o' hs => (Zone.trackAll o x o' hs).2.2.2.2.2.2.2.2.1) ha).unique
    (Track.folds (get := (·.connectPads)) (fun o x o' hs => (Zone.trackAll o x o' hs).2.2.2.2.2.2.2.2.1) hb) (hr.tokens _)
  have f9 : a.clearance = b.clearance := (Track.folds (get := (·.clearance)) (fun o x o' hs => (Zone.trackAll o x o' hs).2.2.2.2.2.2.2.2.2.1) ha).unique
    (Track.folds (get := (·.clearance)) (fun o x o' hs => (Zone.trackAll o x o' hs).2.2.2.2.2.2.2.2.2.1) hb) (hr.tokens _)
  have f10 : a.minThickness = b.minThickness := (Track.folds (get := (·.minThickness)) (fun o x o' hs => (Zone.trackAll o x o' hs).2.2.2.2.2.2.2.2.2.2.1) ha).unique
    (Track.folds (get := (·.minThickness)) (fun o x o' hs => (Zone.trackAll o x o' hs).2.2.2.2.2.2.2.2.2.2.1) hb) (hr.tokens _)
  have f11 : a.filledAreasThickness = b.filledAreasThickness := (Track.folds (get := (·.filledAreasThickness)) (fun o x o' hs => (Zone.trackAll o x o' hs).2.2.2.2.2.2.2.2.2.2.2.1) ha).unique
    (Track.folds (get := (·.filledAreasThickness)) (fun o x o' hs => (Zone.trackAll o x o' hs).2.2.2.2.2.2.2.2.2.2.2.1) hb) (hr.tokens _)
  have f12 : a.keepoutSettings = b.keepoutSettings := (Track.folds (get := (·.keepoutSettings)) (fun o x o' hs => (Zone.trackAll o x o' hs).2.2.2.2.2.2.2.2.2.2.2.2.1) ha).unique
    (Track.folds (get := (·.keepoutSettings)) (fun o x o' hs => (Zone.trackAll o x o' hs).2.2.2.2.2.2.2.2.2.2.2.2.1) hb) (hr.tokens _)
  have f13 : a.fillSettings = b.fillSettings := (Track.folds (get := (·.fillSettings)) (fun o x o' hs => (Zone.trackAll o x o' hs).2.2.2.2.2.2.2.2.2.2.2.2.2.1) ha).unique
    (Track.folds (get := (·.fillSettings)) (fun o x o' hs => (Zone.trackAll o x o' hs).2.2.2.2.2.2.2.2.2.2.2.2.2.1) hb) (hr.tokens _)
  have f14 : a.polygons = b.polygons := (Track.folds (get := (·.polygons)) (fun o x o' hs => (Zone.trackAll o x o' hs).2.2.2.2.2.2.2.2.2.2.2.2.2.2.1) ha).unique
    (Track.folds (get := (·.polygons)) (fun o x o' hs => (Zone.trackAll o x o' hs).2.2.2.2.2.2.2.2.2.2.2.2.2.2.1) hb) (hr.tokens _)
  have f15 : a.filledPolygons = b.filledPolygons := (Track.folds (get := (·.filledPolygons)) (fun o x o' hs => (Zone.trackAll o x o' hs).2.2.2.2.2.2.2.2.2.2.2.2.2.2.2.1) ha).unique
    (Track.folds (get := (·.filledPolygons)) (fun o x o' hs => (Zone.trackAll o x o' hs).2.2.2.2.2.2.2.2.2.2.2.2.2.2.2.1) hb) (hr.tokens _)
  have f16 : a.fillSegments = b.fillSegments := (Track.folds (get := (·.fillSegments)) (fun o x o' hs => (Zone.trackAll o x o' hs).2.2.2.2.2.2.2.2.2.2.2.2.2.2.2.2) ha).unique
    (Track.folds (get := (·.fillSegments)) (fun o x o' hs => (Zone.trackAll o x o' hs).2.2.2.2.2.2.2.2.2.2.2.2.2.2.2.2) hb) (hr.tokens _)
  show Zone.mk a.locked a.net a.netName a.layers a.tstamp a.name a.hatch a.priority a.connectPads a.clearance a.minThickness a.filledAreasThickness a.keepoutSettings a.fillSettings a.polygons a.filledPolygons a.fillSegments =
    Zone.mk b.locked b.net b.netName b.layers b.tstamp b.name b.hatch b.priority b.connectPads b.clearance b.minThickness b.filledAreasThickness b.keepoutSettings b.fillSettings b.polygons b.filledPolygons b.fillSegments
  rw [f0, f1, f2, f3, f4, f5, f6, f7, f8, f9, f10, f11, f12, f13, f14, f15, f16]

theorem Zone.loopEq (xs : List Val) :
    Zone.fromSexpr (.list (.str k!"zone" :: xs)) = forM Zone.step {} (.str k!"zone" :: xs) :=
  rfl

end Kiutils
