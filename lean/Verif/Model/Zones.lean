import Verif.Model.Common
/-!
# `src/kiutils/items/zones.py`
-/
namespace Kiutils

/-- zones.py 25–51 -/
structure KeepoutSettings where
  tracks : Val := st k!"allowed"
  vias : Val := st k!"allowed"
  pads : Val := st k!"allowed"
  copperpour : Val := st k!"not-allowed"
  footprints : Val := st k!"not-allowed"
derive_canon KeepoutSettings

/-- Loop body, zones.py 75–83 -/
def KeepoutSettings.step (o : KeepoutSettings) (item : Val) : PyM KeepoutSettings :=
  match item with
  | .list _ => do
    let k ← item.idx 0
    if k.is k!"tracks" then return { o with tracks := ← item.idx 1 }
    else if k.is k!"vias" then return { o with vias := ← item.idx 1 }
    else if k.is k!"pads" then return { o with pads := ← item.idx 1 }
    else if k.is k!"copperpour" then return { o with copperpour := ← item.idx 1 }
    else if k.is k!"footprints" then return { o with footprints := ← item.idx 1 }
    else return o
  | _ => return o

/-- zones.py 54–85 -/
def KeepoutSettings.fromSexpr (exp : Val) : PyM KeepoutSettings := do
  forM KeepoutSettings.step {} (← checkHead k!"keepout" exp)

/-- zones.py 87–102 -/
def KeepoutSettings.toSexpr (o : KeepoutSettings) (indent : Nat := 0) (newline : Bool := false) : Str :=
  py!"{indents indent}(keepout (tracks {o.tracks.pyStr}) (vias {o.vias.pyStr}) (pads {o.pads.pyStr} ) (copperpour {o.copperpour.pyStr}) (footprints {o.footprints.pyStr})){endl newline}"

/-- zones.py 104–179 -/
structure FillSettings where
  yes : Bool := false
  mode : Option Val := none
  thermalGap : Option Val := none
  thermalBridgeWidth : Option Val := none
  smoothingStyle : Option Val := none
  smoothingRadius : Option Val := none
  islandRemovalMode : Option Val := none
  islandAreaMin : Option Val := none
  hatchThickness : Option Val := none
  hatchGap : Option Val := none
  hatchOrientation : Option Val := none
  hatchSmoothingLevel : Option Val := none
  hatchSmoothingValue : Option Val := none
  hatchBorderAlgorithm : Option Val := none
  hatchMinHoleArea : Option Val := none
derive_canon FillSettings

/-- Loop body, zones.py 202–220 -/
def FillSettings.step (o : FillSettings) (item : Val) : PyM FillSettings :=
  match item with
  | .list _ => do
    let k ← item.idx 0
    if k.is k!"mode" then return { o with mode := some (← item.idx 1) }
    else if k.is k!"thermal_gap" then return { o with thermalGap := some (← item.idx 1) }
    else if k.is k!"thermal_bridge_width" then return { o with thermalBridgeWidth := some (← item.idx 1) }
    else if k.is k!"smoothing" then return { o with smoothingStyle := some (← item.idx 1) }
    else if k.is k!"radius" then return { o with smoothingRadius := some (← item.idx 1) }
    else if k.is k!"island_removal_mode" then return { o with islandRemovalMode := some (← item.idx 1) }
    else if k.is k!"island_area_min" then return { o with islandAreaMin := some (← item.idx 1) }
    else if k.is k!"hatch_thickness" then return { o with hatchThickness := some (← item.idx 1) }
    else if k.is k!"hatch_gap" then return { o with hatchGap := some (← item.idx 1) }
    else if k.is k!"hatch_orientation" then return { o with hatchOrientation := some (← item.idx 1) }
    else if k.is k!"hatch_smoothing_level" then return { o with hatchSmoothingLevel := some (← item.idx 1) }
    else if k.is k!"hatch_smoothing_value" then return { o with hatchSmoothingValue := some (← item.idx 1) }
    else if k.is k!"hatch_border_algorithm" then return { o with hatchBorderAlgorithm := some (← item.idx 1) }
    else if k.is k!"hatch_min_hole_area" then return { o with hatchMinHoleArea := some (← item.idx 1) }
    else return o
  | _ => if item.is k!"yes" then return { o with yes := true } else return o

/-- zones.py 181–222 -/
def FillSettings.fromSexpr (exp : Val) : PyM FillSettings := do
  forM FillSettings.step {} (← checkHead k!"fill" exp)

/-- zones.py 224–252 -/
def FillSettings.toSexpr (o : FillSettings) (indent : Nat := 0) (newline : Bool := false) : Str :=
  let yes := ifS o.yes py!" yes"
  let mode := optS o.mode fun t => py!" (mode {t.pyStr})"
  let smoothingStyle := optS o.smoothingStyle fun t => py!" (smoothing {t.pyStr})"
  let smoothingRadius := optS o.smoothingRadius fun t => py!" (radius {t.pyStr})"
  let islandRemovalMode := optS o.islandRemovalMode fun t => py!" (island_removal_mode {t.pyStr})"
  let islandAreaMin := optS o.islandAreaMin fun t => py!" (island_area_min {t.pyStr})"
  let hatchThickness := optS o.hatchThickness fun t => py!"\n{indents indent}  (hatch_thickness {t.pyStr})"
  let hatchGap := optS o.hatchGap fun t => py!" (hatch_gap {t.pyStr})"
  let hatchOrientation := optS o.hatchOrientation fun t => py!" (hatch_orientation {t.pyStr})"
  let hatchSmoothingLevel := optS o.hatchSmoothingLevel fun t => py!"\n{indents indent}  (hatch_smoothing_level {t.pyStr})"
  let hatchSmoothingValue := optS o.hatchSmoothingValue fun t => py!" (hatch_smoothing_value {t.pyStr})"
  let hatchBorderAlgorithm := optS o.hatchBorderAlgorithm fun t => py!"\n{indents indent}  (hatch_border_algorithm {t.pyStr})"
  let hatchMinHoleArea := optS o.hatchMinHoleArea fun t => py!" (hatch_min_hole_area {t.pyStr})"
  py!"{indents indent}(fill{yes}{mode} (thermal_gap {optPyStr o.thermalGap}) (thermal_bridge_width {optPyStr o.thermalBridgeWidth}){smoothingStyle}{smoothingRadius}{islandRemovalMode}{islandAreaMin}{hatchThickness}{hatchGap}{hatchOrientation}{hatchSmoothingLevel}{hatchSmoothingValue}{hatchBorderAlgorithm}{hatchMinHoleArea}){endl newline}"

/-- zones.py 254–259 -/
structure ZonePolygon where
  coordinates : List Position := []
derive_canon ZonePolygon

/-- Loop body, zones.py 282–287 -/
def ZonePolygon.step (o : ZonePolygon) (item : Val) : PyM ZonePolygon :=
  match item with
  | .list _ => do
    let k ← item.idx 0
    if k.is k!"pts" then return { o with coordinates := o.coordinates ++ (← mapM' Position.fromSexpr (← item.slice 1)) }
    else return o
  | _ => return o

/-- zones.py 261–289 -/
def ZonePolygon.fromSexpr (exp : Val) : PyM ZonePolygon := do
  forM ZonePolygon.step {} (← checkHead k!"polygon" exp)

/-- zones.py 291–314. With coordinates the parameter `newline` is ignored. -/
def ZonePolygon.toSexpr (o : ZonePolygon) (indent : Nat := 4) (newline : Bool := true) : Str :=
  if o.coordinates.isEmpty then py!"{indents indent}{endl newline}"
  else
    py!"{indents indent}(polygon\n" ++
    py!"{indents indent}  (pts\n" ++
    (forS o.coordinates fun p => py!"{indents indent}    (xy {p.X.pyStr} {p.Y.pyStr})\n") ++
    py!"{indents indent}  )\n" ++
    py!"{indents indent})\n"

/-- zones.py 316–332 -/
structure FilledPolygon where
  layer : Val := st k!"F.Cu"
  island : Bool := false
  coordinates : List Position := []
derive_canon FilledPolygon

/-- Loop body, zones.py 355–363 -/
def FilledPolygon.step (o : FilledPolygon) (item : Val) : PyM FilledPolygon :=
  match item with
  | .list _ => do
    let k ← item.idx 0
    if k.is k!"layer" then return { o with layer := ← item.idx 1 }
    else if k.is k!"island" then return { o with island := true }
    else if k.is k!"pts" then return { o with coordinates := o.coordinates ++ (← mapM' Position.fromSexpr (← item.slice 1)) }
    else return o
  | _ => return o

/-- zones.py 334–365 -/
def FilledPolygon.fromSexpr (exp : Val) : PyM FilledPolygon := do
  forM FilledPolygon.step {} (← checkHead k!"filled_polygon" exp)

/-- zones.py 367–393. With coordinates the parameter `newline` is ignored. -/
def FilledPolygon.toSexpr (o : FilledPolygon) (indent : Nat := 4) (newline : Bool := true) : Str :=
  if o.coordinates.isEmpty then py!"{indents indent}{endl newline}"
  else
    py!"{indents indent}(filled_polygon\n" ++
    py!"{indents indent}  (layer \"{dq o.layer}\")\n" ++
    ifS o.island py!"{indents indent}  (island)\n" ++
    py!"{indents indent}  (pts\n" ++
    (forS o.coordinates fun p => py!"{indents indent}    (xy {p.X.pyStr} {p.Y.pyStr})\n") ++
    py!"{indents indent}  )\n" ++
    py!"{indents indent})\n"

/-- zones.py 395–409 -/
structure FillSegments where
  layer : Val := st k!"F.Cu"
  coordinates : List Position := []
derive_canon FillSegments

/-- Loop body, zones.py 432–439 -/
def FillSegments.step (o : FillSegments) (item : Val) : PyM FillSegments :=
  match item with
  | .list _ => do
    let k ← item.idx 0
    if k.is k!"layer" then return { o with layer := ← item.idx 1 }
    else if k.is k!"pts" then return { o with coordinates := o.coordinates ++ (← mapM' Position.fromSexpr (← item.slice 1)) }
    else return o
  | _ => return o

/-- zones.py 411–441 -/
def FillSegments.fromSexpr (exp : Val) : PyM FillSegments := do
  forM FillSegments.step {} (← checkHead k!"fill_segments" exp)

/-- zones.py 443–467. With coordinates the parameter `newline` is ignored. -/
def FillSegments.toSexpr (o : FillSegments) (indent : Nat := 4) (newline : Bool := true) : Str :=
  if o.coordinates.isEmpty then py!"{indents indent}{endl newline}"
  else
    py!"{indents indent}(fill_segments\n" ++
    py!"{indents indent}  (layer \"{dq o.layer}\")\n" ++
    py!"{indents indent}  (pts\n" ++
    (forS o.coordinates fun p => py!"{indents indent}    (xy {p.X.pyStr} {p.Y.pyStr})\n") ++
    py!"{indents indent}  )\n" ++
    py!"{indents indent})\n"

/-- zones.py 469–478 -/
structure Hatch where
  style : Val := st k!"none"
  pitch : Val := fl k!"0" k!"0"
derive_canon Hatch

/-- zones.py 480–551 -/
structure Zone where
  locked : Bool := false
  net : Val := .int 0
  netName : Val := st k!"unknown"
  layers : List Val := []
  tstamp : Option Val := none
  name : Option Val := none
  hatch : Hatch := {}
  priority : Option Val := none
  connectPads : Option Val := none
  clearance : Val := fl k!"0" k!"254"
  minThickness : Val := fl k!"0" k!"254"
  filledAreasThickness : Option Val := none
  keepoutSettings : Option KeepoutSettings := none
  fillSettings : Option FillSettings := none
  polygons : List ZonePolygon := []
  filledPolygons : List FilledPolygon := []
  fillSegments : Option FillSegments := none
derive_canon Zone

/-- Loop body, zones.py 574–601 -/
def Zone.step (o : Zone) (item : Val) : PyM Zone :=
  match item with
  | .list _ => do
    let k ← item.idx 0
    if k.is k!"net" then return { o with net := ← item.idx 1 }
    else if k.is k!"net_name" then return { o with netName := ← item.idx 1 }
    else if k.is k!"layers" || k.is k!"layer" then return { o with layers := o.layers ++ (← item.slice 1) }
    else if k.is k!"tstamp" then return { o with tstamp := some (← item.idx 1) }
    else if k.is k!"name" then return { o with name := some (← item.idx 1) }
    else if k.is k!"hatch" then return { o with hatch := { style := ← item.idx 1, pitch := ← item.idx 2 } }
    else if k.is k!"priority" then return { o with priority := some (← item.idx 1) }
    else if k.is k!"connect_pads" then
      if (← item.len) == 2 then return { o with clearance := ← (← item.idx 1).idx 1 }
      else return { o with connectPads := some (← item.idx 1), clearance := ← (← item.idx 2).idx 1 }
    else if k.is k!"min_thickness" then return { o with minThickness := ← item.idx 1 }
    else if k.is k!"filled_areas_thickness" then return { o with filledAreasThickness := some (← item.idx 1) }
    else if k.is k!"keepout" then return { o with keepoutSettings := some (← KeepoutSettings.fromSexpr item) }
    else if k.is k!"fill" then return { o with fillSettings := some (← FillSettings.fromSexpr item) }
    else if k.is k!"polygon" then return { o with polygons := o.polygons ++ [← ZonePolygon.fromSexpr item] }
    else if k.is k!"filled_polygon" then return { o with filledPolygons := o.filledPolygons ++ [← FilledPolygon.fromSexpr item] }
    else if k.is k!"fill_segments" then return { o with fillSegments := some (← FillSegments.fromSexpr item) }
    else return o
  | _ => if item.is k!"locked" then return { o with locked := true } else return o

/-- zones.py 553–603 -/
def Zone.fromSexpr (exp : Val) : PyM Zone := do
  forM Zone.step {} (← checkHead k!"zone" exp)

/-- zones.py 626–635: a zone without layers raises; one layer is written with the token `layer`, unless it is one of the two
names that stand for several layers. -/
def Zone.layerToken (l : List Val) : PyM Str :=
  let layers := forS l fun l => py!" \"{dq l}\""
  match l with
  | [] => .error .exception
  | [l] => if l.is k!"F&B.Cu" || l.is k!"*.Cu" then .ok py!" (layers{layers})" else .ok py!" (layer{layers})"
  | _ => .ok py!" (layers{layers})"

/-- zones.py 605–657. A zone without layers raises; one layer is written with the token `layer`, unless it is one of the two
names that stand for several layers. The fill segments are written with the default indentation. -/
def Zone.toSexpr (o : Zone) (indent : Nat := 2) (newline : Bool := true) : PyM Str := do
  let locked := ifS o.locked py!" locked"
  let tstamp := optS o.tstamp fun t => py!" (tstamp {t.pyStr})"
  let name := optS o.name fun t => py!" (name \"{dq t}\")"
  let contype := optS o.connectPads fun t => py!" {t.pyStr}"
  let fat := optS o.filledAreasThickness fun t => py!" (filled_areas_thickness {t.pyStr})"
  let layerToken ← Zone.layerToken o.layers
  return py!"{indents indent}(zone{locked} (net {o.net.pyStr}) (net_name \"{dq o.netName}\"){layerToken}{tstamp}{name} (hatch {o.hatch.style.pyStr} {o.hatch.pitch.pyStr})\n" ++
    (optS o.priority fun t => py!"{indents indent}  (priority {t.pyStr})\n") ++
    py!"{indents indent}  (connect_pads{contype} (clearance {o.clearance.pyStr}))\n" ++
    py!"{indents indent}  (min_thickness {o.minThickness.pyStr}){fat}\n" ++
    (optS o.keepoutSettings fun k => py!"{indents indent}  {k.toSexpr}\n") ++
    (optS o.fillSettings fun k => k.toSexpr (indent + 2) true) ++
    (forS o.polygons fun p => p.toSexpr (indent + 2)) ++
    (forS o.filledPolygons fun p => p.toSexpr (indent + 2)) ++
    (optS o.fillSegments fun p => p.toSexpr) ++
    py!"{indents indent}){endl newline}"

end Kiutils
