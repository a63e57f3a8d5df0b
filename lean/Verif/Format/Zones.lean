import Verif.Model.Zones
import Verif.Format.Common
import Verif.Format.Req
/-!
# Zones: values and well-formedness
-/
namespace Kiutils

def KeepoutSettings.toVal (o : KeepoutSettings) : Val :=
  .list ([.str k!"keepout", .list [.str k!"tracks", o.tracks.canon], .list [.str k!"vias", o.vias.canon], .list [.str k!"pads", o.pads.canon], .list [.str k!"copperpour", o.copperpour.canon], .list [.str k!"footprints", o.footprints.canon]])

structure KeepoutSettings.WF [TextRule] (o : KeepoutSettings) : Prop where
  tracks : TokOk o.tracks
  vias : TokOk o.vias
  pads : TokOk o.pads
  copperpour : TokOk o.copperpour
  footprints : TokOk o.footprints

def FillSettings.toVal (o : FillSettings) : Val :=
  .list ([.str k!"fill"] ++ ifL o.yes [.str k!"yes"] ++ (optL o.mode fun v => [.list [.str k!"mode", v.canon]]) ++
    [.list [.str k!"thermal_gap", optCanon o.thermalGap], .list [.str k!"thermal_bridge_width", optCanon o.thermalBridgeWidth]] ++
    (optL o.smoothingStyle fun v => [.list [.str k!"smoothing", v.canon]]) ++
    (optL o.smoothingRadius fun v => [.list [.str k!"radius", v.canon]]) ++
    (optL o.islandRemovalMode fun v => [.list [.str k!"island_removal_mode", v.canon]]) ++
    (optL o.islandAreaMin fun v => [.list [.str k!"island_area_min", v.canon]]) ++
    (optL o.hatchThickness fun v => [.list [.str k!"hatch_thickness", v.canon]]) ++
    (optL o.hatchGap fun v => [.list [.str k!"hatch_gap", v.canon]]) ++
    (optL o.hatchOrientation fun v => [.list [.str k!"hatch_orientation", v.canon]]) ++
    (optL o.hatchSmoothingLevel fun v => [.list [.str k!"hatch_smoothing_level", v.canon]]) ++
    (optL o.hatchSmoothingValue fun v => [.list [.str k!"hatch_smoothing_value", v.canon]]) ++
    (optL o.hatchBorderAlgorithm fun v => [.list [.str k!"hatch_border_algorithm", v.canon]]) ++
    (optL o.hatchMinHoleArea fun v => [.list [.str k!"hatch_min_hole_area", v.canon]]))

structure FillSettings.WF [TextRule] (o : FillSettings) : Prop where
  mode : ∀ v, o.mode = some v → TokOk v
  thermalGap : ReqOk NumOk o.thermalGap
  thermalBridgeWidth : ReqOk NumOk o.thermalBridgeWidth
  smoothingStyle : ∀ v, o.smoothingStyle = some v → TokOk v
  smoothingRadius : ∀ v, o.smoothingRadius = some v → NumOk v
  islandRemovalMode : ∀ v, o.islandRemovalMode = some v → NumOk v
  islandAreaMin : ∀ v, o.islandAreaMin = some v → NumOk v
  hatchThickness : ∀ v, o.hatchThickness = some v → NumOk v
  hatchGap : ∀ v, o.hatchGap = some v → NumOk v
  hatchOrientation : ∀ v, o.hatchOrientation = some v → NumOk v
  hatchSmoothingLevel : ∀ v, o.hatchSmoothingLevel = some v → NumOk v
  hatchSmoothingValue : ∀ v, o.hatchSmoothingValue = some v → NumOk v
  hatchBorderAlgorithm : ∀ v, o.hatchBorderAlgorithm = some v → AtomOk v
  hatchMinHoleArea : ∀ v, o.hatchMinHoleArea = some v → NumOk v

def ZonePolygon.toVal (o : ZonePolygon) : Val :=
  .list ([.str k!"polygon", .list (.str k!"pts" :: o.coordinates.map (Position.toValXY k!"xy"))])

structure ZonePolygon.WF (o : ZonePolygon) : Prop where
  coordinates : ∀ v ∈ o.coordinates, v.WFXY
  /-- without points nothing is written -/
  nonempty : o.coordinates.isEmpty = false

def FilledPolygon.toVal (o : FilledPolygon) : Val :=
  .list ([.str k!"filled_polygon", .list [.str k!"layer", o.layer.canon]] ++
    ifL o.island [.list [.str k!"island"]] ++ [.list (.str k!"pts" :: o.coordinates.map (Position.toValXY k!"xy"))])

structure FilledPolygon.WF [TextRule] (o : FilledPolygon) : Prop where
  layer : TextOk o.layer
  coordinates : ∀ v ∈ o.coordinates, v.WFXY
  /-- without points nothing is written -/
  nonempty : o.coordinates.isEmpty = false

def FillSegments.toVal (o : FillSegments) : Val :=
  .list ([.str k!"fill_segments", .list [.str k!"layer", o.layer.canon], .list (.str k!"pts" :: o.coordinates.map (Position.toValXY k!"xy"))])

structure FillSegments.WF [TextRule] (o : FillSegments) : Prop where
  layer : TextOk o.layer
  coordinates : ∀ v ∈ o.coordinates, v.WFXY
  /-- without points nothing is written -/
  nonempty : o.coordinates.isEmpty = false

/-- The token that lists the layers: `layer` for a single layer, `layers` for several and for the two names that stand for
several. -/
def Zone.layerKey : List Val → Str
  | [l] => if l.is k!"F&B.Cu" || l.is k!"*.Cu" then k!"layers" else k!"layer"
  | _ => k!"layers"

def Zone.toVal (o : Zone) : Val :=
  .list ([.str k!"zone"] ++ ifL o.locked [.str k!"locked"] ++
    [.list [.str k!"net", o.net.canon], .list [.str k!"net_name", o.netName.canon], .list (.str (Zone.layerKey o.layers) :: o.layers.map Val.canon)] ++
    (optL o.tstamp fun v => [.list [.str k!"tstamp", v.canon]]) ++
    (optL o.name fun v => [.list [.str k!"name", v.canon]]) ++
    [.list [.str k!"hatch", o.hatch.style.canon, o.hatch.pitch.canon]] ++
    (optL o.priority fun v => [.list [.str k!"priority", v.canon]]) ++
    [.list ([.str k!"connect_pads"] ++ (optL o.connectPads fun v => [v.canon]) ++ [.list [.str k!"clearance", o.clearance.canon]]), .list [.str k!"min_thickness", o.minThickness.canon]] ++
    (optL o.filledAreasThickness fun v => [.list [.str k!"filled_areas_thickness", v.canon]]) ++
    (optL o.keepoutSettings fun v => [v.toVal]) ++ (optL o.fillSettings fun v => [v.toVal]) ++
    o.polygons.map ZonePolygon.toVal ++ o.filledPolygons.map FilledPolygon.toVal ++
    (optL o.fillSegments fun v => [v.toVal]))

structure Zone.WF [TextRule] (o : Zone) : Prop where
  net : NumOk o.net
  netName : TextOk o.netName
  layers : ∀ v ∈ o.layers, TextOk v
  tstamp : ∀ v, o.tstamp = some v → AtomOk v
  name : ∀ v, o.name = some v → TextOk v
  style : TokOk o.hatch.style
  pitch : NumOk o.hatch.pitch
  priority : ∀ v, o.priority = some v → NumOk v
  connectPads : ∀ v, o.connectPads = some v → TokOk v
  clearance : NumOk o.clearance
  minThickness : NumOk o.minThickness
  filledAreasThickness : ∀ v, o.filledAreasThickness = some v → TokOk v
  keepoutSettings : ∀ v, o.keepoutSettings = some v → v.WF
  fillSettings : ∀ v, o.fillSettings = some v → v.WF
  polygons : ∀ v ∈ o.polygons, v.WF
  filledPolygons : ∀ v ∈ o.filledPolygons, v.WF
  fillSegments : ∀ v, o.fillSegments = some v → v.WF
  /-- a zone without layers cannot be written -/
  nonempty : o.layers ≠ []

end Kiutils
