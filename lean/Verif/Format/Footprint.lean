import Verif.Model.Footprint
import Verif.Format.GrItems
import Verif.Format.FpItems
import Verif.Format.Zones
import Verif.Format.SchItems
/-!
# Footprints: values and well-formedness
-/
namespace Kiutils

def Attributes.toVal (o : Attributes) : Val :=
  .list ([.str k!"attr"] ++ (optL o.type fun v => [v.canon]) ++ ifL o.boardOnly [.str k!"board_only"] ++
    ifL o.excludeFromPosFiles [.str k!"exclude_from_pos_files"] ++ ifL o.excludeFromBom [.str k!"exclude_from_bom"] ++
    ifL o.allowMissingCourtyard [.str k!"allow_missing_courtyard"])

structure Attributes.WF (o : Attributes) : Prop where
  type : ∀ v, o.type = some v → v = .str k!"through_hole" ∨ v = .str k!"smd"

def Model.toVal (o : Model) : Val :=
  .list ([.str k!"model", o.path.canon] ++ ifL o.hide [.str k!"hide"] ++
    (optL o.opacity fun v => [.list [.str k!"opacity", v.canon]]) ++
    [.list [.str k!"offset", o.pos.toVal], .list [.str k!"scale", o.scale.toVal], .list [.str k!"rotate", o.rotate.toVal]])

structure Model.WF [TextRule] (o : Model) : Prop where
  path : TextOk o.path
  opacity : ∀ v, o.opacity = some v → NumOk v
  pos : o.pos.WF
  scale : o.scale.WF
  rotate : o.rotate.WF

def DrillDefinition.toVal (o : DrillDefinition) : Val :=
  .list ([.str k!"drill"] ++ ifL o.oval [.str k!"oval"] ++ [o.diameter.canon] ++ (optL o.width fun v => [v.canon]) ++
    (optL o.offset fun v => [v.toValXY k!"offset"]))

/-- An oval hole with its two sizes and possibly an offset, or a round hole without an offset (the offset of a round hole is
taken for its width, see `DrillDefinition.fromSexpr`). -/
structure DrillDefinition.WF [TextRule] (o : DrillDefinition) : Prop where
  diameter : NumOk o.diameter
  oval : o.oval = true → ∃ w, o.width = some w ∧ NumOk w
  round : o.oval = false → o.width = none ∧ o.offset = none
  offset : ∀ v, o.offset = some v → v.WFXY

def PadOptions.toVal (o : PadOptions) : Val :=
  .list ([.str k!"options", .list [.str k!"clearance", o.clearance.canon], .list [.str k!"anchor", o.anchor.canon]])

structure PadOptions.WF [TextRule] (o : PadOptions) : Prop where
  clearance : TokOk o.clearance
  anchor : TokOk o.anchor

/-- A layer of a pad: a name that stands for several layers is written without quotes, any other with. -/
def PadLayerOk [TextRule] (v : Val) : Prop := (isWildcard v = .ok true ∧ TokOk v) ∨ (isWildcard v = .ok false ∧ TextOk v)

/-- A graphic item of a pad: images are not read. -/
def GrItem.NotImage : GrItem → Prop
  | .image _ => False
  | _ => True

def Pad.toVal (o : Pad) : Val :=
  .list ([.str k!"pad", o.number.canon, o.type.canon, o.shape.canon] ++ ifL o.locked [.str k!"locked"] ++
    [o.position.toVal k!"at", o.size.toValXY k!"size"] ++ (optL o.drill fun v => [v.toVal]) ++
    (optL o.property fun v => [.list [.str k!"property", v.canon]]) ++
    [.list (.str k!"layers" :: o.layers.map Val.canon)] ++
    ifL o.removeUnusedLayers [.list [.str k!"remove_unused_layers"]] ++
    ifL o.keepEndLayers [.list [.str k!"keep_end_layers"]] ++
    (optL o.roundrectRatio fun v => [.list [.str k!"roundrect_rratio", v.canon]]) ++
    (optL o.chamferRatio fun v => [.list [.str k!"chamfer_ratio", v.canon]]) ++
    ifL (!o.chamfer.isEmpty) [.list (.str k!"chamfer" :: o.chamfer.map Val.canon)] ++
    (optL o.dieLength fun v => [.list [.str k!"die_length", v.canon]]) ++ (optL o.net fun v => [v.toVal]) ++
    (optL o.pinFunction fun v => [.list [.str k!"pinfunction", v.canon]]) ++
    (optL o.pinType fun v => [.list [.str k!"pintype", v.canon]]) ++
    (optL o.solderMaskMargin fun v => [.list [.str k!"solder_mask_margin", v.canon]]) ++
    (optL o.solderPasteMargin fun v => [.list [.str k!"solder_paste_margin", v.canon]]) ++
    (optL o.solderPasteMarginRatio fun v => [.list [.str k!"solder_paste_margin_ratio", v.canon]]) ++
    (optL o.clearance fun v => [.list [.str k!"clearance", v.canon]]) ++
    (optL o.zoneConnect fun v => [.list [.str k!"zone_connect", v.canon]]) ++
    (optL o.thermalWidth fun v => [.list [.str k!"thermal_width", v.canon]]) ++
    (optL o.thermalGap fun v => [.list [.str k!"thermal_gap", v.canon]]) ++
    (optL o.customPadOptions fun v => [v.toVal]) ++
    ifL (!o.customPadPrimitives.isEmpty) [.list (.str k!"primitives" :: o.customPadPrimitives.map GrItem.toVal)] ++
    (optL o.tstamp fun v => [.list [.str k!"tstamp", v.canon]]))

structure Pad.WF [TextRule] (o : Pad) : Prop where
  number : TextOk o.number
  type : TokOk o.type
  shape : TokOk o.shape
  position : o.position.WF
  size : o.size.WFXY
  drill : ∀ v, o.drill = some v → v.WF
  property : ∀ v, o.property = some v → TokOk v
  layers : ∀ v ∈ o.layers, PadLayerOk v
  roundrectRatio : ∀ v, o.roundrectRatio = some v → NumOk v
  chamferRatio : ∀ v, o.chamferRatio = some v → NumOk v
  chamfer : ∀ v ∈ o.chamfer, TokOk v
  dieLength : ∀ v, o.dieLength = some v → NumOk v
  net : ∀ v, o.net = some v → v.WF
  pinFunction : ∀ v, o.pinFunction = some v → TextOk v
  pinType : ∀ v, o.pinType = some v → TextOk v
  solderMaskMargin : ∀ v, o.solderMaskMargin = some v → NumOk v
  solderPasteMargin : ∀ v, o.solderPasteMargin = some v → NumOk v
  solderPasteMarginRatio : ∀ v, o.solderPasteMarginRatio = some v → NumOk v
  clearance : ∀ v, o.clearance = some v → NumOk v
  zoneConnect : ∀ v, o.zoneConnect = some v → NumOk v
  thermalWidth : ∀ v, o.thermalWidth = some v → NumOk v
  thermalGap : ∀ v, o.thermalGap = some v → NumOk v
  customPadOptions : ∀ v, o.customPadOptions = some v → v.WF
  customPadPrimitives : ∀ v ∈ o.customPadPrimitives, v.WF ∧ v.NotImage
  tstamp : ∀ v, o.tstamp = some v → AtomOk v
  /-- the word `locked` in this place would set the flag -/
  shape_ne : o.shape ≠ .str k!"locked"

/-- The tree of a footprint. With the parameter `layerInFirstLine` only the line breaks differ. -/
def Footprint.toVal (o : Footprint) : Val :=
  .list ([.str k!"footprint", .str o.libId] ++ ifL o.locked [.str k!"locked"] ++ ifL o.placed [.str k!"placed"] ++
    (optL o.version fun v => [.list [.str k!"version", v.canon]]) ++
    (optL o.generator fun v => [.list [.str k!"generator", v.canon]]) ++
    [.list [.str k!"layer", o.layer.canon], .list [.str k!"tedit", o.tedit.canon]] ++
    (optL o.tstamp fun v => [.list [.str k!"tstamp", v.canon]]) ++ (optL o.position fun v => [v.toVal k!"at"]) ++
    (optL o.description fun v => [.list [.str k!"descr", v.canon]]) ++
    (optL o.tags fun v => [.list [.str k!"tags", v.canon]]) ++
    (o.properties.map fun p => .list [.str k!"property", p.1.canon, p.2.canon]) ++
    (optL o.path fun v => [.list [.str k!"path", v.canon]]) ++
    (optL o.autoplaceCost90 fun v => [.list [.str k!"autoplace_cost90", v.canon]]) ++
    (optL o.autoplaceCost180 fun v => [.list [.str k!"autoplace_cost180", v.canon]]) ++
    (optL o.solderMaskMargin fun v => [.list [.str k!"solder_mask_margin", v.canon]]) ++
    (optL o.solderPasteMargin fun v => [.list [.str k!"solder_paste_margin", v.canon]]) ++
    (optL o.solderPasteRatio fun v => [.list [.str k!"solder_paste_ratio", v.canon]]) ++
    (optL o.clearance fun v => [.list [.str k!"clearance", v.canon]]) ++
    (optL o.zoneConnect fun v => [.list [.str k!"zone_connect", v.canon]]) ++
    (optL o.thermalWidth fun v => [.list [.str k!"thermal_width", v.canon]]) ++
    (optL o.thermalGap fun v => [.list [.str k!"thermal_gap", v.canon]]) ++
    ifL (!o.attributes.isDefault) [o.attributes.toVal] ++
    ifL (!o.privateLayers.isEmpty) [.list (.str k!"private_layers" :: o.privateLayers.map Val.canon)] ++
    ifL (!o.netTiePadGroups.isEmpty) [.list (.str k!"net_tie_pad_groups" :: o.netTiePadGroups.map Val.canon)] ++
    o.graphicItems.map FpItem.toVal ++ o.pads.map Pad.toVal ++ o.zones.map Zone.toVal ++ o.models.map Model.toVal ++
    o.groups.map Group.toVal)

structure Footprint.WF [TextRule] (o : Footprint) : Prop where
  id : SchIdOk o.libraryNickname o.entryName
  version : ∀ v, o.version = some v → AtomOk v
  generator : ∀ v, o.generator = some v → AtomOk v
  layer : TextOk o.layer
  tedit : AtomOk o.tedit
  tstamp : ∀ v, o.tstamp = some v → AtomOk v
  position : ∀ v, o.position = some v → v.WF
  description : ∀ v, o.description = some v → TextOk v
  tags : ∀ v, o.tags = some v → TextOk v
  propertyNames : ∀ p ∈ o.properties, TextOk p.1
  properties : ∀ p ∈ o.properties, TextOk p.2
  /-- it is a dict: no two keys are equal -/
  distinct : o.properties.Pairwise fun a b => a.1.keyEq b.1 = false
  path : ∀ v, o.path = some v → TextOk v
  autoplaceCost90 : ∀ v, o.autoplaceCost90 = some v → NumOk v
  autoplaceCost180 : ∀ v, o.autoplaceCost180 = some v → NumOk v
  solderMaskMargin : ∀ v, o.solderMaskMargin = some v → NumOk v
  solderPasteMargin : ∀ v, o.solderPasteMargin = some v → NumOk v
  solderPasteRatio : ∀ v, o.solderPasteRatio = some v → NumOk v
  clearance : ∀ v, o.clearance = some v → NumOk v
  zoneConnect : ∀ v, o.zoneConnect = some v → NumOk v
  thermalWidth : ∀ v, o.thermalWidth = some v → NumOk v
  thermalGap : ∀ v, o.thermalGap = some v → NumOk v
  attributes : o.attributes.WF
  privateLayers : ∀ v ∈ o.privateLayers, TextOk v
  netTiePadGroups : ∀ v ∈ o.netTiePadGroups, TextOk v
  graphicItems : ∀ v ∈ o.graphicItems, v.WF
  pads : ∀ v ∈ o.pads, v.WF
  zones : ∀ v ∈ o.zones, v.WF
  models : ∀ v ∈ o.models, v.WF
  groups : ∀ v ∈ o.groups, v.WF

end Kiutils
