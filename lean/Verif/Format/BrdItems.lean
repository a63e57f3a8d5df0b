import Verif.Model.BrdItems
import Verif.Format.Common
import Verif.Format.SchItems
import Verif.Format.Req
/-!
# Items of boards: values and well-formedness
-/
namespace Kiutils

def GeneralSettings.toVal (o : GeneralSettings) : Val :=
  .list ([.str k!"general", .list [.str k!"thickness", o.thickness.canon]])

structure GeneralSettings.WF (o : GeneralSettings) : Prop where
  thickness : NumOk o.thickness

def LayerToken.toVal (o : LayerToken) : Val :=
  .list ([o.ordinal.canon, o.name.canon, o.type.canon] ++ (optL o.userName fun v => [v.canon]))

structure LayerToken.WF [TextRule] (o : LayerToken) : Prop where
  ordinal : NumOk o.ordinal
  name : TextOk o.name
  type : AtomOk o.type
  userName : ∀ v, o.userName = some v → TextOk v

/-- The values written for a sublayer: the word `addsublayer` and the tokens after it. -/
def StackupSubLayer.toVals (o : StackupSubLayer) : List Val :=
  [.str k!"addsublayer", .list [.str k!"thickness", o.thickness.canon]] ++
    (optL o.material fun v => [.list [.str k!"material", v.canon]]) ++
    (optL o.epsilonR fun v => [.list [.str k!"epsilon_r", v.canon]]) ++
    (optL o.lossTangent fun v => [.list [.str k!"loss_tangent", v.canon]])

structure StackupSubLayer.WF [TextRule] (o : StackupSubLayer) : Prop where
  thickness : NumOk o.thickness
  material : ∀ v, o.material = some v → TextOk v
  epsilonR : ∀ v, o.epsilonR = some v → NumOk v
  lossTangent : ∀ v, o.lossTangent = some v → NumOk v

def StackupLayer.toVal (o : StackupLayer) : Val :=
  .list ([.str k!"layer", o.name.canon, .list [.str k!"type", o.type.canon]] ++
    (optL o.color fun v => [.list [.str k!"color", v.canon]]) ++
    (optL o.thickness fun v => [.list [.str k!"thickness", v.canon]]) ++
    (optL o.material fun v => [.list [.str k!"material", v.canon]]) ++
    (optL o.epsilonR fun v => [.list [.str k!"epsilon_r", v.canon]]) ++
    (optL o.lossTangent fun v => [.list [.str k!"loss_tangent", v.canon]]) ++
    o.subLayers.flatMap StackupSubLayer.toVals)

structure StackupLayer.WF [TextRule] (o : StackupLayer) : Prop where
  name : TextOk o.name
  /-- the type is written without escapes -/
  type : RawOk o.type
  color : ∀ v, o.color = some v → TextOk v
  thickness : ∀ v, o.thickness = some v → NumOk v
  material : ∀ v, o.material = some v → TextOk v
  epsilonR : ∀ v, o.epsilonR = some v → NumOk v
  lossTangent : ∀ v, o.lossTangent = some v → NumOk v
  subLayers : ∀ v ∈ o.subLayers, v.WF

def Stackup.toVal (o : Stackup) : Val :=
  .list ([.str k!"stackup"] ++ o.layers.map StackupLayer.toVal ++
    (optL o.copperFinish fun v => [.list [.str k!"copper_finish", v.canon]]) ++
    (optL o.dielectricContraints fun v => [.list [.str k!"dielectric_constraints", v.canon]]) ++
    (optL o.edgeConnector fun v => [.list [.str k!"edge_connector", v.canon]]) ++
    ifL o.castellatedPads [.list [.str k!"castellated_pads", .str k!"yes"]] ++
    ifL o.edgePlating [.list [.str k!"edge_plating", .str k!"yes"]])

structure Stackup.WF [TextRule] (o : Stackup) : Prop where
  layers : ∀ v ∈ o.layers, v.WF
  copperFinish : ∀ v, o.copperFinish = some v → TextOk v
  dielectricContraints : ∀ v, o.dielectricContraints = some v → AtomOk v
  edgeConnector : ∀ v, o.edgeConnector = some v → AtomOk v

/-- The plot settings; `useauxorigin` does not depend on the object. -/
def PlotSettings.toVal (o : PlotSettings) : Val :=
  .list ([.str k!"pcbplotparams", .list [.str k!"layerselection", o.layerSelection.canon]] ++
    (optL o.plotOnAllLayersSelection fun v => [.list [.str k!"plot_on_all_layers_selection", v.canon]]) ++
    [.list [.str k!"disableapertmacros", .str (trueFalse o.disableApertMacros)], .list [.str k!"usegerberextensions", .str (trueFalse o.useGerberExtensions)], .list [.str k!"usegerberattributes", .str (trueFalse o.useGerberAttributes)], .list [.str k!"usegerberadvancedattributes", .str (trueFalse o.useGerberAdvancedAttributes)], .list [.str k!"creategerberjobfile", .str (trueFalse o.createGerberJobFile)]] ++
    (optL o.dashedLineDashRatio fun v => [.list [.str k!"dashed_line_dash_ratio", v.canon]]) ++
    (optL o.dashedLineGapRatio fun v => [.list [.str k!"dashed_line_gap_ratio", v.canon]]) ++
    (optL o.svgUseInch fun v => [.list [.str k!"svguseinch", .str (trueFalse v)]]) ++
    [.list [.str k!"svgprecision", o.svgPrecision.canon]] ++
    (optL o.excludeEdgeLayer fun v => [.list [.str k!"excludeedgelayer", .str (trueFalse v)]]) ++
    [.list [.str k!"plotframeref", .str (trueFalse o.plotFameRef)], .list [.str k!"viasonmask", .str (trueFalse o.viasOnMask)], .list [.str k!"mode", o.mode.canon], .list [.str k!"useauxorigin", .str k!"false"], .list [.str k!"hpglpennumber", o.hpglPenNumber.canon], .list [.str k!"hpglpenspeed", o.hpglPenSpeed.canon], .list [.str k!"hpglpendiameter", o.hpglPenDiameter.canon], .list [.str k!"dxfpolygonmode", .str (trueFalse o.dxfPolygonMode)], .list [.str k!"dxfimperialunits", .str (trueFalse o.dxfImperialUnits)], .list [.str k!"dxfusepcbnewfont", .str (trueFalse o.dxfUsePcbnewFont)], .list [.str k!"psnegative", .str (trueFalse o.psNegative)], .list [.str k!"psa4output", .str (trueFalse o.psA4Output)], .list [.str k!"plotreference", .str (trueFalse o.plotReference)], .list [.str k!"plotvalue", .str (trueFalse o.plotValue)], .list [.str k!"plotinvisibletext", .str (trueFalse o.plotInvisibleText)], .list [.str k!"sketchpadsonfab", .str (trueFalse o.sketchPadsOnFab)], .list [.str k!"subtractmaskfromsilk", .str (trueFalse o.subtractMaskFromSilk)], .list [.str k!"outputformat", o.outputFormat.canon], .list [.str k!"mirror", .str (trueFalse o.mirror)], .list [.str k!"drillshape", o.drillShape.canon], .list [.str k!"scaleselection", o.scaleSelection.canon], .list [.str k!"outputdirectory", o.outputDirectory.canon]])

structure PlotSettings.WF [TextRule] (o : PlotSettings) : Prop where
  layerSelection : AtomOk o.layerSelection
  plotOnAllLayersSelection : ∀ v, o.plotOnAllLayersSelection = some v → AtomOk v
  dashedLineDashRatio : ∀ v, o.dashedLineDashRatio = some v → FixOk 6 v
  dashedLineGapRatio : ∀ v, o.dashedLineGapRatio = some v → FixOk 6 v
  svgPrecision : NumOk o.svgPrecision
  mode : NumOk o.mode
  hpglPenNumber : NumOk o.hpglPenNumber
  hpglPenSpeed : NumOk o.hpglPenSpeed
  /-- the number has at most six decimals -/
  hpglPenDiameter : FixOk 6 o.hpglPenDiameter
  outputFormat : NumOk o.outputFormat
  drillShape : NumOk o.drillShape
  scaleSelection : NumOk o.scaleSelection
  outputDirectory : TextOk o.outputDirectory

def Segment.toVal (o : Segment) : Val :=
  .list ([.str k!"segment"] ++ ifL o.locked [.str k!"locked"] ++
    [o.start.toValXY k!"start", o.«end».toValXY k!"end", .list [.str k!"width", o.width.canon], .list [.str k!"layer", o.layer.canon], .list [.str k!"net", o.net.canon], .list [.str k!"tstamp", o.tstamp.canon]])

structure Segment.WF [TextRule] (o : Segment) : Prop where
  start : o.start.WFXY
  «end» : o.«end».WFXY
  width : NumOk o.width
  layer : TextOk o.layer
  net : NumOk o.net
  tstamp : AtomOk o.tstamp

def Via.toVal (o : Via) : Val :=
  .list ([.str k!"via"] ++ (optL o.type fun v => [v.canon]) ++ ifL o.locked [.str k!"locked"] ++
    [o.position.toValXY k!"at", .list [.str k!"size", o.size.canon], .list [.str k!"drill", o.drill.canon], .list (.str k!"layers" :: o.layers.map Val.canon)] ++
    ifL o.removeUnusedLayers [.list [.str k!"remove_unused_layers"]] ++
    ifL o.keepEndLayers [.list [.str k!"keep_end_layers"]] ++ ifL o.free [.list [.str k!"free"]] ++
    [.list [.str k!"net", o.net.canon]] ++ (optL o.tstamp fun v => [.list [.str k!"tstamp", v.canon]]))

structure Via.WF [TextRule] (o : Via) : Prop where
  type : ∀ v, o.type = some v → v = .str k!"micro" ∨ v = .str k!"blind"
  position : o.position.WFXY
  size : NumOk o.size
  drill : NumOk o.drill
  layers : ∀ v ∈ o.layers, TextOk v
  net : NumOk o.net
  tstamp : ∀ v, o.tstamp = some v → AtomOk v

def TraceArc.toVal (o : TraceArc) : Val :=
  .list ([.str k!"arc"] ++ ifL o.locked [.str k!"locked"] ++
    [o.start.toValXY k!"start", o.mid.toValXY k!"mid", o.«end».toValXY k!"end", .list [.str k!"width", o.width.canon], .list [.str k!"layer", o.layer.canon], .list [.str k!"net", o.net.canon]] ++
    (optL o.tstamp fun v => [.list [.str k!"tstamp", v.canon]]))

structure TraceArc.WF [TextRule] (o : TraceArc) : Prop where
  start : o.start.WFXY
  mid : o.mid.WFXY
  «end» : o.«end».WFXY
  width : NumOk o.width
  layer : TextOk o.layer
  net : NumOk o.net
  tstamp : ∀ v, o.tstamp = some v → AtomOk v

def Target.toVal (o : Target) : Val :=
  .list ([.str k!"target", o.type.canon, o.position.toValXY k!"at", .list [.str k!"size", o.size.canon], .list [.str k!"width", o.width.canon], .list [.str k!"layer", o.layer.canon], .list [.str k!"tstamp", optCanon o.tstamp]])

structure Target.WF [TextRule] (o : Target) : Prop where
  type : AtomOk o.type
  position : o.position.WFXY
  size : NumOk o.size
  width : NumOk o.width
  layer : RawOk o.layer
  tstamp : ReqOk AtomOk o.tstamp

/-- The settings read back: `useAuxOrigin` is off. -/
def PlotSettings.asRead (o : PlotSettings) : PlotSettings := { o with useAuxOrigin := false }
/-- The setup read back. -/
def SetupData.asRead (o : SetupData) : SetupData := { o with plotSettings := o.plotSettings.map PlotSettings.asRead }

def SetupData.toVal (o : SetupData) : Val :=
  .list ([.str k!"setup"] ++ (optL o.stackup fun v => [v.toVal]) ++
    [.list [.str k!"pad_to_mask_clearance", o.packToMaskClearance.canon]] ++
    (optL o.solderMaskMinWidth fun v => [.list [.str k!"solder_mask_min_width", v.canon]]) ++
    (optL o.padToPasteClearance fun v => [.list [.str k!"pad_to_paste_clearance", v.canon]]) ++
    (optL o.padToPasteClearanceRatio fun v => [.list [.str k!"pad_to_paste_clearance_ratio", v.canon]]) ++
    (optL o.auxAxisOrigin fun v => [v.toValXY k!"aux_axis_origin"]) ++
    (optL o.gridOrigin fun v => [v.toValXY k!"grid_origin"]) ++ (optL o.plotSettings fun v => [v.toVal]))

structure SetupData.WF [TextRule] (o : SetupData) : Prop where
  stackup : ∀ v, o.stackup = some v → v.WF
  packToMaskClearance : NumOk o.packToMaskClearance
  solderMaskMinWidth : ∀ v, o.solderMaskMinWidth = some v → NumOk v
  padToPasteClearance : ∀ v, o.padToPasteClearance = some v → NumOk v
  padToPasteClearanceRatio : ∀ v, o.padToPasteClearanceRatio = some v → NumOk v
  auxAxisOrigin : ∀ v, o.auxAxisOrigin = some v → v.WFXY
  gridOrigin : ∀ v, o.gridOrigin = some v → v.WFXY
  plotSettings : ∀ v, o.plotSettings = some v → v.WF

end Kiutils
