import Verif.Model.Common
/-!
# `src/kiutils/items/brditems.py`
-/
namespace Kiutils

/-- brditems.py 24–33 -/
structure GeneralSettings where
  thickness : Val := fl k!"1" k!"6"
derive_canon GeneralSettings

/-- Loop body, brditems.py 56–57 -/
def GeneralSettings.step (o : GeneralSettings) (item : Val) : PyM GeneralSettings := do
  let k ← item.idx 0
  if k.is k!"thickness" then return { o with thickness := ← item.idx 1 }
  else return o

/-- brditems.py 35–58 -/
def GeneralSettings.fromSexpr (exp : Val) : PyM GeneralSettings := do
  forM GeneralSettings.step {} (← checkHead k!"general" exp)

/-- brditems.py 60–76 -/
def GeneralSettings.toSexpr (o : GeneralSettings) (indent : Nat := 2) (newline : Bool := true) : Str :=
  py!"{indents indent}(general\n" ++
  py!"{indents indent}  (thickness {o.thickness.pyStr})\n" ++
  py!"{indents indent}){endl newline}"

/-- brditems.py 79–99 -/
structure LayerToken where
  ordinal : Val := .int 0
  name : Val := st k!"F.Cu"
  type : Val := st k!"signal"
  userName : Option Val := none
derive_canon LayerToken

/-- brditems.py 101–124 -/
def LayerToken.fromSexpr (exp : Val) : PyM LayerToken :=
  match exp with
  | .list [a, b, c] => .ok { ordinal := a, name := b, type := c }
  | .list [a, b, c, d] => .ok { ordinal := a, name := b, type := c, userName := some d }
  | _ => .error .exception

/-- brditems.py 126–141 -/
def LayerToken.toSexpr (o : LayerToken) (indent : Nat := 4) (newline : Bool := true) : Str :=
  let username := optS o.userName fun u => py!" \"{dq u}\""
  py!"{indents indent}({o.ordinal.pyStr} \"{dq o.name}\" {o.type.pyStr}{username}){endl newline}"

/-- brditems.py 144–158 -/
structure StackupSubLayer where
  thickness : Val := fl k!"0" k!"1"
  material : Option Val := none
  epsilonR : Option Val := none
  lossTangent : Option Val := none
derive_canon StackupSubLayer

/-- brditems.py 160–168: raises `NotImplementedError` whatever the argument is. Sub-layers are read by `StackupLayer.fromSexpr`. -/
def StackupSubLayer.fromSexpr (_exp : Val) : PyM StackupSubLayer := .error .notImplemented

/-- brditems.py 170–188 -/
def StackupSubLayer.toSexpr (o : StackupSubLayer) (indent : Nat := 0) (newline : Bool := false) : Str :=
  let mat := optS o.material fun t => py!" (material \"{dq t}\")"
  let er := optS o.epsilonR fun t => py!" (epsilon_r {t.pyStr})"
  let lt := optS o.lossTangent fun t => py!" (loss_tangent {t.pyStr})"
  py!"{indents indent}addsublayer (thickness {o.thickness.pyStr}){mat}{er}{lt}{endl newline}"

/-- brditems.py 191–230 -/
structure StackupLayer where
  name : Val := st k!""
  type : Val := st k!""
  color : Option Val := none
  thickness : Option Val := none
  material : Option Val := none
  epsilonR : Option Val := none
  lossTangent : Option Val := none
  subLayers : List StackupSubLayer := []
derive_canon StackupLayer

/-- The local variables of `StackupLayer.from_sexpr`, brditems.py 252–254: the object, and the sublayer that is being parsed
(`none` stands for `parsingSublayer = False`; `tempSublayer` is then still the default object). -/
structure StackupLayer.State where
  object : StackupLayer
  temp : Option StackupSubLayer := none

/-- Tokens of the current sublayer, brditems.py 271–276 -/
def StackupSubLayer.step (o : StackupSubLayer) (item : Val) : PyM StackupSubLayer := do
  let k ← item.idx 0
  if k.is k!"thickness" then return { o with thickness := ← item.idx 1 }
  else if k.is k!"material" then return { o with material := some (← item.idx 1) }
  else if k.is k!"epsilon_r" then return { o with epsilonR := some (← item.idx 1) }
  else if k.is k!"loss_tangent" then return { o with lossTangent := some (← item.idx 1) }
  else return o

/-- Tokens of the layer itself, brditems.py 278–284 -/
def StackupLayer.ownStep (o : StackupLayer) (item : Val) : PyM StackupLayer := do
  let k ← item.idx 0
  if k.is k!"type" then return { o with type := ← item.idx 1 }
  else if k.is k!"thickness" then return { o with thickness := some (← item.idx 1) }
  else if k.is k!"material" then return { o with material := some (← item.idx 1) }
  else if k.is k!"epsilon_r" then return { o with epsilonR := some (← item.idx 1) }
  else if k.is k!"loss_tangent" then return { o with lossTangent := some (← item.idx 1) }
  else if k.is k!"color" then return { o with color := some (← item.idx 1) }
  else return o

/-- Loop body, brditems.py 256–284 -/
def StackupLayer.step (s : StackupLayer.State) (item : Val) : PyM StackupLayer.State :=
  match item with
  | .list _ => match s.temp with
    | some t => do return { s with temp := some (← t.step item) }
    | none => do return { s with object := ← s.object.ownStep item }
  | _ =>
    if item.is k!"addsublayer" then
      match s.temp with
      | some t => return { object := { s.object with subLayers := s.object.subLayers ++ [t] }, temp := some {} }
      | none => return { s with temp := some {} }
    else return s

/-- brditems.py 232–290 -/
def StackupLayer.fromSexpr (exp : Val) : PyM StackupLayer := do
  let l ← checkHead k!"layer" exp
  let name ← getI l 1
  let s ← forM StackupLayer.step { object := { name := name } } (l.drop 2)
  match s.temp with
  | some t => return { s.object with subLayers := s.object.subLayers ++ [t] }
  | none => return s.object

/-- brditems.py 292–316 -/
def StackupLayer.toSexpr (o : StackupLayer) (indent : Nat := 6) (newline : Bool := true) : Str :=
  let color := optS o.color fun t => py!" (color \"{dq t}\")"
  let material := optS o.material fun t => py!" (material \"{dq t}\")"
  let thickness := optS o.thickness fun t => py!" (thickness {t.pyStr})"
  let epsilonR := optS o.epsilonR fun t => py!" (epsilon_r {t.pyStr})"
  let lossTangent := optS o.lossTangent fun t => py!" (loss_tangent {t.pyStr})"
  py!"{indents indent}(layer \"{dq o.name}\" (type \"{o.type.pyStr}\"){color}{thickness}" ++
  py!"{material}{epsilonR}{lossTangent}" ++
  (forS o.subLayers fun l => py!"\n{l.toSexpr (indent + 2)}") ++
  py!"){endl newline}"

/-- brditems.py 318–348 -/
structure Stackup where
  layers : List StackupLayer := []
  copperFinish : Option Val := none
  dielectricContraints : Option Val := none
  edgeConnector : Option Val := none
  castellatedPads : Bool := false
  edgePlating : Bool := false
derive_canon Stackup

/-- Loop body, brditems.py 371–377. The values of the last two tokens are not looked at. -/
def Stackup.step (o : Stackup) (item : Val) : PyM Stackup := do
  let k ← item.idx 0
  if k.is k!"layer" then return { o with layers := o.layers ++ [← StackupLayer.fromSexpr item] }
  else if k.is k!"copper_finish" then return { o with copperFinish := some (← item.idx 1) }
  else if k.is k!"dielectric_constraints" then return { o with dielectricContraints := some (← item.idx 1) }
  else if k.is k!"edge_connector" then return { o with edgeConnector := some (← item.idx 1) }
  else if k.is k!"castellated_pads" then return { o with castellatedPads := true }
  else if k.is k!"edge_plating" then return { o with edgePlating := true }
  else return o

/-- brditems.py 350–378 -/
def Stackup.fromSexpr (exp : Val) : PyM Stackup := do
  forM Stackup.step {} (← checkHead k!"stackup" exp)

/-- brditems.py 380–402 -/
def Stackup.toSexpr (o : Stackup) (indent : Nat := 4) (newline : Bool := true) : Str :=
  py!"{indents indent}(stackup\n" ++
  (forS o.layers fun l => l.toSexpr (indent + 2)) ++
  (optS o.copperFinish fun t => py!"{indents indent}  (copper_finish \"{dq t}\")\n") ++
  (optS o.dielectricContraints fun t => py!"{indents indent}  (dielectric_constraints {t.pyStr})\n") ++
  (optS o.edgeConnector fun t => py!"{indents indent}  (edge_connector {t.pyStr})\n") ++
  ifS o.castellatedPads py!"{indents indent}  (castellated_pads yes)\n" ++
  ifS o.edgePlating py!"{indents indent}  (edge_plating yes)\n" ++
  py!"{indents indent}){endl newline}"

/-- brditems.py 404–540 -/
structure PlotSettings where
  layerSelection : Val := st k!""
  plotOnAllLayersSelection : Option Val := none
  disableApertMacros : Bool := false
  useGerberExtensions : Bool := false
  useGerberAttributes : Bool := false
  useGerberAdvancedAttributes : Bool := false
  createGerberJobFile : Bool := false
  dashedLineDashRatio : Option Val := none
  dashedLineGapRatio : Option Val := none
  svgUseInch : Option Bool := none
  svgPrecision : Val := fl k!"0" k!"0"
  excludeEdgeLayer : Option Bool := none
  plotFameRef : Bool := false
  viasOnMask : Bool := false
  mode : Val := .int 1
  useAuxOrigin : Bool := false
  hpglPenNumber : Val := .int 0
  hpglPenSpeed : Val := .int 0
  hpglPenDiameter : Val := fl k!"0" k!"0"
  dxfPolygonMode : Bool := false
  dxfImperialUnits : Bool := false
  dxfUsePcbnewFont : Bool := false
  psNegative : Bool := false
  psA4Output : Bool := false
  plotReference : Bool := false
  plotValue : Bool := false
  plotInvisibleText : Bool := false
  sketchPadsOnFab : Bool := false
  subtractMaskFromSilk : Bool := false
  outputFormat : Val := .int 0
  mirror : Bool := false
  drillShape : Val := .int 0
  scaleSelection : Val := .int 1
  outputDirectory : Val := st k!""
derive_canon PlotSettings

/-- Loop body, brditems.py 563–597 -/
def PlotSettings.step (o : PlotSettings) (item : Val) : PyM PlotSettings := do
  let k ← item.idx 0
  if k.is k!"layerselection" then return { o with layerSelection := ← item.idx 1 }
  else if k.is k!"plot_on_all_layers_selection" then return { o with plotOnAllLayersSelection := some (← item.idx 1) }
  else if k.is k!"disableapertmacros" then return { o with disableApertMacros := (← item.idx 1).is k!"true" }
  else if k.is k!"usegerberextensions" then return { o with useGerberExtensions := (← item.idx 1).is k!"true" }
  else if k.is k!"usegerberattributes" then return { o with useGerberAttributes := (← item.idx 1).is k!"true" }
  else if k.is k!"usegerberadvancedattributes" then return { o with useGerberAdvancedAttributes := (← item.idx 1).is k!"true" }
  else if k.is k!"creategerberjobfile" then return { o with createGerberJobFile := (← item.idx 1).is k!"true" }
  else if k.is k!"dashed_line_dash_ratio" then return { o with dashedLineDashRatio := some (← item.idx 1) }
  else if k.is k!"dashed_line_gap_ratio" then return { o with dashedLineGapRatio := some (← item.idx 1) }
  else if k.is k!"svguseinch" then return { o with svgUseInch := some ((← item.idx 1).is k!"true") }
  else if k.is k!"svgprecision" then return { o with svgPrecision := ← item.idx 1 }
  else if k.is k!"excludeedgelayer" then return { o with excludeEdgeLayer := some ((← item.idx 1).is k!"true") }
  else if k.is k!"plotframeref" then return { o with plotFameRef := (← item.idx 1).is k!"true" }
  else if k.is k!"viasonmask" then return { o with viasOnMask := (← item.idx 1).is k!"true" }
  else if k.is k!"mode" then return { o with mode := ← item.idx 1 }
  else if k.is k!"useauxorigin" then return { o with useAuxOrigin := (← item.idx 1).is k!"true" }
  else if k.is k!"hpglpennumber" then return { o with hpglPenNumber := ← item.idx 1 }
  else if k.is k!"hpglpenspeed" then return { o with hpglPenSpeed := ← item.idx 1 }
  else if k.is k!"hpglpendiameter" then return { o with hpglPenDiameter := ← item.idx 1 }
  else if k.is k!"dxfpolygonmode" then return { o with dxfPolygonMode := (← item.idx 1).is k!"true" }
  else if k.is k!"dxfimperialunits" then return { o with dxfImperialUnits := (← item.idx 1).is k!"true" }
  else if k.is k!"dxfusepcbnewfont" then return { o with dxfUsePcbnewFont := (← item.idx 1).is k!"true" }
  else if k.is k!"psnegative" then return { o with psNegative := (← item.idx 1).is k!"true" }
  else if k.is k!"psa4output" then return { o with psA4Output := (← item.idx 1).is k!"true" }
  else if k.is k!"plotreference" then return { o with plotReference := (← item.idx 1).is k!"true" }
  else if k.is k!"plotvalue" then return { o with plotValue := (← item.idx 1).is k!"true" }
  else if k.is k!"plotinvisibletext" then return { o with plotInvisibleText := (← item.idx 1).is k!"true" }
  else if k.is k!"sketchpadsonfab" then return { o with sketchPadsOnFab := (← item.idx 1).is k!"true" }
  else if k.is k!"subtractmaskfromsilk" then return { o with subtractMaskFromSilk := (← item.idx 1).is k!"true" }
  else if k.is k!"outputformat" then return { o with outputFormat := ← item.idx 1 }
  else if k.is k!"mirror" then return { o with mirror := (← item.idx 1).is k!"true" }
  else if k.is k!"drillshape" then return { o with drillShape := ← item.idx 1 }
  else if k.is k!"scaleselection" then return { o with scaleSelection := ← item.idx 1 }
  else if k.is k!"outputdirectory" then return { o with outputDirectory := ← item.idx 1 }
  else return o

/-- brditems.py 542–598 -/
def PlotSettings.fromSexpr (exp : Val) : PyM PlotSettings := do
  forM PlotSettings.step {} (← checkHead k!"pcbplotparams" exp)

/-- brditems.py 600–654. `useauxorigin` is always written as `false` (line 634). The parts that can raise are
evaluated first, in the order of the code. -/
def PlotSettings.toSexpr (o : PlotSettings) (indent : Nat := 4) (newline : Bool := true) : PyM Str := do
  let dash ← optSM o.dashedLineDashRatio fun t => do return py!"{indents indent}  (dashed_line_dash_ratio {← floatFixed 6 t})\n"
  let gap ← optSM o.dashedLineGapRatio fun t => do return py!"{indents indent}  (dashed_line_gap_ratio {← floatFixed 6 t})\n"
  let pen ← floatFixed 6 o.hpglPenDiameter
  return py!"{indents indent}(pcbplotparams\n" ++
  py!"{indents indent}  (layerselection {o.layerSelection.pyStr})\n" ++
  (optS o.plotOnAllLayersSelection fun t => py!"{indents indent}  (plot_on_all_layers_selection {t.pyStr})\n") ++
  py!"{indents indent}  (disableapertmacros {trueFalse o.disableApertMacros})\n" ++
  py!"{indents indent}  (usegerberextensions {trueFalse o.useGerberExtensions})\n" ++
  py!"{indents indent}  (usegerberattributes {trueFalse o.useGerberAttributes})\n" ++
  py!"{indents indent}  (usegerberadvancedattributes {trueFalse o.useGerberAdvancedAttributes})\n" ++
  py!"{indents indent}  (creategerberjobfile {trueFalse o.createGerberJobFile})\n" ++
  dash ++
  gap ++
  (optS o.svgUseInch fun t => py!"{indents indent}  (svguseinch {trueFalse t})\n") ++
  py!"{indents indent}  (svgprecision {o.svgPrecision.pyStr})\n" ++
  (optS o.excludeEdgeLayer fun t => py!"{indents indent}  (excludeedgelayer {trueFalse t})\n") ++
  py!"{indents indent}  (plotframeref {trueFalse o.plotFameRef})\n" ++
  py!"{indents indent}  (viasonmask {trueFalse o.viasOnMask})\n" ++
  py!"{indents indent}  (mode {o.mode.pyStr})\n" ++
  py!"{indents indent}  (useauxorigin false)\n" ++
  py!"{indents indent}  (hpglpennumber {o.hpglPenNumber.pyStr})\n" ++
  py!"{indents indent}  (hpglpenspeed {o.hpglPenSpeed.pyStr})\n" ++
  py!"{indents indent}  (hpglpendiameter {pen})\n" ++
  py!"{indents indent}  (dxfpolygonmode {trueFalse o.dxfPolygonMode})\n" ++
  py!"{indents indent}  (dxfimperialunits {trueFalse o.dxfImperialUnits})\n" ++
  py!"{indents indent}  (dxfusepcbnewfont {trueFalse o.dxfUsePcbnewFont})\n" ++
  py!"{indents indent}  (psnegative {trueFalse o.psNegative})\n" ++
  py!"{indents indent}  (psa4output {trueFalse o.psA4Output})\n" ++
  py!"{indents indent}  (plotreference {trueFalse o.plotReference})\n" ++
  py!"{indents indent}  (plotvalue {trueFalse o.plotValue})\n" ++
  py!"{indents indent}  (plotinvisibletext {trueFalse o.plotInvisibleText})\n" ++
  py!"{indents indent}  (sketchpadsonfab {trueFalse o.sketchPadsOnFab})\n" ++
  py!"{indents indent}  (subtractmaskfromsilk {trueFalse o.subtractMaskFromSilk})\n" ++
  py!"{indents indent}  (outputformat {o.outputFormat.pyStr})\n" ++
  py!"{indents indent}  (mirror {trueFalse o.mirror})\n" ++
  py!"{indents indent}  (drillshape {o.drillShape.pyStr})\n" ++
  py!"{indents indent}  (scaleselection {o.scaleSelection.pyStr})\n" ++
  py!"{indents indent}  (outputdirectory \"{dq o.outputDirectory}\")\n" ++
  py!"{indents indent}){endl newline}"

/-- brditems.py 657–695 -/
structure SetupData where
  stackup : Option Stackup := none
  packToMaskClearance : Val := fl k!"0" k!"0"
  solderMaskMinWidth : Option Val := none
  padToPasteClearance : Option Val := none
  padToPasteClearanceRatio : Option Val := none
  auxAxisOrigin : Option Position := none
  gridOrigin : Option Position := none
  plotSettings : Option PlotSettings := none
derive_canon SetupData

/-- Loop body, brditems.py 718–727 (line 727 repeats line 720) -/
def SetupData.step (o : SetupData) (item : Val) : PyM SetupData := do
  let k ← item.idx 0
  if k.is k!"stackup" then return { o with stackup := some (← Stackup.fromSexpr item) }
  else if k.is k!"pcbplotparams" then return { o with plotSettings := some (← PlotSettings.fromSexpr item) }
  else if k.is k!"pad_to_mask_clearance" then return { o with packToMaskClearance := ← item.idx 1 }
  else if k.is k!"solder_mask_min_width" then return { o with solderMaskMinWidth := some (← item.idx 1) }
  else if k.is k!"pad_to_paste_clearance" then return { o with padToPasteClearance := some (← item.idx 1) }
  else if k.is k!"pad_to_paste_clearance_ratio" then return { o with padToPasteClearanceRatio := some (← item.idx 1) }
  else if k.is k!"aux_axis_origin" then return { o with auxAxisOrigin := some (← Position.fromSexpr item) }
  else if k.is k!"grid_origin" then return { o with gridOrigin := some (← Position.fromSexpr item) }
  else return o

/-- brditems.py 697–728 -/
def SetupData.fromSexpr (exp : Val) : PyM SetupData := do
  forM SetupData.step {} (← checkHead k!"setup" exp)

/-- brditems.py 730–753 -/
def SetupData.toSexpr (o : SetupData) (indent : Nat := 2) (newline : Bool := true) : PyM Str := do
  let plotSettings ← optSM o.plotSettings fun t => t.toSexpr (indent + 2)
  return py!"{indents indent}(setup\n" ++
  (optS o.stackup fun t => t.toSexpr (indent + 2)) ++
  py!"{indents indent}  (pad_to_mask_clearance {o.packToMaskClearance.pyStr})\n" ++
  (optS o.solderMaskMinWidth fun t => py!"{indents indent}  (solder_mask_min_width {t.pyStr})\n") ++
  (optS o.padToPasteClearance fun t => py!"{indents indent}  (pad_to_paste_clearance {t.pyStr})\n") ++
  (optS o.padToPasteClearanceRatio fun t => py!"{indents indent}  (pad_to_paste_clearance_ratio {t.pyStr})\n") ++
  (optS o.auxAxisOrigin fun p => py!"{indents indent}  (aux_axis_origin {p.X.pyStr} {p.Y.pyStr})\n") ++
  (optS o.gridOrigin fun p => py!"{indents indent}  (grid_origin {p.X.pyStr} {p.Y.pyStr})\n") ++
  plotSettings ++
  py!"{indents indent}){endl newline}"

/-- brditems.py 756–784 -/
structure Segment where
  start : Position := {}
  «end» : Position := {}
  width : Val := fl k!"0" k!"1"
  layer : Val := st k!"F.Cu"
  locked : Bool := false
  net : Val := .int 0
  tstamp : Val := st k!""
derive_canon Segment

/-- Loop body, brditems.py 807–816 -/
def Segment.step (o : Segment) (item : Val) : PyM Segment :=
  match item with
  | .list _ => do
    let k ← item.idx 0
    if k.is k!"start" then return { o with start := ← Position.fromSexpr item }
    else if k.is k!"end" then return { o with «end» := ← Position.fromSexpr item }
    else if k.is k!"width" then return { o with width := ← item.idx 1 }
    else if k.is k!"layer" then return { o with layer := ← item.idx 1 }
    else if k.is k!"net" then return { o with net := ← item.idx 1 }
    else if k.is k!"tstamp" then return { o with tstamp := ← item.idx 1 }
    else return o
  | _ => if item.is k!"locked" then return { o with locked := true } else return o

/-- brditems.py 786–817 -/
def Segment.fromSexpr (exp : Val) : PyM Segment := do
  forM Segment.step {} (← checkHead k!"segment" exp)

/-- brditems.py 819–833 -/
def Segment.toSexpr (o : Segment) (indent : Nat := 2) (newline : Bool := true) : Str :=
  let locked := ifS o.locked py!" locked"
  py!"{indents indent}(segment{locked} (start {o.start.X.pyStr} {o.start.Y.pyStr}) (end {o.«end».X.pyStr} {o.«end».Y.pyStr}) (width {o.width.pyStr}) (layer \"{dq o.layer}\") (net {o.net.pyStr}) (tstamp {o.tstamp.pyStr})){endl newline}"

/-- brditems.py 835–877 -/
structure Via where
  type : Option Val := none
  locked : Bool := false
  position : Position := {}
  size : Val := fl k!"0" k!"0"
  drill : Val := fl k!"0" k!"0"
  layers : List Val := []
  removeUnusedLayers : Bool := false
  keepEndLayers : Bool := false
  free : Bool := false
  net : Val := .int 0
  tstamp : Option Val := none
derive_canon Via

/-- Loop body, brditems.py 900–915 -/
def Via.step (o : Via) (item : Val) : PyM Via :=
  match item with
  | .list _ => do
    let k ← item.idx 0
    if k.is k!"at" then return { o with position := ← Position.fromSexpr item }
    else if k.is k!"size" then return { o with size := ← item.idx 1 }
    else if k.is k!"drill" then return { o with drill := ← item.idx 1 }
    else if k.is k!"layers" then return { o with layers := o.layers ++ (← item.slice 1) }
    else if k.is k!"remove_unused_layers" then return { o with removeUnusedLayers := true }
    else if k.is k!"keep_end_layers" then return { o with keepEndLayers := true }
    else if k.is k!"free" then return { o with free := true }
    else if k.is k!"net" then return { o with net := ← item.idx 1 }
    else if k.is k!"tstamp" then return { o with tstamp := some (← item.idx 1) }
    else return o
  | _ => if item.is k!"locked" then return { o with locked := true }
    else if item.is k!"micro" || item.is k!"blind" then return { o with type := some item }
    else return o

/-- brditems.py 879–916 -/
def Via.fromSexpr (exp : Val) : PyM Via := do
  forM Via.step {} (← checkHead k!"via" exp)

/-- brditems.py 918–942 -/
def Via.toSexpr (o : Via) (indent : Nat := 2) (newline : Bool := true) : Str :=
  let type := optS o.type fun t => py!" {t.pyStr}"
  let locked := ifS o.locked py!" locked"
  let layers := forS o.layers fun l => py!" \"{dq l}\""
  let rum := ifS o.removeUnusedLayers py!" (remove_unused_layers)"
  let kel := ifS o.keepEndLayers py!" (keep_end_layers)"
  let free := ifS o.free py!" (free)"
  let tstamp := optS o.tstamp fun t => py!" (tstamp {t.pyStr})"
  py!"{indents indent}(via{type}{locked} (at {o.position.X.pyStr} {o.position.Y.pyStr}) (size {o.size.pyStr}) (drill {o.drill.pyStr}) (layers{layers}){rum}{kel}{free} (net {o.net.pyStr}){tstamp}){endl newline}"

/-- brditems.py 944–976 (class `Arc`) -/
structure TraceArc where
  start : Position := {}
  mid : Position := {}
  «end» : Position := {}
  width : Val := fl k!"0" k!"2"
  layer : Val := st k!"F.Cu"
  locked : Bool := false
  net : Val := .int 0
  tstamp : Option Val := none
derive_canon TraceArc

/-- Loop body, brditems.py 999–1009 -/
def TraceArc.step (o : TraceArc) (item : Val) : PyM TraceArc :=
  match item with
  | .list _ => do
    let k ← item.idx 0
    if k.is k!"start" then return { o with start := ← Position.fromSexpr item }
    else if k.is k!"mid" then return { o with mid := ← Position.fromSexpr item }
    else if k.is k!"end" then return { o with «end» := ← Position.fromSexpr item }
    else if k.is k!"width" then return { o with width := ← item.idx 1 }
    else if k.is k!"layer" then return { o with layer := ← item.idx 1 }
    else if k.is k!"net" then return { o with net := ← item.idx 1 }
    else if k.is k!"tstamp" then return { o with tstamp := some (← item.idx 1) }
    else return o
  | _ => if item.is k!"locked" then return { o with locked := true } else return o

/-- brditems.py 978–1010 -/
def TraceArc.fromSexpr (exp : Val) : PyM TraceArc := do
  forM TraceArc.step {} (← checkHead k!"arc" exp)

/-- brditems.py 1012–1032 -/
def TraceArc.toSexpr (o : TraceArc) (indent : Nat := 2) (newline : Bool := true) : Str :=
  let locked := ifS o.locked py!" locked"
  let tstamp := optS o.tstamp fun t => py!" (tstamp {t.pyStr})"
  py!"{indents indent}(arc{locked} (start {o.start.X.pyStr} {o.start.Y.pyStr}) " ++
  py!"(mid {o.mid.X.pyStr} {o.mid.Y.pyStr}) (end {o.«end».X.pyStr} {o.«end».Y.pyStr}) " ++
  py!"(width {o.width.pyStr}) (layer \"{dq o.layer}\") " ++
  py!"(net {o.net.pyStr}){tstamp}){endl newline}"

/-- brditems.py 1035–1059 -/
structure Target where
  type : Val := st k!"plus"
  position : Position := {}
  size : Val := .int 0
  width : Val := fl k!"0" k!"1"
  layer : Val := st k!"F.Cu"
  tstamp : Option Val := none
derive_canon Target

/-- Loop body, brditems.py 1083–1088 -/
def Target.step (o : Target) (item : Val) : PyM Target := do
  let k ← item.idx 0
  if k.is k!"at" then return { o with position := ← Position.fromSexpr item }
  else if k.is k!"size" then return { o with size := ← item.idx 1 }
  else if k.is k!"width" then return { o with width := ← item.idx 1 }
  else if k.is k!"layer" then return { o with layer := ← item.idx 1 }
  else if k.is k!"tstamp" then return { o with tstamp := some (← item.idx 1) }
  else return o

/-- brditems.py 1061–1089 -/
def Target.fromSexpr (exp : Val) : PyM Target := do
  let l ← checkHead k!"target" exp
  let a1 ← getI l 1
  forM Target.step { type := a1 } (l.drop 2)

/-- brditems.py 1091–1104. The layer is written without escapes, a missing time stamp as `None`. -/
def Target.toSexpr (o : Target) (indent : Nat := 2) (newline : Bool := true) : Str :=
  py!"{indents indent}(target {o.type.pyStr} (at {o.position.X.pyStr} {o.position.Y.pyStr}) (size {o.size.pyStr}) (width {o.width.pyStr}) (layer \"{o.layer.pyStr}\") (tstamp {optPyStr o.tstamp})){endl newline}"

end Kiutils
