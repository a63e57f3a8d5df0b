import Verif.Model.Files
import Verif.Tracks.Common
import Verif.Tracks.Libraries
import Verif.Tracks.Dru
import Verif.Tracks.Wks
import Verif.Tracks.SyItems
import Verif.Tracks.Symbol
import Verif.Tracks.SymbolUnits
import Verif.Tracks.SchItems
import Verif.Tracks.Schematic
import Verif.Tracks.GrItems
import Verif.Tracks.FpItems
import Verif.Tracks.Zones
import Verif.Tracks.Footprint
import Verif.Tracks.BrdItems
import Verif.Tracks.Dimensions
import Verif.Tracks.Board
/-!
# The attributes of new objects (C60)

What the constructors give to the attributes that are not mentioned, written down from the class bodies in /repo; the theorems say
that the model has the same. `{}` as the value of an attribute is a new object of its class. (The default of the attribute `tedit` is the
time of the import, C52. The defaults of `NetclassFlag.position` and `NetclassFlag.effects` are classes, not objects: see the model.)
-/
namespace Kiutils

/-- board.py 40–92 -/
theorem C60_Board : ({} : Board) =
    {
      version := .str []
      generator := .str []
      general := {}
      paper := {}
      titleBlock := none
      layers := []
      setup := {}
      properties := []
      nets := []
      footprints := []
      graphicItems := []
      traceItems := []
      zones := []
      dimensions := []
      targets := []
      groups := []
      filePath := none } := rfl

/-- dru.py 29–57 -/
theorem C60_Constraint : ({} : Constraint) =
    {
      type := .str k!"clearance"
      min := none
      opt := none
      max := none
      elements := [] } := rfl

/-- dru.py 126–140 -/
theorem C60_Rule : ({} : Rule) =
    {
      name := .str []
      constraints := []
      condition := .str []
      layer := none
      severity := none } := rfl

/-- dru.py 201–207 -/
theorem C60_DesignRules : ({} : DesignRules) =
    {
      version := .int 1
      rules := []
      filePath := none } := rfl

/-- footprint.py 41–57 -/
theorem C60_Attributes : ({} : Attributes) =
    {
      type := none
      boardOnly := false
      excludeFromPosFiles := false
      excludeFromBom := false
      allowMissingCourtyard := false } := rfl

/-- footprint.py 142–157 -/
theorem C60_Model : ({} : Model) =
    {
      path := .str []
      pos := { X := fl k!"0" k!"0", Y := fl k!"0" k!"0", Z := fl k!"0" k!"0" }
      scale := { X := fl k!"1" k!"0", Y := fl k!"1" k!"0", Z := fl k!"1" k!"0" }
      rotate := { X := fl k!"0" k!"0", Y := fl k!"0" k!"0", Z := fl k!"0" k!"0" }
      hide := false
      opacity := none } := rfl

/-- footprint.py 228–237 -/
theorem C60_DrillDefinition : ({} : DrillDefinition) =
    {
      oval := false
      diameter := fl k!"0" k!"0"
      width := none
      offset := none } := rfl

/-- footprint.py 304–308 -/
theorem C60_PadOptions : ({} : PadOptions) =
    {
      clearance := .str k!"outline"
      anchor := .str k!"rect" } := rfl

/-- footprint.py 361–476 -/
theorem C60_Pad : ({} : Pad) =
    {
      number := .str k!"x"
      type := .str k!"smd"
      shape := .str k!"rect"
      position := {}
      locked := false
      size := {}
      drill := none
      layers := []
      property := none
      removeUnusedLayers := false
      keepEndLayers := false
      roundrectRatio := none
      chamferRatio := none
      chamfer := []
      net := none
      tstamp := none
      pinFunction := none
      pinType := none
      dieLength := none
      solderMaskMargin := none
      solderPasteMargin := none
      solderPasteMarginRatio := none
      clearance := none
      zoneConnect := none
      thermalWidth := none
      thermalGap := none
      customPadOptions := none
      customPadPrimitives := [] } := rfl

/-- footprint.py 706–836 -/
theorem C60_Footprint (tedit : Val) : ({ tedit := tedit } : Footprint) =
    {
      libraryNickname := none
      entryName := none
      version := none
      generator := none
      locked := false
      placed := false
      layer := .str k!"F.Cu"
      tedit := tedit
      tstamp := none
      position := none
      description := none
      tags := none
      properties := []
      path := none
      autoplaceCost90 := none
      autoplaceCost180 := none
      solderMaskMargin := none
      solderPasteMargin := none
      solderPasteRatio := none
      clearance := none
      zoneConnect := none
      thermalWidth := none
      thermalGap := none
      attributes := {}
      privateLayers := []
      netTiePadGroups := []
      graphicItems := []
      pads := []
      zones := []
      groups := []
      models := []
      filePath := none } := rfl

/-- items/brditems.py 32–32 -/
theorem C60_GeneralSettings : ({} : GeneralSettings) =
    {
      thickness := fl k!"1" k!"6" } := rfl

/-- items/brditems.py 87–98 -/
theorem C60_LayerToken : ({} : LayerToken) =
    {
      ordinal := .int 0
      name := .str k!"F.Cu"
      type := .str k!"signal"
      userName := none } := rfl

/-- items/brditems.py 148–157 -/
theorem C60_StackupSubLayer : ({} : StackupSubLayer) =
    {
      thickness := fl k!"0" k!"1"
      material := none
      epsilonR := none
      lossTangent := none } := rfl

/-- items/brditems.py 200–228 -/
theorem C60_StackupLayer : ({} : StackupLayer) =
    {
      name := .str []
      type := .str []
      color := none
      thickness := none
      material := none
      epsilonR := none
      lossTangent := none
      subLayers := [] } := rfl

/-- items/brditems.py 327–347 -/
theorem C60_Stackup : ({} : Stackup) =
    {
      layers := []
      copperFinish := none
      dielectricContraints := none
      edgeConnector := none
      castellatedPads := false
      edgePlating := false } := rfl

/-- items/brditems.py 413–538 -/
theorem C60_PlotSettings : ({} : PlotSettings) =
    {
      layerSelection := .str []
      plotOnAllLayersSelection := none
      disableApertMacros := false
      useGerberExtensions := false
      useGerberAttributes := false
      useGerberAdvancedAttributes := false
      createGerberJobFile := false
      dashedLineDashRatio := none
      dashedLineGapRatio := none
      svgUseInch := none
      svgPrecision := fl k!"0" k!"0"
      excludeEdgeLayer := none
      plotFameRef := false
      viasOnMask := false
      mode := .int 1
      useAuxOrigin := false
      hpglPenNumber := .int 0
      hpglPenSpeed := .int 0
      hpglPenDiameter := fl k!"0" k!"0"
      dxfPolygonMode := false
      dxfImperialUnits := false
      dxfUsePcbnewFont := false
      psNegative := false
      psA4Output := false
      plotReference := false
      plotValue := false
      plotInvisibleText := false
      sketchPadsOnFab := false
      subtractMaskFromSilk := false
      outputFormat := .int 0
      mirror := false
      drillShape := .int 0
      scaleSelection := .int 1
      outputDirectory := .str [] } := rfl

/-- items/brditems.py 666–694 -/
theorem C60_SetupData : ({} : SetupData) =
    {
      stackup := none
      packToMaskClearance := fl k!"0" k!"0"
      solderMaskMinWidth := none
      padToPasteClearance := none
      padToPasteClearanceRatio := none
      auxAxisOrigin := none
      gridOrigin := none
      plotSettings := none } := rfl

/-- items/brditems.py 764–783 -/
theorem C60_Segment : ({} : Segment) =
    {
      start := {}
      «end» := {}
      width := fl k!"0" k!"1"
      layer := .str k!"F.Cu"
      locked := false
      net := .int 0
      tstamp := .str [] } := rfl

/-- items/brditems.py 843–876 -/
theorem C60_Via : ({} : Via) =
    {
      type := none
      locked := false
      position := {}
      size := fl k!"0" k!"0"
      drill := fl k!"0" k!"0"
      layers := []
      removeUnusedLayers := false
      keepEndLayers := false
      free := false
      net := .int 0
      tstamp := none } := rfl

/-- items/brditems.py 953–975 -/
theorem C60_TraceArc : ({} : TraceArc) =
    {
      start := {}
      mid := {}
      «end» := {}
      width := fl k!"0" k!"2"
      layer := .str k!"F.Cu"
      locked := false
      net := .int 0
      tstamp := none } := rfl

/-- items/schitems.py 1682–1697 -/
theorem C60_Arc : ({} : Arc) =
    {
      start := {}
      mid := {}
      «end» := {}
      stroke := {}
      fill := {}
      uuid := none } := rfl

/-- items/brditems.py 1043–1058 -/
theorem C60_Target : ({} : Target) =
    {
      type := .str k!"plus"
      position := {}
      size := .int 0
      width := fl k!"0" k!"1"
      layer := .str k!"F.Cu"
      tstamp := none } := rfl

/-- items/common.py 33–45 -/
theorem C60_Position : ({} : Position) =
    {
      X := fl k!"0" k!"0"
      Y := fl k!"0" k!"0"
      angle := none
      unlocked := false } := rfl

/-- items/common.py 87–93 -/
theorem C60_Coordinate : ({} : Coordinate) =
    {
      X := fl k!"0" k!"0"
      Y := fl k!"0" k!"0"
      Z := fl k!"0" k!"0" } := rfl

/-- items/common.py 141–153 -/
theorem C60_ColorRGBA : ({} : ColorRGBA) =
    {
      R := .int 0
      G := .int 0
      B := .int 0
      A := .int 0
      precision := none } := rfl

/-- items/common.py 212–221 -/
theorem C60_Stroke : ({} : Stroke) =
    {
      width := fl k!"0" k!"0"
      type := none
      color := none } := rfl

/-- items/common.py 279–302 -/
theorem C60_Font : ({} : Font) =
    {
      face := none
      height := fl k!"1" k!"0"
      width := fl k!"1" k!"0"
      thickness := none
      bold := false
      italic := false
      lineSpacing := none
      color := none } := rfl

/-- items/common.py 374–380 -/
theorem C60_Justify : ({} : Justify) =
    {
      horizontally := none
      vertically := none
      mirror := false } := rfl

/-- items/common.py 446–455 -/
theorem C60_Effects : ({} : Effects) =
    {
      font := {}
      justify := {}
      hide := false
      href := none } := rfl

/-- items/common.py 515–518 -/
theorem C60_Net : ({} : Net) =
    {
      number := .int 0
      name := .str [] } := rfl

/-- items/common.py 569–578 -/
theorem C60_Group : ({} : Group) =
    {
      name := .str []
      locked := false
      id := .str []
      members := [] } := rfl

/-- items/common.py 643–654 -/
theorem C60_PageSettings : ({} : PageSettings) =
    {
      paperSize := .str k!"A4"
      width := none
      height := none
      portrait := false } := rfl

/-- items/common.py 725–737 -/
theorem C60_TitleBlock : ({} : TitleBlock) =
    {
      title := none
      date := none
      revision := none
      company := none
      comments := [] } := rfl

/-- items/common.py 809–827 -/
theorem C60_Property : ({} : Property) =
    {
      key := .str []
      value := .str []
      id := none
      position := { angle := some (.int 0) }
      effects := none
      showName := false } := rfl

/-- items/common.py 895–895 -/
theorem C60_RenderCachePolygon : ({} : RenderCachePolygon) =
    {
      pts := [] } := rfl

/-- items/common.py 963–969 -/
theorem C60_RenderCache : ({} : RenderCache) =
    {
      text := .str []
      id := .int 0
      polygons := [] } := rfl

/-- items/common.py 1026–1033 -/
theorem C60_Fill : ({} : Fill) =
    {
      type := .str k!"none"
      color := none } := rfl

/-- items/common.py 1089–1102 -/
theorem C60_Image : ({} : Image) =
    {
      position := {}
      scale := none
      data := []
      uuid := none
      layer := none } := rfl

/-- items/dimensions.py 34–62 -/
theorem C60_DimensionFormat : ({} : DimensionFormat) =
    {
      «prefix» := none
      suffix := none
      units := .int 3
      unitsFormat := .int 1
      precision := .int 4
      overrideValue := none
      suppressZeroes := false } := rfl

/-- items/dimensions.py 128–157 -/
theorem C60_DimensionStyle : ({} : DimensionStyle) =
    {
      thickness := fl k!"0" k!"0"
      arrowLength := fl k!"0" k!"0"
      textPositionMode := .int 0
      extensionHeight := none
      textFrame := none
      extensionOffset := none
      keepTextAligned := false } := rfl

/-- items/dimensions.py 224–259 -/
theorem C60_Dimension : ({} : Dimension) =
    {
      locked := false
      type := .str k!"aligned"
      layer := .str k!"F.Cu"
      tstamp := none
      pts := []
      height := none
      orientation := none
      leaderLength := none
      grText := none
      format := none
      style := {} } := rfl

/-- items/fpitems.py 37–64 -/
theorem C60_FpText : ({} : FpText) =
    {
      type := .str k!"reference"
      text := .str k!"%REF"
      position := {}
      layer := .str k!"F.Cu"
      knockout := false
      hide := false
      effects := {}
      tstamp := none
      renderCache := none } := rfl

/-- items/fpitems.py 143–163 -/
theorem C60_FpLine : ({} : FpLine) =
    {
      start := {}
      «end» := {}
      layer := .str k!"F.Cu"
      width := some (fl k!"0" k!"12")
      stroke := none
      locked := false
      tstamp := none } := rfl

/-- items/fpitems.py 235–257 -/
theorem C60_FpRect : ({} : FpRect) =
    {
      start := {}
      «end» := {}
      layer := .str k!"F.Cu"
      width := some (fl k!"0" k!"12")
      stroke := none
      fill := none
      locked := false
      tstamp := none } := rfl

/-- items/fpitems.py 336–376 -/
theorem C60_FpTextBox : ({} : FpTextBox) =
    {
      locked := false
      text := .str []
      start := none
      «end» := none
      pts := []
      angle := none
      layer := .str k!"F.Cu"
      tstamp := none
      effects := none
      stroke := none
      renderCache := none } := rfl

/-- items/fpitems.py 481–503 -/
theorem C60_FpCircle : ({} : FpCircle) =
    {
      center := {}
      «end» := {}
      layer := .str k!"F.Cu"
      width := some (fl k!"0" k!"12")
      stroke := none
      fill := none
      locked := false
      tstamp := none } := rfl

/-- items/fpitems.py 580–601 -/
theorem C60_FpArc : ({} : FpArc) =
    {
      start := {}
      mid := {}
      «end» := {}
      layer := .str k!"F.Cu"
      width := some (fl k!"0" k!"12")
      stroke := none
      locked := false
      tstamp := none } := rfl

/-- items/fpitems.py 677–696 -/
theorem C60_FpPoly : ({} : FpPoly) =
    {
      layer := .str k!"F.Cu"
      coordinates := []
      width := some (fl k!"0" k!"12")
      stroke := none
      fill := none
      locked := false
      tstamp := none } := rfl

/-- items/fpitems.py 782–797 -/
theorem C60_FpCurve : ({} : FpCurve) =
    {
      coordinates := []
      layer := .str k!"F.Cu"
      width := some (fl k!"0" k!"12")
      stroke := none
      locked := false
      tstamp := none } := rfl

/-- items/gritems.py 34–57 -/
theorem C60_GrText : ({} : GrText) =
    {
      text := .str []
      knockout := false
      position := {}
      layer := none
      effects := {}
      tstamp := none
      locked := false
      renderCache := none } := rfl

/-- items/gritems.py 136–176 -/
theorem C60_GrTextBox : ({} : GrTextBox) =
    {
      locked := false
      text := .str []
      start := none
      «end» := none
      pts := []
      angle := none
      layer := .str k!"F.Cu"
      tstamp := none
      effects := none
      stroke := none
      renderCache := none } := rfl

/-- items/gritems.py 283–301 -/
theorem C60_GrLine : ({} : GrLine) =
    {
      start := {}
      «end» := {}
      angle := none
      layer := none
      width := some (fl k!"0" k!"12")
      tstamp := none
      locked := false } := rfl

/-- items/gritems.py 364–382 -/
theorem C60_GrRect : ({} : GrRect) =
    {
      start := {}
      «end» := {}
      layer := none
      width := some (fl k!"0" k!"12")
      fill := none
      tstamp := none
      locked := false } := rfl

/-- items/gritems.py 446–464 -/
theorem C60_GrCircle : ({} : GrCircle) =
    {
      center := {}
      «end» := {}
      layer := none
      width := some (fl k!"0" k!"12")
      fill := none
      tstamp := none
      locked := false } := rfl

/-- items/gritems.py 529–547 -/
theorem C60_GrArc : ({} : GrArc) =
    {
      start := {}
      mid := {}
      «end» := {}
      layer := none
      width := some (fl k!"0" k!"12")
      tstamp := none
      locked := false } := rfl

/-- items/gritems.py 611–626 -/
theorem C60_GrPoly : ({} : GrPoly) =
    {
      layer := none
      coordinates := []
      width := some (fl k!"0" k!"12")
      fill := none
      tstamp := none
      locked := false } := rfl

/-- items/gritems.py 707–719 -/
theorem C60_GrCurve : ({} : GrCurve) =
    {
      coordinates := []
      layer := none
      width := some (fl k!"0" k!"12")
      tstamp := none
      locked := false } := rfl

/-- items/schitems.py 33–44 -/
theorem C60_Junction : ({} : Junction) =
    {
      position := {}
      diameter := .int 0
      color := .rgba {}
      uuid := none } := rfl

/-- items/schitems.py 99–102 -/
theorem C60_NoConnect : ({} : NoConnect) =
    {
      position := {}
      uuid := none } := rfl

/-- items/schitems.py 155–165 -/
theorem C60_BusEntry : ({} : BusEntry) =
    {
      position := {}
      uuid := none
      size := {}
      stroke := {} } := rfl

/-- items/schitems.py 224–227 -/
theorem C60_BusAlias : ({} : BusAlias) =
    {
      name := .str []
      members := [] } := rfl

/-- items/schitems.py 289–299 -/
theorem C60_Connection : ({} : Connection) =
    {
      type := .str k!"wire"
      points := []
      stroke := {}
      uuid := none } := rfl

/-- items/schitems.py 364–371 -/
theorem C60_PolyLine : ({} : PolyLine) =
    {
      points := []
      stroke := {}
      uuid := none } := rfl

/-- items/schitems.py 435–444 -/
theorem C60_Text : ({} : Text) =
    {
      text := .str []
      position := {}
      effects := {}
      uuid := none } := rfl

/-- items/schitems.py 513–531 -/
theorem C60_TextBox : ({} : TextBox) =
    {
      text := .str []
      position := {}
      size := {}
      stroke := {}
      fill := {}
      effects := {}
      uuid := none } := rfl

/-- items/schitems.py 598–610 -/
theorem C60_LocalLabel : ({} : LocalLabel) =
    {
      text := .str []
      position := {}
      effects := {}
      uuid := none
      fieldsAutoplaced := false } := rfl

/-- items/schitems.py 674–694 -/
theorem C60_GlobalLabel : ({} : GlobalLabel) =
    {
      text := .str []
      shape := .str k!"input"
      fieldsAutoplaced := false
      position := {}
      effects := {}
      uuid := none
      properties := [] } := rfl

/-- items/schitems.py 763–779 -/
theorem C60_HierarchicalLabel : ({} : HierarchicalLabel) =
    {
      text := .str []
      shape := .str k!"input"
      position := {}
      effects := {}
      uuid := none
      fieldsAutoplaced := false } := rfl

/-- items/schitems.py 847–854 -/
theorem C60_SymbolProjectPath : ({} : SymbolProjectPath) =
    {
      sheetInstancePath := .str []
      reference := .str []
      unit := .int 1 } := rfl

/-- items/schitems.py 1170–915 -/
theorem C60_SymbolProjectInstance : ({} : SymbolProjectInstance) =
    {
      name := .str []
      paths := [] } := rfl

/-- items/schitems.py 1004–1056 -/
theorem C60_SchematicSymbol : ({} : SchematicSymbol) =
    {
      libraryNickname := none
      entryName := none
      libName := none
      position := {}
      unit := none
      inBom := false
      onBoard := false
      dnp := none
      fieldsAutoplaced := false
      uuid := some (.str [])
      properties := []
      pins := []
      mirror := none
      instances := [] } := rfl

/-- items/schitems.py 1152–1166 -/
theorem C60_HierarchicalPin : ({} : HierarchicalPin) =
    {
      name := .str []
      connectionType := .str k!"input"
      position := {}
      effects := {}
      uuid := none } := rfl

/-- items/schitems.py 1232–1235 -/
theorem C60_HierarchicalSheetProjectPath : ({} : HierarchicalSheetProjectPath) =
    {
      sheetInstancePath := .str []
      page := .str [] } := rfl

/-- items/schitems.py 1170–1291 -/
theorem C60_HierarchicalSheetProjectInstance : ({} : HierarchicalSheetProjectInstance) =
    {
      name := .str []
      paths := [] } := rfl

/-- items/schitems.py 1346–1384 -/
theorem C60_HierarchicalSheet : ({} : HierarchicalSheet) =
    {
      position := {}
      width := .int 0
      height := .int 0
      fieldsAutoplaced := false
      stroke := {}
      fill := {}
      uuid := none
      sheetName := { key := .str k!"Sheet name" }
      fileName := { key := .str k!"Sheet file" }
      properties := []
      pins := []
      instances := [] } := rfl

/-- items/schitems.py 1476–1479 -/
theorem C60_HierarchicalSheetInstance : ({} : HierarchicalSheetInstance) =
    {
      instancePath := .str k!"/"
      page := .str k!"1" } := rfl

/-- items/schitems.py 1532–1546 -/
theorem C60_SymbolInstance : ({} : SymbolInstance) =
    {
      path := .str k!"/"
      reference := .str []
      unit := .int 0
      value := .str []
      footprint := .str [] } := rfl

/-- items/schitems.py 1606–1618 -/
theorem C60_Rectangle : ({} : Rectangle) =
    {
      start := {}
      «end» := {}
      stroke := {}
      fill := {}
      uuid := none } := rfl

/-- items/schitems.py 1762–1774 -/
theorem C60_Circle : ({} : Circle) =
    {
      center := {}
      radius := fl k!"0" k!"0"
      stroke := {}
      fill := {}
      uuid := none } := rfl

/-- items/schitems.py 1838–1860 -/
theorem C60_NetclassFlag : ({} : NetclassFlag) =
    {
      text := .str []
      length := fl k!"2" k!"54"
      shape := .str k!"round"
      position := {}
      effects := none
      properties := []
      uuid := none
      fieldsAutoplaced := false } := rfl

/-- items/syitems.py 34–52 -/
theorem C60_SyArc : ({} : SyArc) =
    {
      priv := false
      start := {}
      mid := {}
      «end» := {}
      stroke := {}
      fill := {} } := rfl

/-- items/syitems.py 120–135 -/
theorem C60_SyCircle : ({} : SyCircle) =
    {
      priv := false
      center := {}
      radius := fl k!"0" k!"0"
      stroke := {}
      fill := {} } := rfl

/-- items/syitems.py 198–204 -/
theorem C60_SyCurve : ({} : SyCurve) =
    {
      points := []
      stroke := {}
      fill := {} } := rfl

/-- items/syitems.py 267–273 -/
theorem C60_SyPolyLine : ({} : SyPolyLine) =
    {
      points := []
      stroke := {}
      fill := {} } := rfl

/-- items/syitems.py 336–351 -/
theorem C60_SyRect : ({} : SyRect) =
    {
      priv := false
      start := {}
      «end» := {}
      stroke := {}
      fill := {} } := rfl

/-- items/syitems.py 414–420 -/
theorem C60_SyText : ({} : SyText) =
    {
      text := .str []
      position := {}
      effects := {} } := rfl

/-- items/syitems.py 483–505 -/
theorem C60_SyTextBox : ({} : SyTextBox) =
    {
      text := .str []
      priv := false
      position := {}
      size := {}
      stroke := {}
      fill := {}
      effects := {}
      uuid := none } := rfl

/-- items/zones.py 34–50 -/
theorem C60_KeepoutSettings : ({} : KeepoutSettings) =
    {
      tracks := .str k!"allowed"
      vias := .str k!"allowed"
      pads := .str k!"allowed"
      copperpour := .str k!"not-allowed"
      footprints := .str k!"not-allowed" } := rfl

/-- items/zones.py 112–178 -/
theorem C60_FillSettings : ({} : FillSettings) =
    {
      yes := false
      mode := none
      thermalGap := none
      thermalBridgeWidth := none
      smoothingStyle := none
      smoothingRadius := none
      islandRemovalMode := none
      islandAreaMin := none
      hatchThickness := none
      hatchGap := none
      hatchOrientation := none
      hatchSmoothingLevel := none
      hatchSmoothingValue := none
      hatchBorderAlgorithm := none
      hatchMinHoleArea := none } := rfl

/-- items/zones.py 258–258 -/
theorem C60_ZonePolygon : ({} : ZonePolygon) =
    {
      coordinates := [] } := rfl

/-- items/zones.py 324–331 -/
theorem C60_FilledPolygon : ({} : FilledPolygon) =
    {
      layer := .str k!"F.Cu"
      island := false
      coordinates := [] } := rfl

/-- items/zones.py 405–408 -/
theorem C60_FillSegments : ({} : FillSegments) =
    {
      layer := .str k!"F.Cu"
      coordinates := [] } := rfl

/-- items/zones.py 473–477 -/
theorem C60_Hatch : ({} : Hatch) =
    {
      style := .str k!"none"
      pitch := fl k!"0" k!"0" } := rfl

/-- items/zones.py 489–549 -/
theorem C60_Zone : ({} : Zone) =
    {
      locked := false
      net := .int 0
      netName := .str k!"unknown"
      layers := []
      tstamp := none
      name := none
      hatch := {}
      priority := none
      connectPads := none
      clearance := fl k!"0" k!"254"
      minThickness := fl k!"0" k!"254"
      filledAreasThickness := none
      keepoutSettings := none
      fillSettings := none
      polygons := []
      filledPolygons := []
      fillSegments := none } := rfl

/-- libraries.py 27–42 -/
theorem C60_Library : ({} : Library) =
    {
      name := .str []
      type := .str k!"KiCad"
      uri := .str []
      options := .str []
      description := .str []
      active := true } := rfl

/-- libraries.py 106–113 -/
theorem C60_LibTable : ({} : LibTable) =
    {
      type := .str k!"sym_lib_table"
      libs := []
      filePath := none } := rfl

/-- schematic.py 36–113 -/
theorem C60_Schematic : ({} : Schematic) =
    {
      version := .str k!"20211014"
      generator := .str k!"kiutils"
      uuid := none
      paper := {}
      titleBlock := none
      libSymbols := []
      schematicSymbols := []
      junctions := []
      noConnects := []
      busEntries := []
      busAliases := []
      graphicalItems := []
      shapes := []
      images := []
      texts := []
      textBoxes := []
      labels := []
      globalLabels := []
      hierarchicalLabels := []
      netclassFlags := []
      sheets := []
      sheetInstances := []
      symbolInstances := []
      filePath := none } := rfl

/-- symbol.py 30–37 -/
theorem C60_SymbolAlternativePin : ({} : SymbolAlternativePin) =
    {
      pinName := .str []
      electricalType := .str k!"input"
      graphicalStyle := .str k!"line" } := rfl

/-- symbol.py 90–122 -/
theorem C60_SymbolPin : ({} : SymbolPin) =
    {
      electricalType := .str k!"input"
      graphicalStyle := .str k!"line"
      position := {}
      length := fl k!"0" k!"254"
      name := .str []
      nameEffects := none
      number := .str k!"0"
      numberEffects := none
      hide := false
      alternatePins := [] } := rfl

/-- symbol.py 293–355 -/
theorem C60_Symbol : ({} : Symbol) =
    {
      libraryNickname := none
      entryName := none
      unitId := none
      styleId := none
      extends_ := none
      hidePinNumbers := false
      pinNames := false
      pinNamesHide := false
      pinNamesOffset := none
      inBom := none
      onBoard := none
      isPower := false
      properties := []
      graphicItems := []
      pins := []
      units := [] } := rfl

/-- symbol.py 490–499 -/
theorem C60_SymbolLib : ({} : SymbolLib) =
    {
      version := .str k!"20211014"
      generator := none
      symbols := []
      filePath := none } := rfl

/-- wks.py 31–34 -/
theorem C60_WksFontSize : ({} : WksFontSize) =
    {
      width := fl k!"1" k!"0"
      height := fl k!"1" k!"0" } := rfl

/-- wks.py 80–89 -/
theorem C60_WksFont : ({} : WksFont) =
    {
      linewidth := none
      size := none
      bold := false
      italic := false } := rfl

/-- wks.py 152–158 -/
theorem C60_WksPosition : ({} : WksPosition) =
    {
      X := fl k!"0" k!"0"
      Y := fl k!"0" k!"0"
      corner := none } := rfl

/-- wks.py 199–227 -/
theorem C60_Line : ({} : WksShape) =
    {
      name := .str []
      start := {}
      «end» := {}
      option := none
      lineWidth := none
      «repeat» := none
      incrx := none
      incry := none
      comment := none } := rfl

/-- wks.py 298–326 -/
theorem C60_Rect : ({} : WksShape) =
    {
      name := .str []
      start := {}
      «end» := {}
      option := none
      lineWidth := none
      «repeat» := none
      incrx := none
      incry := none
      comment := none } := rfl

/-- wks.py 466–496 -/
theorem C60_Bitmap : ({} : Bitmap) =
    {
      name := .str []
      position := {}
      option := none
      scale := fl k!"1" k!"0"
      «repeat» := none
      incrx := none
      incry := none
      comment := none
      pngdata := [] } := rfl

/-- wks.py 584–628 -/
theorem C60_TbText : ({} : TbText) =
    {
      text := .str []
      name := .str []
      position := {}
      option := none
      rotate := none
      font := {}
      justify := none
      maxlen := none
      maxheight := none
      «repeat» := none
      incrx := none
      incry := none
      incrlabel := none
      comment := none } := rfl

/-- wks.py 707–710 -/
theorem C60_TextSize : ({} : TextSize) =
    {
      width := fl k!"1" k!"5"
      height := fl k!"1" k!"5" } := rfl

/-- wks.py 759–778 -/
theorem C60_Setup : ({} : Setup) =
    {
      textSize := {}
      lineWidth := fl k!"0" k!"15"
      textLineWidth := fl k!"0" k!"15"
      leftMargin := fl k!"10" k!"0"
      rightMargin := fl k!"10" k!"0"
      topMargin := fl k!"10" k!"0"
      bottomMargin := fl k!"10" k!"0" } := rfl

/-- wks.py 841–853 -/
theorem C60_WorkSheet : ({} : WorkSheet) =
    {
      version := .str k!"20211014"
      generator := .str k!"kiutils"
      setup := {}
      drawingObjects := []
      filePath := none } := rfl

/-! ## Lists without any known token

With any children of unknown tokens, `from_sexpr` returns the documented default object; only what is read from fixed places of the
list differs. -/

/-- All items are lists that begin with something else than the words `keys`. -/
def AllUnknown (keys : List Str) (xs : List Val) : Prop := ∀ x ∈ xs, ∃ h r, x = .list (h :: r) ∧ ∀ k ∈ keys, h ≠ .str k

theorem forM_unknown {σ : Type} {step : σ → Val → PyM σ} {keys : List Str} {s : σ}
    (hu : ∀ {h : Val} {r : List Val}, (∀ k ∈ keys, h ≠ .str k) → ∀ o, step o (.list (h :: r)) = .ok o) {pre xs : List Val}
    (hp : forM step s pre = .ok s) (hx : AllUnknown keys xs) : forM step s (pre ++ xs) = .ok s := by
  rw [forM_append, hp]
  change forM step s xs = .ok s
  clear hp
  induction xs with
  | nil => rfl
  | cons x xs ih =>
    obtain ⟨h, r, rfl, hk⟩ := hx x List.mem_cons_self
    simp only [forM, hu hk]
    exact ih fun y hy => hx y (List.mem_cons_of_mem _ hy)

/-- Two items that no class knows: one with the token `zzz`, one that begins with a number. -/
theorem unknown_sample {keys : List Str} (hk : k!"zzz" ∉ keys := by decide) : AllUnknown keys [.list [.str k!"zzz", .int 1], .list [.int 5]] := by
  intro x hx
  rcases List.mem_cons.1 hx with rfl | hx
  · exact ⟨_, _, rfl, fun k hm he => hk (by cases he; exact hm)⟩
  · rw [List.mem_singleton.1 hx]
    exact ⟨_, _, rfl, fun k _ he => by cases he⟩

theorem C60_Font_unknown (xs : List Val) (hx : AllUnknown [k!"face", k!"size", k!"thickness", k!"line_spacing", k!"color"] xs) :
    Font.fromSexpr (.list (.str k!"font" :: xs)) = .ok {
      face := none
      height := fl k!"1" k!"0"
      width := fl k!"1" k!"0"
      thickness := none
      bold := false
      italic := false
      lineSpacing := none
      color := none } :=
  (Font.loopEq  xs).trans (forM_unknown (pre := [.str k!"font"]) Font.unknown rfl hx)
example := C60_Font_unknown [.list [.str k!"zzz", .int 1], .list [.int 5]] unknown_sample

theorem C60_Effects_unknown (xs : List Val) (hx : AllUnknown [k!"font", k!"justify", k!"href"] xs) :
    Effects.fromSexpr (.list (.str k!"effects" :: xs)) = .ok {
      font := {}
      justify := {}
      hide := false
      href := none } :=
  (Effects.loopEq  xs).trans (forM_unknown (pre := [.str k!"effects"]) Effects.unknown rfl hx)
example := C60_Effects_unknown [.list [.str k!"zzz", .int 1], .list [.int 5]] unknown_sample

theorem C60_TitleBlock_unknown (xs : List Val) (hx : AllUnknown [k!"title", k!"date", k!"rev", k!"company", k!"comment"] xs) :
    TitleBlock.fromSexpr (.list (.str k!"title_block" :: xs)) = .ok {
      title := none
      date := none
      revision := none
      company := none
      comments := [] } :=
  (TitleBlock.loopEq  xs).trans (forM_unknown (pre := [.str k!"title_block"]) TitleBlock.unknown rfl hx)
example := C60_TitleBlock_unknown [.list [.str k!"zzz", .int 1], .list [.int 5]] unknown_sample

theorem C60_Property_unknown (key value : Val) (xs : List Val) (hx : AllUnknown [k!"id", k!"at", k!"effects", k!"show_name"] xs) :
    Property.fromSexpr (.list (.str k!"property" :: key :: value :: xs)) = .ok {
      key := key
      value := value
      id := none
      position := { angle := some (.int 0) }
      effects := none
      showName := false } :=
  (Property.loopEq key value xs).trans (forM_unknown (pre := []) Property.unknown rfl hx)
example := C60_Property_unknown (.str k!"x") (.str k!"x") [.list [.str k!"zzz", .int 1], .list [.int 5]] unknown_sample

theorem C60_RenderCachePolygon_unknown (xs : List Val) (hx : AllUnknown [k!"pts"] xs) :
    RenderCachePolygon.fromSexpr (.list (.str k!"polygon" :: xs)) = .ok {
      pts := [] } :=
  (RenderCachePolygon.loopEq  xs).trans (forM_unknown (pre := [.str k!"polygon"]) RenderCachePolygon.unknown rfl hx)
example := C60_RenderCachePolygon_unknown [.list [.str k!"zzz", .int 1], .list [.int 5]] unknown_sample

theorem C60_Fill_unknown (xs : List Val) (hx : AllUnknown [k!"type", k!"color"] xs) :
    Fill.fromSexpr (.list (.str k!"fill" :: xs)) = .ok {
      type := .str k!"none"
      color := none } :=
  (Fill.loopEq  xs).trans (forM_unknown (pre := [.str k!"fill"]) Fill.unknown rfl hx)
example := C60_Fill_unknown [.list [.str k!"zzz", .int 1], .list [.int 5]] unknown_sample

theorem C60_Image_unknown (xs : List Val) (hx : AllUnknown [k!"at", k!"scale", k!"uuid", k!"layer", k!"data"] xs) :
    Image.fromSexpr (.list (.str k!"image" :: xs)) = .ok {
      position := {}
      scale := none
      data := []
      uuid := none
      layer := none } :=
  (Image.loopEq  xs).trans (forM_unknown (pre := [.str k!"image"]) Image.unknown rfl hx)
example := C60_Image_unknown [.list [.str k!"zzz", .int 1], .list [.int 5]] unknown_sample

theorem C60_Library_unknown (xs : List Val) (hx : AllUnknown [k!"name", k!"type", k!"uri", k!"options", k!"descr", k!"disabled"] xs) :
    Library.fromSexpr (.list (.str k!"lib" :: xs)) = .ok {
      name := .str []
      type := .str k!"KiCad"
      uri := .str []
      options := .str []
      description := .str []
      active := true } :=
  (Library.loopEq  xs).trans (forM_unknown (pre := [.str k!"lib"]) Library.unknown rfl hx)
example := C60_Library_unknown [.list [.str k!"zzz", .int 1], .list [.int 5]] unknown_sample

theorem C60_LibTable_unknown {hd : Str} (hh : hd = k!"fp_lib_table" ∨ hd = k!"sym_lib_table") (xs : List Val) (hx : AllUnknown [k!"lib"] xs) :
    LibTable.fromSexpr (.list (.str hd :: xs)) = .ok {
      type := .str hd
      libs := []
      filePath := none } :=
  (LibTable.loopEq hh xs).trans (forM_unknown (pre := [.str hd]) LibTable.unknown (by rcases hh with rfl | rfl <;> rfl) hx)
example := C60_LibTable_unknown (.inl rfl) [.list [.str k!"zzz", .int 1], .list [.int 5]] unknown_sample

theorem C60_Constraint_unknown (type : Val) (xs : List Val) (hx : AllUnknown [k!"min", k!"opt", k!"max"] xs) :
    Constraint.fromSexpr (.list (.str k!"constraint" :: type :: xs)) = .ok {
      type := type
      min := none
      opt := none
      max := none
      elements := [] } :=
  (Constraint.loopEq type xs).trans (forM_unknown (pre := []) Constraint.unknown rfl hx)
example := C60_Constraint_unknown (.str k!"x") [.list [.str k!"zzz", .int 1], .list [.int 5]] unknown_sample

theorem C60_Rule_unknown (name : Val) (xs : List Val) (hx : AllUnknown [k!"constraint", k!"condition", k!"layer", k!"severity"] xs) :
    Rule.fromSexpr (.list (.str k!"rule" :: name :: xs)) = .ok {
      name := name
      constraints := []
      condition := .str []
      layer := none
      severity := none } :=
  (Rule.loopEq name xs).trans (forM_unknown (pre := []) Rule.unknown rfl hx)
example := C60_Rule_unknown (.str k!"x") [.list [.str k!"zzz", .int 1], .list [.int 5]] unknown_sample

theorem C60_WksFont_unknown (xs : List Val) (hx : AllUnknown [k!"linewidth", k!"size"] xs) :
    WksFont.fromSexpr (.list (.str k!"font" :: xs)) = .ok {
      linewidth := none
      size := none
      bold := false
      italic := false } :=
  (WksFont.loopEq  xs).trans (forM_unknown (pre := [.str k!"font"]) WksFont.unknown rfl hx)
example := C60_WksFont_unknown [.list [.str k!"zzz", .int 1], .list [.int 5]] unknown_sample

theorem C60_Bitmap_unknown (xs : List Val) (hx : AllUnknown [k!"name", k!"pos", k!"option", k!"scale", k!"repeat", k!"incrx", k!"incry", k!"comment", k!"pngdata"] xs) :
    Bitmap.fromSexpr (.list (.str k!"bitmap" :: xs)) = .ok {
      name := .str []
      position := {}
      option := none
      scale := fl k!"1" k!"0"
      «repeat» := none
      incrx := none
      incry := none
      comment := none
      pngdata := [] } :=
  (Bitmap.loopEq  xs).trans (forM_unknown (pre := []) Bitmap.unknown rfl hx)
example := C60_Bitmap_unknown [.list [.str k!"zzz", .int 1], .list [.int 5]] unknown_sample

theorem C60_TbText_unknown (text : Val) (xs : List Val) (hx : AllUnknown [k!"name", k!"pos", k!"option", k!"rotate", k!"font", k!"justify", k!"maxlen", k!"maxheight", k!"repeat", k!"incrx", k!"incry", k!"incrlabel", k!"comment"] xs) :
    TbText.fromSexpr (.list (.str k!"tbtext" :: text :: xs)) = .ok {
      text := text
      name := .str []
      position := {}
      option := none
      rotate := none
      font := {}
      justify := none
      maxlen := none
      maxheight := none
      «repeat» := none
      incrx := none
      incry := none
      incrlabel := none
      comment := none } :=
  (TbText.loopEq text xs).trans (forM_unknown (pre := []) TbText.unknown rfl hx)
example := C60_TbText_unknown (.str k!"x") [.list [.str k!"zzz", .int 1], .list [.int 5]] unknown_sample

theorem C60_Setup_unknown (xs : List Val) (hx : AllUnknown [k!"textsize", k!"linewidth", k!"textlinewidth", k!"left_margin", k!"right_margin", k!"top_margin", k!"bottom_margin"] xs) :
    Setup.fromSexpr (.list (.str k!"setup" :: xs)) = .ok {
      textSize := {}
      lineWidth := fl k!"0" k!"15"
      textLineWidth := fl k!"0" k!"15"
      leftMargin := fl k!"10" k!"0"
      rightMargin := fl k!"10" k!"0"
      topMargin := fl k!"10" k!"0"
      bottomMargin := fl k!"10" k!"0" } :=
  (Setup.loopEq  xs).trans (forM_unknown (pre := []) Setup.unknown rfl hx)
example := C60_Setup_unknown [.list [.str k!"zzz", .int 1], .list [.int 5]] unknown_sample

theorem C60_WorkSheet_unknown (xs : List Val) (hx : AllUnknown [k!"version", k!"generator", k!"setup", k!"rect", k!"line", k!"polygon", k!"tbtext", k!"bitmap"] xs) :
    WorkSheet.fromSexpr (.list (.str k!"kicad_wks" :: xs)) = .ok {
      version := .str k!"20211014"
      generator := .str k!"kiutils"
      setup := {}
      drawingObjects := []
      filePath := none } :=
  (WorkSheet.loopEq  xs).trans (forM_unknown (pre := []) WorkSheet.unknown rfl hx)
example := C60_WorkSheet_unknown [.list [.str k!"zzz", .int 1], .list [.int 5]] unknown_sample

theorem C60_SyArc_unknown (xs : List Val) (hx : AllUnknown [k!"start", k!"mid", k!"end", k!"stroke", k!"fill"] xs) :
    SyArc.fromSexpr (.list (.str k!"arc" :: xs)) = .ok {
      priv := false
      start := {}
      mid := {}
      «end» := {}
      stroke := {}
      fill := {} } :=
  (SyArc.loopEq  xs).trans (forM_unknown (pre := [.str k!"arc"]) SyArc.unknown rfl hx)
example := C60_SyArc_unknown [.list [.str k!"zzz", .int 1], .list [.int 5]] unknown_sample

theorem C60_SyCircle_unknown (xs : List Val) (hx : AllUnknown [k!"center", k!"radius", k!"stroke", k!"fill"] xs) :
    SyCircle.fromSexpr (.list (.str k!"circle" :: xs)) = .ok {
      priv := false
      center := {}
      radius := fl k!"0" k!"0"
      stroke := {}
      fill := {} } :=
  (SyCircle.loopEq  xs).trans (forM_unknown (pre := [.str k!"circle"]) SyCircle.unknown rfl hx)
example := C60_SyCircle_unknown [.list [.str k!"zzz", .int 1], .list [.int 5]] unknown_sample

theorem C60_SyCurve_unknown (xs : List Val) (hx : AllUnknown [k!"stroke", k!"fill", k!"pts"] xs) :
    SyCurve.fromSexpr (.list (.str k!"curve" :: xs)) = .ok {
      points := []
      stroke := {}
      fill := {} } :=
  (SyCurve.loopEq  xs).trans (forM_unknown (pre := [.str k!"curve"]) SyCurve.unknown rfl hx)
example := C60_SyCurve_unknown [.list [.str k!"zzz", .int 1], .list [.int 5]] unknown_sample

theorem C60_SyPolyLine_unknown (xs : List Val) (hx : AllUnknown [k!"stroke", k!"fill", k!"pts"] xs) :
    SyPolyLine.fromSexpr (.list (.str k!"polyline" :: xs)) = .ok {
      points := []
      stroke := {}
      fill := {} } :=
  (SyPolyLine.loopEq  xs).trans (forM_unknown (pre := [.str k!"polyline"]) SyPolyLine.unknown rfl hx)
example := C60_SyPolyLine_unknown [.list [.str k!"zzz", .int 1], .list [.int 5]] unknown_sample

theorem C60_SyRect_unknown (xs : List Val) (hx : AllUnknown [k!"start", k!"end", k!"stroke", k!"fill"] xs) :
    SyRect.fromSexpr (.list (.str k!"rectangle" :: xs)) = .ok {
      priv := false
      start := {}
      «end» := {}
      stroke := {}
      fill := {} } :=
  (SyRect.loopEq  xs).trans (forM_unknown (pre := [.str k!"rectangle"]) SyRect.unknown rfl hx)
example := C60_SyRect_unknown [.list [.str k!"zzz", .int 1], .list [.int 5]] unknown_sample

theorem C60_SyText_unknown (text : Val) (xs : List Val) (hx : AllUnknown [k!"at", k!"effects"] xs) :
    SyText.fromSexpr (.list (.str k!"text" :: text :: xs)) = .ok {
      text := text
      position := {}
      effects := {} } :=
  (SyText.loopEq text xs).trans (forM_unknown (pre := []) SyText.unknown rfl hx)
example := C60_SyText_unknown (.str k!"x") [.list [.str k!"zzz", .int 1], .list [.int 5]] unknown_sample

theorem C60_SyTextBox_unknown {a : Val} (ha : a.is k!"private" = false) (xs : List Val) (hx : AllUnknown [k!"at", k!"size", k!"effects", k!"stroke", k!"fill", k!"uuid"] xs) :
    SyTextBox.fromSexpr (.list (.str k!"text_box" :: a :: xs)) = .ok {
      text := a
      priv := false
      position := {}
      size := {}
      stroke := {}
      fill := {}
      effects := {}
      uuid := none } :=
  (SyTextBox.loopEq ha xs).trans (forM_unknown (pre := []) SyTextBox.unknown rfl hx)
example := C60_SyTextBox_unknown (a := .str k!"x") rfl [.list [.str k!"zzz", .int 1], .list [.int 5]] unknown_sample

theorem C60_SymbolPin_unknown (a b : Val) (xs : List Val) (hx : AllUnknown [k!"at", k!"length", k!"name", k!"number", k!"alternate"] xs) :
    SymbolPin.fromSexpr (.list (.str k!"pin" :: a :: b :: xs)) = .ok {
      electricalType := a
      graphicalStyle := b
      position := {}
      length := fl k!"0" k!"254"
      name := .str []
      nameEffects := none
      number := .str k!"0"
      numberEffects := none
      hide := false
      alternatePins := [] } :=
  (SymbolPin.loopEq a b xs).trans (forM_unknown (pre := []) SymbolPin.unknown rfl hx)
example := C60_SymbolPin_unknown (.str k!"x") (.str k!"x") [.list [.str k!"zzz", .int 1], .list [.int 5]] unknown_sample

theorem C60_SymbolLib_unknown (xs : List Val) (hx : AllUnknown [k!"version", k!"generator", k!"symbol"] xs) :
    SymbolLib.fromSexpr (.list (.str k!"kicad_symbol_lib" :: xs)) = .ok {
      version := .str k!"20211014"
      generator := none
      symbols := []
      filePath := none } :=
  (SymbolLib.loopEq  xs).trans (forM_unknown (pre := []) SymbolLib.unknown rfl hx)
example := C60_SymbolLib_unknown [.list [.str k!"zzz", .int 1], .list [.int 5]] unknown_sample

theorem C60_Junction_unknown (xs : List Val) (hx : AllUnknown [k!"at", k!"color", k!"diameter", k!"uuid"] xs) :
    Junction.fromSexpr (.list (.str k!"junction" :: xs)) = .ok {
      position := {}
      diameter := .int 0
      color := .rgba {}
      uuid := none } :=
  (Junction.loopEq  xs).trans (forM_unknown (pre := [.str k!"junction"]) Junction.unknown rfl hx)
example := C60_Junction_unknown [.list [.str k!"zzz", .int 1], .list [.int 5]] unknown_sample

theorem C60_NoConnect_unknown (xs : List Val) (hx : AllUnknown [k!"at", k!"uuid"] xs) :
    NoConnect.fromSexpr (.list (.str k!"no_connect" :: xs)) = .ok {
      position := {}
      uuid := none } :=
  (NoConnect.loopEq  xs).trans (forM_unknown (pre := [.str k!"no_connect"]) NoConnect.unknown rfl hx)
example := C60_NoConnect_unknown [.list [.str k!"zzz", .int 1], .list [.int 5]] unknown_sample

theorem C60_BusEntry_unknown (xs : List Val) (hx : AllUnknown [k!"at", k!"stroke", k!"size", k!"uuid"] xs) :
    BusEntry.fromSexpr (.list (.str k!"bus_entry" :: xs)) = .ok {
      position := {}
      uuid := none
      size := {}
      stroke := {} } :=
  (BusEntry.loopEq  xs).trans (forM_unknown (pre := [.str k!"bus_entry"]) BusEntry.unknown rfl hx)
example := C60_BusEntry_unknown [.list [.str k!"zzz", .int 1], .list [.int 5]] unknown_sample

theorem C60_Connection_unknown {hd : Str} (hh : hd = k!"wire" ∨ hd = k!"bus") (xs : List Val) (hx : AllUnknown [k!"pts", k!"stroke", k!"uuid"] xs) :
    Connection.fromSexpr (.list (.str hd :: xs)) = .ok {
      type := .str hd
      points := []
      stroke := {}
      uuid := none } :=
  (Connection.loopEq hh xs).trans (forM_unknown (pre := [.str hd]) Connection.unknown (by rcases hh with rfl | rfl <;> rfl) hx)
example := C60_Connection_unknown (.inl rfl) [.list [.str k!"zzz", .int 1], .list [.int 5]] unknown_sample

theorem C60_PolyLine_unknown (xs : List Val) (hx : AllUnknown [k!"pts", k!"stroke", k!"uuid"] xs) :
    PolyLine.fromSexpr (.list (.str k!"polyline" :: xs)) = .ok {
      points := []
      stroke := {}
      uuid := none } :=
  (PolyLine.loopEq  xs).trans (forM_unknown (pre := [.str k!"polyline"]) PolyLine.unknown rfl hx)
example := C60_PolyLine_unknown [.list [.str k!"zzz", .int 1], .list [.int 5]] unknown_sample

theorem C60_Text_unknown (a1 : Val) (xs : List Val) (hx : AllUnknown [k!"at", k!"effects", k!"uuid"] xs) :
    Text.fromSexpr (.list (.str k!"text" :: a1 :: xs)) = .ok {
      text := a1
      position := {}
      effects := {}
      uuid := none } :=
  (Text.loopEq a1 xs).trans (forM_unknown (pre := []) Text.unknown rfl hx)
example := C60_Text_unknown (.str k!"x") [.list [.str k!"zzz", .int 1], .list [.int 5]] unknown_sample

theorem C60_TextBox_unknown (a1 : Val) (xs : List Val) (hx : AllUnknown [k!"at", k!"size", k!"effects", k!"stroke", k!"fill", k!"uuid"] xs) :
    TextBox.fromSexpr (.list (.str k!"text_box" :: a1 :: xs)) = .ok {
      text := a1
      position := {}
      size := {}
      stroke := {}
      fill := {}
      effects := {}
      uuid := none } :=
  (TextBox.loopEq a1 xs).trans (forM_unknown (pre := []) TextBox.unknown rfl hx)
example := C60_TextBox_unknown (.str k!"x") [.list [.str k!"zzz", .int 1], .list [.int 5]] unknown_sample

theorem C60_LocalLabel_unknown (a1 : Val) (xs : List Val) (hx : AllUnknown [k!"at", k!"effects", k!"uuid", k!"fields_autoplaced"] xs) :
    LocalLabel.fromSexpr (.list (.str k!"label" :: a1 :: xs)) = .ok {
      text := a1
      position := {}
      effects := {}
      uuid := none
      fieldsAutoplaced := false } :=
  (LocalLabel.loopEq a1 xs).trans (forM_unknown (pre := []) LocalLabel.unknown rfl hx)
example := C60_LocalLabel_unknown (.str k!"x") [.list [.str k!"zzz", .int 1], .list [.int 5]] unknown_sample

theorem C60_GlobalLabel_unknown (a1 : Val) (xs : List Val) (hx : AllUnknown [k!"fields_autoplaced", k!"at", k!"effects", k!"property", k!"shape", k!"uuid"] xs) :
    GlobalLabel.fromSexpr (.list (.str k!"global_label" :: a1 :: xs)) = .ok {
      text := a1
      shape := .str k!"input"
      fieldsAutoplaced := false
      position := {}
      effects := {}
      uuid := none
      properties := [] } :=
  (GlobalLabel.loopEq a1 xs).trans (forM_unknown (pre := []) GlobalLabel.unknown rfl hx)
example := C60_GlobalLabel_unknown (.str k!"x") [.list [.str k!"zzz", .int 1], .list [.int 5]] unknown_sample

theorem C60_HierarchicalLabel_unknown (a1 : Val) (xs : List Val) (hx : AllUnknown [k!"at", k!"effects", k!"shape", k!"uuid", k!"fields_autoplaced"] xs) :
    HierarchicalLabel.fromSexpr (.list (.str k!"hierarchical_label" :: a1 :: xs)) = .ok {
      text := a1
      shape := .str k!"input"
      position := {}
      effects := {}
      uuid := none
      fieldsAutoplaced := false } :=
  (HierarchicalLabel.loopEq a1 xs).trans (forM_unknown (pre := []) HierarchicalLabel.unknown rfl hx)
example := C60_HierarchicalLabel_unknown (.str k!"x") [.list [.str k!"zzz", .int 1], .list [.int 5]] unknown_sample

theorem C60_SymbolProjectPath_unknown (a : Val) (xs : List Val) (hx : AllUnknown [k!"reference", k!"unit"] xs) :
    SymbolProjectPath.fromSexpr (.list (.str k!"path" :: a :: xs)) = .ok {
      sheetInstancePath := a
      reference := .str []
      unit := .int 1 } :=
  (SymbolProjectPath.loopEq a xs).trans (forM_unknown (pre := []) SymbolProjectPath.unknown rfl hx)
example := C60_SymbolProjectPath_unknown (.str k!"x") [.list [.str k!"zzz", .int 1], .list [.int 5]] unknown_sample

theorem C60_SymbolProjectInstance_unknown (a : Val) (xs : List Val) (hx : AllUnknown [k!"path"] xs) :
    SymbolProjectInstance.fromSexpr (.list (.str k!"project" :: a :: xs)) = .ok {
      name := a
      paths := [] } :=
  (SymbolProjectInstance.loopEq a xs).trans (forM_unknown (pre := []) SymbolProjectInstance.unknown rfl hx)
example := C60_SymbolProjectInstance_unknown (.str k!"x") [.list [.str k!"zzz", .int 1], .list [.int 5]] unknown_sample

theorem C60_SchematicSymbol_unknown (xs : List Val) (hx : AllUnknown [k!"fields_autoplaced", k!"lib_id", k!"lib_name", k!"uuid", k!"unit", k!"in_bom", k!"on_board", k!"dnp", k!"at", k!"property", k!"pin", k!"mirror", k!"instances"] xs) :
    SchematicSymbol.fromSexpr (.list (.str k!"symbol" :: xs)) = .ok {
      libraryNickname := none
      entryName := none
      libName := none
      position := {}
      unit := none
      inBom := false
      onBoard := false
      dnp := none
      fieldsAutoplaced := false
      uuid := some (.str [])
      properties := []
      pins := []
      mirror := none
      instances := [] } :=
  (SchematicSymbol.loopEq  xs).trans (forM_unknown (pre := []) SchematicSymbol.unknown rfl hx)
example := C60_SchematicSymbol_unknown [.list [.str k!"zzz", .int 1], .list [.int 5]] unknown_sample

theorem C60_HierarchicalPin_unknown (a1 a2 : Val) (xs : List Val) (hx : AllUnknown [k!"at", k!"effects", k!"uuid"] xs) :
    HierarchicalPin.fromSexpr (.list (.str k!"pin" :: a1 :: a2 :: xs)) = .ok {
      name := a1
      connectionType := a2
      position := {}
      effects := {}
      uuid := none } :=
  (HierarchicalPin.loopEq a1 a2 xs).trans (forM_unknown (pre := []) HierarchicalPin.unknown rfl hx)
example := C60_HierarchicalPin_unknown (.str k!"x") (.str k!"x") [.list [.str k!"zzz", .int 1], .list [.int 5]] unknown_sample

theorem C60_HierarchicalSheetProjectPath_unknown (a : Val) (xs : List Val) (hx : AllUnknown [k!"page"] xs) :
    HierarchicalSheetProjectPath.fromSexpr (.list (.str k!"path" :: a :: xs)) = .ok {
      sheetInstancePath := a
      page := .str [] } :=
  (HierarchicalSheetProjectPath.loopEq a xs).trans (forM_unknown (pre := []) HierarchicalSheetProjectPath.unknown rfl hx)
example := C60_HierarchicalSheetProjectPath_unknown (.str k!"x") [.list [.str k!"zzz", .int 1], .list [.int 5]] unknown_sample

theorem C60_HierarchicalSheetProjectInstance_unknown (a : Val) (xs : List Val) (hx : AllUnknown [k!"path"] xs) :
    HierarchicalSheetProjectInstance.fromSexpr (.list (.str k!"project" :: a :: xs)) = .ok {
      name := a
      paths := [] } :=
  (HierarchicalSheetProjectInstance.loopEq a xs).trans (forM_unknown (pre := []) HierarchicalSheetProjectInstance.unknown rfl hx)
example := C60_HierarchicalSheetProjectInstance_unknown (.str k!"x") [.list [.str k!"zzz", .int 1], .list [.int 5]] unknown_sample

theorem C60_HierarchicalSheet_unknown (xs : List Val) (hx : AllUnknown [k!"fields_autoplaced", k!"at", k!"stroke", k!"size", k!"fill", k!"uuid", k!"property", k!"pin", k!"instances"] xs) :
    HierarchicalSheet.fromSexpr (.list (.str k!"sheet" :: xs)) = .ok {
      position := {}
      width := .int 0
      height := .int 0
      fieldsAutoplaced := false
      stroke := {}
      fill := {}
      uuid := none
      sheetName := { key := .str k!"Sheet name" }
      fileName := { key := .str k!"Sheet file" }
      properties := []
      pins := []
      instances := [] } :=
  (HierarchicalSheet.loopEq  xs).trans (forM_unknown (pre := []) HierarchicalSheet.unknown rfl hx)
example := C60_HierarchicalSheet_unknown [.list [.str k!"zzz", .int 1], .list [.int 5]] unknown_sample

theorem C60_HierarchicalSheetInstance_unknown (a1 : Val) (xs : List Val) (hx : AllUnknown [k!"page"] xs) :
    HierarchicalSheetInstance.fromSexpr (.list (.str k!"path" :: a1 :: xs)) = .ok {
      instancePath := a1
      page := .str k!"1" } :=
  (HierarchicalSheetInstance.loopEq a1 xs).trans (forM_unknown (pre := []) HierarchicalSheetInstance.unknown rfl hx)
example := C60_HierarchicalSheetInstance_unknown (.str k!"x") [.list [.str k!"zzz", .int 1], .list [.int 5]] unknown_sample

theorem C60_SymbolInstance_unknown (a1 : Val) (xs : List Val) (hx : AllUnknown [k!"reference", k!"unit", k!"value", k!"footprint"] xs) :
    SymbolInstance.fromSexpr (.list (.str k!"path" :: a1 :: xs)) = .ok {
      path := a1
      reference := .str []
      unit := .int 0
      value := .str []
      footprint := .str [] } :=
  (SymbolInstance.loopEq a1 xs).trans (forM_unknown (pre := []) SymbolInstance.unknown rfl hx)
example := C60_SymbolInstance_unknown (.str k!"x") [.list [.str k!"zzz", .int 1], .list [.int 5]] unknown_sample

theorem C60_Rectangle_unknown (xs : List Val) (hx : AllUnknown [k!"start", k!"end", k!"stroke", k!"fill", k!"uuid"] xs) :
    Rectangle.fromSexpr (.list (.str k!"rectangle" :: xs)) = .ok {
      start := {}
      «end» := {}
      stroke := {}
      fill := {}
      uuid := none } :=
  (Rectangle.loopEq  xs).trans (forM_unknown (pre := [.str k!"rectangle"]) Rectangle.unknown rfl hx)
example := C60_Rectangle_unknown [.list [.str k!"zzz", .int 1], .list [.int 5]] unknown_sample

theorem C60_Arc_unknown (xs : List Val) (hx : AllUnknown [k!"start", k!"mid", k!"end", k!"stroke", k!"fill", k!"uuid"] xs) :
    Arc.fromSexpr (.list (.str k!"arc" :: xs)) = .ok {
      start := {}
      mid := {}
      «end» := {}
      stroke := {}
      fill := {}
      uuid := none } :=
  (Arc.loopEq  xs).trans (forM_unknown (pre := [.str k!"arc"]) Arc.unknown rfl hx)
example := C60_Arc_unknown [.list [.str k!"zzz", .int 1], .list [.int 5]] unknown_sample

theorem C60_Circle_unknown (xs : List Val) (hx : AllUnknown [k!"center", k!"radius", k!"stroke", k!"fill", k!"uuid"] xs) :
    Circle.fromSexpr (.list (.str k!"circle" :: xs)) = .ok {
      center := {}
      radius := fl k!"0" k!"0"
      stroke := {}
      fill := {}
      uuid := none } :=
  (Circle.loopEq  xs).trans (forM_unknown (pre := [.str k!"circle"]) Circle.unknown rfl hx)
example := C60_Circle_unknown [.list [.str k!"zzz", .int 1], .list [.int 5]] unknown_sample

theorem C60_NetclassFlag_unknown (a1 : Val) (xs : List Val) (hx : AllUnknown [k!"length", k!"shape", k!"at", k!"fields_autoplaced", k!"effects", k!"uuid", k!"property"] xs) :
    NetclassFlag.fromSexpr (.list (.str k!"netclass_flag" :: a1 :: xs)) = .ok {
      text := a1
      length := fl k!"2" k!"54"
      shape := .str k!"round"
      position := {}
      effects := none
      properties := []
      uuid := none
      fieldsAutoplaced := false } :=
  (NetclassFlag.loopEq a1 xs).trans (forM_unknown (pre := []) NetclassFlag.unknown rfl hx)
example := C60_NetclassFlag_unknown (.str k!"x") [.list [.str k!"zzz", .int 1], .list [.int 5]] unknown_sample

theorem C60_Schematic_unknown (xs : List Val) (hx : AllUnknown [k!"version", k!"generator", k!"uuid", k!"paper", k!"title_block", k!"lib_symbols", k!"junction", k!"no_connect", k!"bus_entry", k!"bus_alias", k!"wire", k!"bus", k!"polyline", k!"arc", k!"circle", k!"rectangle", k!"image", k!"text", k!"text_box", k!"label", k!"global_label", k!"hierarchical_label", k!"netclass_flag", k!"symbol", k!"sheet", k!"sheet_instances", k!"symbol_instances"] xs) :
    Schematic.fromSexpr (.list (.str k!"kicad_sch" :: xs)) = .ok {
      version := .str k!"20211014"
      generator := .str k!"kiutils"
      uuid := none
      paper := {}
      titleBlock := none
      libSymbols := []
      schematicSymbols := []
      junctions := []
      noConnects := []
      busEntries := []
      busAliases := []
      graphicalItems := []
      shapes := []
      images := []
      texts := []
      textBoxes := []
      labels := []
      globalLabels := []
      hierarchicalLabels := []
      netclassFlags := []
      sheets := []
      sheetInstances := []
      symbolInstances := []
      filePath := none } :=
  (Schematic.loopEq  xs).trans (forM_unknown (pre := [.str k!"kicad_sch"]) Schematic.unknown rfl hx)
example := C60_Schematic_unknown [.list [.str k!"zzz", .int 1], .list [.int 5]] unknown_sample

theorem C60_GrText_unknown (a1 : Val) (xs : List Val) (hx : AllUnknown [k!"at", k!"layer", k!"effects", k!"tstamp", k!"render_cache"] xs) :
    GrText.fromSexpr (.list (.str k!"gr_text" :: a1 :: xs)) = .ok {
      text := a1
      knockout := false
      position := {}
      layer := none
      effects := {}
      tstamp := none
      locked := false
      renderCache := none } :=
  (GrText.loopEq a1 xs).trans (forM_unknown (pre := []) GrText.unknown rfl hx)
example := C60_GrText_unknown (.str k!"x") [.list [.str k!"zzz", .int 1], .list [.int 5]] unknown_sample

theorem C60_GrTextBox_unknown {a : Val} (ha : a.is k!"locked" = false) (xs : List Val) (hx : AllUnknown [k!"start", k!"end", k!"pts", k!"angle", k!"layer", k!"tstamp", k!"effects", k!"stroke", k!"render_cache"] xs) :
    GrTextBox.fromSexpr (.list (.str k!"gr_text_box" :: a :: xs)) = .ok {
      locked := false
      text := a
      start := none
      «end» := none
      pts := []
      angle := none
      layer := .str k!"F.Cu"
      tstamp := none
      effects := none
      stroke := none
      renderCache := none } :=
  (GrTextBox.loopEq ha xs).trans (forM_unknown (pre := []) GrTextBox.unknown rfl hx)
example := C60_GrTextBox_unknown (a := .str k!"x") rfl [.list [.str k!"zzz", .int 1], .list [.int 5]] unknown_sample

theorem C60_GrLine_unknown (xs : List Val) (hx : AllUnknown [k!"start", k!"end", k!"layer", k!"tstamp", k!"width"] xs) :
    GrLine.fromSexpr (.list (.str k!"gr_line" :: xs)) = .ok {
      start := {}
      «end» := {}
      angle := none
      layer := none
      width := some (fl k!"0" k!"12")
      tstamp := none
      locked := false } :=
  (GrLine.loopEq  xs).trans (forM_unknown (pre := [.str k!"gr_line"]) GrLine.unknown rfl hx)
example := C60_GrLine_unknown [.list [.str k!"zzz", .int 1], .list [.int 5]] unknown_sample

theorem C60_GrRect_unknown (xs : List Val) (hx : AllUnknown [k!"start", k!"end", k!"layer", k!"tstamp", k!"fill", k!"width"] xs) :
    GrRect.fromSexpr (.list (.str k!"gr_rect" :: xs)) = .ok {
      start := {}
      «end» := {}
      layer := none
      width := some (fl k!"0" k!"12")
      fill := none
      tstamp := none
      locked := false } :=
  (GrRect.loopEq  xs).trans (forM_unknown (pre := [.str k!"gr_rect"]) GrRect.unknown rfl hx)
example := C60_GrRect_unknown [.list [.str k!"zzz", .int 1], .list [.int 5]] unknown_sample

theorem C60_GrCircle_unknown (xs : List Val) (hx : AllUnknown [k!"center", k!"end", k!"layer", k!"tstamp", k!"fill", k!"width"] xs) :
    GrCircle.fromSexpr (.list (.str k!"gr_circle" :: xs)) = .ok {
      center := {}
      «end» := {}
      layer := none
      width := some (fl k!"0" k!"12")
      fill := none
      tstamp := none
      locked := false } :=
  (GrCircle.loopEq  xs).trans (forM_unknown (pre := [.str k!"gr_circle"]) GrCircle.unknown rfl hx)
example := C60_GrCircle_unknown [.list [.str k!"zzz", .int 1], .list [.int 5]] unknown_sample

theorem C60_GrArc_unknown (xs : List Val) (hx : AllUnknown [k!"start", k!"mid", k!"end", k!"layer", k!"tstamp", k!"width"] xs) :
    GrArc.fromSexpr (.list (.str k!"gr_arc" :: xs)) = .ok {
      start := {}
      mid := {}
      «end» := {}
      layer := none
      width := some (fl k!"0" k!"12")
      tstamp := none
      locked := false } :=
  (GrArc.loopEq  xs).trans (forM_unknown (pre := [.str k!"gr_arc"]) GrArc.unknown rfl hx)
example := C60_GrArc_unknown [.list [.str k!"zzz", .int 1], .list [.int 5]] unknown_sample

theorem C60_GrPoly_unknown (xs : List Val) (hx : AllUnknown [k!"pts", k!"layer", k!"tstamp", k!"fill", k!"width"] xs) :
    GrPoly.fromSexpr (.list (.str k!"gr_poly" :: xs)) = .ok {
      layer := none
      coordinates := []
      width := some (fl k!"0" k!"12")
      fill := none
      tstamp := none
      locked := false } :=
  (GrPoly.loopEq  xs).trans (forM_unknown (pre := [.str k!"gr_poly"]) GrPoly.unknown rfl hx)
example := C60_GrPoly_unknown [.list [.str k!"zzz", .int 1], .list [.int 5]] unknown_sample

theorem C60_GrCurve_unknown (xs : List Val) (hx : AllUnknown [k!"pts", k!"layer", k!"tstamp", k!"width"] xs) :
    GrCurve.fromSexpr (.list (.str k!"gr_curve" :: xs)) = .ok {
      coordinates := []
      layer := none
      width := some (fl k!"0" k!"12")
      tstamp := none
      locked := false } :=
  (GrCurve.loopEq  xs).trans (forM_unknown (pre := [.str k!"gr_curve"]) GrCurve.unknown rfl hx)
example := C60_GrCurve_unknown [.list [.str k!"zzz", .int 1], .list [.int 5]] unknown_sample

theorem C60_FpText_unknown (a1 a2 : Val) (xs : List Val) (hx : AllUnknown [k!"at", k!"layer", k!"effects", k!"tstamp", k!"render_cache"] xs) :
    FpText.fromSexpr (.list (.str k!"fp_text" :: a1 :: a2 :: xs)) = .ok {
      type := a1
      text := a2
      position := {}
      layer := .str k!"F.Cu"
      knockout := false
      hide := false
      effects := {}
      tstamp := none
      renderCache := none } :=
  (FpText.loopEq a1 a2 xs).trans (forM_unknown (pre := []) FpText.unknown rfl hx)
example := C60_FpText_unknown (.str k!"x") (.str k!"x") [.list [.str k!"zzz", .int 1], .list [.int 5]] unknown_sample

theorem C60_FpLine_unknown (xs : List Val) (hx : AllUnknown [k!"start", k!"end", k!"layer", k!"tstamp", k!"width", k!"stroke"] xs) :
    FpLine.fromSexpr (.list (.str k!"fp_line" :: xs)) = .ok {
      start := {}
      «end» := {}
      layer := .str k!"F.Cu"
      width := some (fl k!"0" k!"12")
      stroke := none
      locked := false
      tstamp := none } :=
  (FpLine.loopEq  xs).trans (forM_unknown (pre := [.str k!"fp_line"]) FpLine.unknown rfl hx)
example := C60_FpLine_unknown [.list [.str k!"zzz", .int 1], .list [.int 5]] unknown_sample

theorem C60_FpRect_unknown (xs : List Val) (hx : AllUnknown [k!"start", k!"end", k!"layer", k!"tstamp", k!"fill", k!"width", k!"stroke"] xs) :
    FpRect.fromSexpr (.list (.str k!"fp_rect" :: xs)) = .ok {
      start := {}
      «end» := {}
      layer := .str k!"F.Cu"
      width := some (fl k!"0" k!"12")
      stroke := none
      fill := none
      locked := false
      tstamp := none } :=
  (FpRect.loopEq  xs).trans (forM_unknown (pre := [.str k!"fp_rect"]) FpRect.unknown rfl hx)
example := C60_FpRect_unknown [.list [.str k!"zzz", .int 1], .list [.int 5]] unknown_sample

theorem C60_FpTextBox_unknown {a : Val} (ha : a.is k!"locked" = false) (xs : List Val) (hx : AllUnknown [k!"start", k!"end", k!"pts", k!"angle", k!"layer", k!"tstamp", k!"effects", k!"stroke", k!"render_cache"] xs) :
    FpTextBox.fromSexpr (.list (.str k!"fp_text_box" :: a :: xs)) = .ok {
      locked := false
      text := a
      start := none
      «end» := none
      pts := []
      angle := none
      layer := .str k!"F.Cu"
      tstamp := none
      effects := none
      stroke := none
      renderCache := none } :=
  (FpTextBox.loopEq ha xs).trans (forM_unknown (pre := []) FpTextBox.unknown rfl hx)
example := C60_FpTextBox_unknown (a := .str k!"x") rfl [.list [.str k!"zzz", .int 1], .list [.int 5]] unknown_sample

theorem C60_FpCircle_unknown (xs : List Val) (hx : AllUnknown [k!"center", k!"end", k!"layer", k!"tstamp", k!"fill", k!"width", k!"stroke"] xs) :
    FpCircle.fromSexpr (.list (.str k!"fp_circle" :: xs)) = .ok {
      center := {}
      «end» := {}
      layer := .str k!"F.Cu"
      width := some (fl k!"0" k!"12")
      stroke := none
      fill := none
      locked := false
      tstamp := none } :=
  (FpCircle.loopEq  xs).trans (forM_unknown (pre := [.str k!"fp_circle"]) FpCircle.unknown rfl hx)
example := C60_FpCircle_unknown [.list [.str k!"zzz", .int 1], .list [.int 5]] unknown_sample

theorem C60_FpArc_unknown (xs : List Val) (hx : AllUnknown [k!"start", k!"mid", k!"end", k!"layer", k!"tstamp", k!"width", k!"stroke"] xs) :
    FpArc.fromSexpr (.list (.str k!"fp_arc" :: xs)) = .ok {
      start := {}
      mid := {}
      «end» := {}
      layer := .str k!"F.Cu"
      width := some (fl k!"0" k!"12")
      stroke := none
      locked := false
      tstamp := none } :=
  (FpArc.loopEq  xs).trans (forM_unknown (pre := [.str k!"fp_arc"]) FpArc.unknown rfl hx)
example := C60_FpArc_unknown [.list [.str k!"zzz", .int 1], .list [.int 5]] unknown_sample

theorem C60_FpPoly_unknown (xs : List Val) (hx : AllUnknown [k!"pts", k!"layer", k!"tstamp", k!"fill", k!"width", k!"stroke"] xs) :
    FpPoly.fromSexpr (.list (.str k!"fp_poly" :: xs)) = .ok {
      layer := .str k!"F.Cu"
      coordinates := []
      width := some (fl k!"0" k!"12")
      stroke := none
      fill := none
      locked := false
      tstamp := none } :=
  (FpPoly.loopEq  xs).trans (forM_unknown (pre := [.str k!"fp_poly"]) FpPoly.unknown rfl hx)
example := C60_FpPoly_unknown [.list [.str k!"zzz", .int 1], .list [.int 5]] unknown_sample

theorem C60_FpCurve_unknown (xs : List Val) (hx : AllUnknown [k!"pts", k!"layer", k!"tstamp", k!"width", k!"stroke"] xs) :
    FpCurve.fromSexpr (.list (.str k!"fp_curve" :: xs)) = .ok {
      coordinates := []
      layer := .str k!"F.Cu"
      width := some (fl k!"0" k!"12")
      stroke := none
      locked := false
      tstamp := none } :=
  (FpCurve.loopEq  xs).trans (forM_unknown (pre := [.str k!"fp_curve"]) FpCurve.unknown rfl hx)
example := C60_FpCurve_unknown [.list [.str k!"zzz", .int 1], .list [.int 5]] unknown_sample

theorem C60_KeepoutSettings_unknown (xs : List Val) (hx : AllUnknown [k!"tracks", k!"vias", k!"pads", k!"copperpour", k!"footprints"] xs) :
    KeepoutSettings.fromSexpr (.list (.str k!"keepout" :: xs)) = .ok {
      tracks := .str k!"allowed"
      vias := .str k!"allowed"
      pads := .str k!"allowed"
      copperpour := .str k!"not-allowed"
      footprints := .str k!"not-allowed" } :=
  (KeepoutSettings.loopEq  xs).trans (forM_unknown (pre := [.str k!"keepout"]) KeepoutSettings.unknown rfl hx)
example := C60_KeepoutSettings_unknown [.list [.str k!"zzz", .int 1], .list [.int 5]] unknown_sample

theorem C60_FillSettings_unknown (xs : List Val) (hx : AllUnknown [k!"mode", k!"thermal_gap", k!"thermal_bridge_width", k!"smoothing", k!"radius", k!"island_removal_mode", k!"island_area_min", k!"hatch_thickness", k!"hatch_gap", k!"hatch_orientation", k!"hatch_smoothing_level", k!"hatch_smoothing_value", k!"hatch_border_algorithm", k!"hatch_min_hole_area"] xs) :
    FillSettings.fromSexpr (.list (.str k!"fill" :: xs)) = .ok {
      yes := false
      mode := none
      thermalGap := none
      thermalBridgeWidth := none
      smoothingStyle := none
      smoothingRadius := none
      islandRemovalMode := none
      islandAreaMin := none
      hatchThickness := none
      hatchGap := none
      hatchOrientation := none
      hatchSmoothingLevel := none
      hatchSmoothingValue := none
      hatchBorderAlgorithm := none
      hatchMinHoleArea := none } :=
  (FillSettings.loopEq  xs).trans (forM_unknown (pre := [.str k!"fill"]) FillSettings.unknown rfl hx)
example := C60_FillSettings_unknown [.list [.str k!"zzz", .int 1], .list [.int 5]] unknown_sample

theorem C60_ZonePolygon_unknown (xs : List Val) (hx : AllUnknown [k!"pts"] xs) :
    ZonePolygon.fromSexpr (.list (.str k!"polygon" :: xs)) = .ok {
      coordinates := [] } :=
  (ZonePolygon.loopEq  xs).trans (forM_unknown (pre := [.str k!"polygon"]) ZonePolygon.unknown rfl hx)
example := C60_ZonePolygon_unknown [.list [.str k!"zzz", .int 1], .list [.int 5]] unknown_sample

theorem C60_FilledPolygon_unknown (xs : List Val) (hx : AllUnknown [k!"layer", k!"island", k!"pts"] xs) :
    FilledPolygon.fromSexpr (.list (.str k!"filled_polygon" :: xs)) = .ok {
      layer := .str k!"F.Cu"
      island := false
      coordinates := [] } :=
  (FilledPolygon.loopEq  xs).trans (forM_unknown (pre := [.str k!"filled_polygon"]) FilledPolygon.unknown rfl hx)
example := C60_FilledPolygon_unknown [.list [.str k!"zzz", .int 1], .list [.int 5]] unknown_sample

theorem C60_FillSegments_unknown (xs : List Val) (hx : AllUnknown [k!"layer", k!"pts"] xs) :
    FillSegments.fromSexpr (.list (.str k!"fill_segments" :: xs)) = .ok {
      layer := .str k!"F.Cu"
      coordinates := [] } :=
  (FillSegments.loopEq  xs).trans (forM_unknown (pre := [.str k!"fill_segments"]) FillSegments.unknown rfl hx)
example := C60_FillSegments_unknown [.list [.str k!"zzz", .int 1], .list [.int 5]] unknown_sample

theorem C60_Zone_unknown (xs : List Val) (hx : AllUnknown [k!"net", k!"net_name", k!"layers", k!"layer", k!"tstamp", k!"name", k!"hatch", k!"priority", k!"connect_pads", k!"min_thickness", k!"filled_areas_thickness", k!"keepout", k!"fill", k!"polygon", k!"filled_polygon", k!"fill_segments"] xs) :
    Zone.fromSexpr (.list (.str k!"zone" :: xs)) = .ok {
      locked := false
      net := .int 0
      netName := .str k!"unknown"
      layers := []
      tstamp := none
      name := none
      hatch := {}
      priority := none
      connectPads := none
      clearance := fl k!"0" k!"254"
      minThickness := fl k!"0" k!"254"
      filledAreasThickness := none
      keepoutSettings := none
      fillSettings := none
      polygons := []
      filledPolygons := []
      fillSegments := none } :=
  (Zone.loopEq  xs).trans (forM_unknown (pre := [.str k!"zone"]) Zone.unknown rfl hx)
example := C60_Zone_unknown [.list [.str k!"zzz", .int 1], .list [.int 5]] unknown_sample

theorem C60_PadOptions_unknown (xs : List Val) (hx : AllUnknown [k!"clearance", k!"anchor"] xs) :
    PadOptions.fromSexpr (.list (.str k!"options" :: xs)) = .ok {
      clearance := .str k!"outline"
      anchor := .str k!"rect" } :=
  (PadOptions.loopEq  xs).trans (forM_unknown (pre := [.str k!"options"]) PadOptions.unknown rfl hx)
example := C60_PadOptions_unknown [.list [.str k!"zzz", .int 1], .list [.int 5]] unknown_sample

theorem C60_Footprint_unknown (tedit : Val) {hd : Str} (id : Val) (hh : hd = k!"module" ∨ hd = k!"footprint") (xs : List Val) (hx : AllUnknown [k!"version", k!"generator", k!"layer", k!"tedit", k!"tstamp", k!"descr", k!"tags", k!"path", k!"at", k!"autoplace_cost90", k!"autoplace_cost180", k!"solder_mask_margin", k!"solder_paste_margin", k!"solder_paste_ratio", k!"clearance", k!"zone_connect", k!"thermal_width", k!"thermal_gap", k!"attr", k!"model", k!"fp_text", k!"fp_text_box", k!"fp_line", k!"fp_rect", k!"fp_circle", k!"fp_arc", k!"fp_poly", k!"fp_curve", k!"image", k!"pad", k!"zone", k!"property", k!"group", k!"private_layers", k!"net_tie_pad_groups", k!"dimension"] xs) :
    Footprint.fromSexpr tedit (.list (.str hd :: id :: xs)) = .ok {
      libraryNickname := (Footprint.setLibId { tedit := tedit } id).libraryNickname
      entryName := (Footprint.setLibId { tedit := tedit } id).entryName
      version := none
      generator := none
      locked := false
      placed := false
      layer := .str k!"F.Cu"
      tedit := tedit
      tstamp := none
      position := none
      description := none
      tags := none
      properties := []
      path := none
      autoplaceCost90 := none
      autoplaceCost180 := none
      solderMaskMargin := none
      solderPasteMargin := none
      solderPasteRatio := none
      clearance := none
      zoneConnect := none
      thermalWidth := none
      thermalGap := none
      attributes := {}
      privateLayers := []
      netTiePadGroups := []
      graphicItems := []
      pads := []
      zones := []
      groups := []
      models := []
      filePath := none } :=
  (Footprint.loopEq tedit id hh xs).trans (forM_unknown (pre := []) Footprint.unknown (by rcases hh with rfl | rfl <;> rfl) hx)
example := C60_Footprint_unknown (.int 0) (.str k!"x") (.inl rfl) [.list [.str k!"zzz", .int 1], .list [.int 5]] unknown_sample

theorem C60_GeneralSettings_unknown (xs : List Val) (hx : AllUnknown [k!"thickness"] xs) :
    GeneralSettings.fromSexpr (.list (.str k!"general" :: xs)) = .ok {
      thickness := fl k!"1" k!"6" } :=
  (GeneralSettings.loopEq  xs).trans (forM_unknown (pre := [.str k!"general"]) GeneralSettings.unknown rfl hx)
example := C60_GeneralSettings_unknown [.list [.str k!"zzz", .int 1], .list [.int 5]] unknown_sample

theorem C60_Stackup_unknown (xs : List Val) (hx : AllUnknown [k!"layer", k!"copper_finish", k!"dielectric_constraints", k!"edge_connector", k!"castellated_pads", k!"edge_plating"] xs) :
    Stackup.fromSexpr (.list (.str k!"stackup" :: xs)) = .ok {
      layers := []
      copperFinish := none
      dielectricContraints := none
      edgeConnector := none
      castellatedPads := false
      edgePlating := false } :=
  (Stackup.loopEq  xs).trans (forM_unknown (pre := [.str k!"stackup"]) Stackup.unknown rfl hx)
example := C60_Stackup_unknown [.list [.str k!"zzz", .int 1], .list [.int 5]] unknown_sample

theorem C60_PlotSettings_unknown (xs : List Val) (hx : AllUnknown [k!"layerselection", k!"plot_on_all_layers_selection", k!"disableapertmacros", k!"usegerberextensions", k!"usegerberattributes", k!"usegerberadvancedattributes", k!"creategerberjobfile", k!"dashed_line_dash_ratio", k!"dashed_line_gap_ratio", k!"svguseinch", k!"svgprecision", k!"excludeedgelayer", k!"plotframeref", k!"viasonmask", k!"mode", k!"useauxorigin", k!"hpglpennumber", k!"hpglpenspeed", k!"hpglpendiameter", k!"dxfpolygonmode", k!"dxfimperialunits", k!"dxfusepcbnewfont", k!"psnegative", k!"psa4output", k!"plotreference", k!"plotvalue", k!"plotinvisibletext", k!"sketchpadsonfab", k!"subtractmaskfromsilk", k!"outputformat", k!"mirror", k!"drillshape", k!"scaleselection", k!"outputdirectory"] xs) :
    PlotSettings.fromSexpr (.list (.str k!"pcbplotparams" :: xs)) = .ok {
      layerSelection := .str []
      plotOnAllLayersSelection := none
      disableApertMacros := false
      useGerberExtensions := false
      useGerberAttributes := false
      useGerberAdvancedAttributes := false
      createGerberJobFile := false
      dashedLineDashRatio := none
      dashedLineGapRatio := none
      svgUseInch := none
      svgPrecision := fl k!"0" k!"0"
      excludeEdgeLayer := none
      plotFameRef := false
      viasOnMask := false
      mode := .int 1
      useAuxOrigin := false
      hpglPenNumber := .int 0
      hpglPenSpeed := .int 0
      hpglPenDiameter := fl k!"0" k!"0"
      dxfPolygonMode := false
      dxfImperialUnits := false
      dxfUsePcbnewFont := false
      psNegative := false
      psA4Output := false
      plotReference := false
      plotValue := false
      plotInvisibleText := false
      sketchPadsOnFab := false
      subtractMaskFromSilk := false
      outputFormat := .int 0
      mirror := false
      drillShape := .int 0
      scaleSelection := .int 1
      outputDirectory := .str [] } :=
  (PlotSettings.loopEq  xs).trans (forM_unknown (pre := [.str k!"pcbplotparams"]) PlotSettings.unknown rfl hx)
example := C60_PlotSettings_unknown [.list [.str k!"zzz", .int 1], .list [.int 5]] unknown_sample

theorem C60_SetupData_unknown (xs : List Val) (hx : AllUnknown [k!"stackup", k!"pcbplotparams", k!"pad_to_mask_clearance", k!"solder_mask_min_width", k!"pad_to_paste_clearance", k!"pad_to_paste_clearance_ratio", k!"aux_axis_origin", k!"grid_origin"] xs) :
    SetupData.fromSexpr (.list (.str k!"setup" :: xs)) = .ok {
      stackup := none
      packToMaskClearance := fl k!"0" k!"0"
      solderMaskMinWidth := none
      padToPasteClearance := none
      padToPasteClearanceRatio := none
      auxAxisOrigin := none
      gridOrigin := none
      plotSettings := none } :=
  (SetupData.loopEq  xs).trans (forM_unknown (pre := [.str k!"setup"]) SetupData.unknown rfl hx)
example := C60_SetupData_unknown [.list [.str k!"zzz", .int 1], .list [.int 5]] unknown_sample

theorem C60_Segment_unknown (xs : List Val) (hx : AllUnknown [k!"start", k!"end", k!"width", k!"layer", k!"net", k!"tstamp"] xs) :
    Segment.fromSexpr (.list (.str k!"segment" :: xs)) = .ok {
      start := {}
      «end» := {}
      width := fl k!"0" k!"1"
      layer := .str k!"F.Cu"
      locked := false
      net := .int 0
      tstamp := .str [] } :=
  (Segment.loopEq  xs).trans (forM_unknown (pre := [.str k!"segment"]) Segment.unknown rfl hx)
example := C60_Segment_unknown [.list [.str k!"zzz", .int 1], .list [.int 5]] unknown_sample

theorem C60_Via_unknown (xs : List Val) (hx : AllUnknown [k!"at", k!"size", k!"drill", k!"layers", k!"remove_unused_layers", k!"keep_end_layers", k!"free", k!"net", k!"tstamp"] xs) :
    Via.fromSexpr (.list (.str k!"via" :: xs)) = .ok {
      type := none
      locked := false
      position := {}
      size := fl k!"0" k!"0"
      drill := fl k!"0" k!"0"
      layers := []
      removeUnusedLayers := false
      keepEndLayers := false
      free := false
      net := .int 0
      tstamp := none } :=
  (Via.loopEq  xs).trans (forM_unknown (pre := [.str k!"via"]) Via.unknown rfl hx)
example := C60_Via_unknown [.list [.str k!"zzz", .int 1], .list [.int 5]] unknown_sample

theorem C60_TraceArc_unknown (xs : List Val) (hx : AllUnknown [k!"start", k!"mid", k!"end", k!"width", k!"layer", k!"net", k!"tstamp"] xs) :
    TraceArc.fromSexpr (.list (.str k!"arc" :: xs)) = .ok {
      start := {}
      mid := {}
      «end» := {}
      width := fl k!"0" k!"2"
      layer := .str k!"F.Cu"
      locked := false
      net := .int 0
      tstamp := none } :=
  (TraceArc.loopEq  xs).trans (forM_unknown (pre := [.str k!"arc"]) TraceArc.unknown rfl hx)
example := C60_TraceArc_unknown [.list [.str k!"zzz", .int 1], .list [.int 5]] unknown_sample

theorem C60_Target_unknown (a1 : Val) (xs : List Val) (hx : AllUnknown [k!"at", k!"size", k!"width", k!"layer", k!"tstamp"] xs) :
    Target.fromSexpr (.list (.str k!"target" :: a1 :: xs)) = .ok {
      type := a1
      position := {}
      size := .int 0
      width := fl k!"0" k!"1"
      layer := .str k!"F.Cu"
      tstamp := none } :=
  (Target.loopEq a1 xs).trans (forM_unknown (pre := []) Target.unknown rfl hx)
example := C60_Target_unknown (.str k!"x") [.list [.str k!"zzz", .int 1], .list [.int 5]] unknown_sample

theorem C60_DimensionFormat_unknown (xs : List Val) (hx : AllUnknown [k!"prefix", k!"suffix", k!"units", k!"units_format", k!"precision", k!"override_value"] xs) :
    DimensionFormat.fromSexpr (.list (.str k!"format" :: xs)) = .ok {
      «prefix» := none
      suffix := none
      units := .int 3
      unitsFormat := .int 1
      precision := .int 4
      overrideValue := none
      suppressZeroes := false } :=
  (DimensionFormat.loopEq  xs).trans (forM_unknown (pre := []) DimensionFormat.unknown rfl hx)
example := C60_DimensionFormat_unknown [.list [.str k!"zzz", .int 1], .list [.int 5]] unknown_sample

theorem C60_DimensionStyle_unknown (xs : List Val) (hx : AllUnknown [k!"thickness", k!"arrow_length", k!"text_position_mode", k!"extension_height", k!"text_frame", k!"extension_offset"] xs) :
    DimensionStyle.fromSexpr (.list (.str k!"style" :: xs)) = .ok {
      thickness := fl k!"0" k!"0"
      arrowLength := fl k!"0" k!"0"
      textPositionMode := .int 0
      extensionHeight := none
      textFrame := none
      extensionOffset := none
      keepTextAligned := false } :=
  (DimensionStyle.loopEq  xs).trans (forM_unknown (pre := []) DimensionStyle.unknown rfl hx)
example := C60_DimensionStyle_unknown [.list [.str k!"zzz", .int 1], .list [.int 5]] unknown_sample

theorem C60_Dimension_unknown (xs : List Val) (hx : AllUnknown [k!"type", k!"layer", k!"tstamp", k!"height", k!"orientation", k!"leader_length", k!"gr_text", k!"format", k!"style", k!"pts"] xs) :
    Dimension.fromSexpr (.list (.str k!"dimension" :: xs)) = .ok {
      locked := false
      type := .str k!"aligned"
      layer := .str k!"F.Cu"
      tstamp := none
      pts := []
      height := none
      orientation := none
      leaderLength := none
      grText := none
      format := none
      style := {} } :=
  (Dimension.loopEq  xs).trans (forM_unknown (pre := []) Dimension.unknown rfl hx)
example := C60_Dimension_unknown [.list [.str k!"zzz", .int 1], .list [.int 5]] unknown_sample

theorem C60_Board_unknown (tedit : Val) (xs : List Val) (hx : AllUnknown [k!"version", k!"generator", k!"general", k!"paper", k!"title_block", k!"layers", k!"setup", k!"property", k!"net", k!"footprint", k!"gr_text", k!"gr_text_box", k!"gr_line", k!"gr_rect", k!"gr_circle", k!"gr_arc", k!"gr_poly", k!"gr_curve", k!"image", k!"dimension", k!"target", k!"segment", k!"arc", k!"via", k!"zone", k!"group"] xs) :
    Board.fromSexpr tedit (.list (.str k!"kicad_pcb" :: xs)) = .ok {
      version := .str []
      generator := .str []
      general := {}
      paper := {}
      titleBlock := none
      layers := []
      setup := {}
      properties := []
      nets := []
      footprints := []
      graphicItems := []
      traceItems := []
      zones := []
      dimensions := []
      targets := []
      groups := []
      filePath := none } :=
  (Board.loopEq tedit xs).trans (forM_unknown (pre := [.str k!"kicad_pcb"]) (Board.unknown tedit) rfl hx)
example := C60_Board_unknown (.int 0) [.list [.str k!"zzz", .int 1], .list [.int 5]] unknown_sample

/-- Something unknown in a board. -/
example : AllUnknown [k!"version", k!"net"] [.list [.str k!"new_token", .int 1], .list [.list []]] := fun x hx => by
  rcases List.mem_cons.mp hx with rfl | hx
  · exact ⟨_, _, rfl, fun k hk h => absurd (show k!"new_token" ∈ _ from Val.str.inj h ▸ hk) (by decide)⟩
  · rw [List.mem_singleton.mp hx]
    exact ⟨_, _, rfl, fun _ _ h => nomatch h⟩

end Kiutils
