import Verif.Basic
/-!
# Objects as references

Everywhere else in the model an object is a value. Here objects have an identity: an attribute that holds a list, a dict or another
object holds a reference to it, and two objects may hold the same reference. This is a model of what the constructors of the
dataclasses make, and, in outline, of what the readers make.
-/
namespace Kiutils.Objects

/-- How a dataclass makes the value of a field for which no argument is given. -/
inductive Factory where
  /-- a constant, which cannot be changed (number, text, flag, `None`); given by its source text, the two constants of
  misc/config.py by their values -/
  | const (source : Str)
  /-- `field(default_factory=list)` -/
  | list
  /-- `field(default_factory=dict)` -/
  | dict
  /-- `field(default_factory=lambda: C(…))` with constant arguments -/
  | new (cls : Str) (args : List (Str × Str))
  /-- `field(default_factory=lambda: C)`: the class itself, not an object of it -/
  | cls (cls : Str)

/-! ## The dataclasses -/

/-- `Board`, board.py 33–92 -/
def clsBoard : List (Str × Factory) :=
  [(k!"version", .const k!"''"),
   (k!"generator", .const k!"''"),
   (k!"general", .new k!"GeneralSettings" []),
   (k!"paper", .new k!"PageSettings" []),
   (k!"titleBlock", .const k!"None"),
   (k!"layers", .list),
   (k!"setup", .new k!"SetupData" []),
   (k!"properties", .dict),
   (k!"nets", .list),
   (k!"footprints", .list),
   (k!"graphicItems", .list),
   (k!"traceItems", .list),
   (k!"zones", .list),
   (k!"dimensions", .list),
   (k!"targets", .list),
   (k!"groups", .list),
   (k!"filePath", .const k!"None")]

/-- `Constraint`, dru.py 26–57 -/
def clsConstraint : List (Str × Factory) :=
  [(k!"type", .const k!"'clearance'"),
   (k!"min", .const k!"None"),
   (k!"opt", .const k!"None"),
   (k!"max", .const k!"None"),
   (k!"elements", .list)]

/-- `Rule`, dru.py 123–140 -/
def clsRule : List (Str × Factory) :=
  [(k!"name", .const k!"''"),
   (k!"constraints", .list),
   (k!"condition", .const k!"''"),
   (k!"layer", .const k!"None"),
   (k!"severity", .const k!"None")]

/-- `DesignRules`, dru.py 198–207 -/
def clsDesignRules : List (Str × Factory) :=
  [(k!"version", .const k!"1"),
   (k!"rules", .list),
   (k!"filePath", .const k!"None")]

/-- `Attributes`, footprint.py 34–57 -/
def clsAttributes : List (Str × Factory) :=
  [(k!"type", .const k!"None"),
   (k!"boardOnly", .const k!"False"),
   (k!"excludeFromPosFiles", .const k!"False"),
   (k!"excludeFromBom", .const k!"False"),
   (k!"allowMissingCourtyard", .const k!"False")]

/-- `Model`, footprint.py 135–157 -/
def clsModel : List (Str × Factory) :=
  [(k!"path", .const k!"''"),
   (k!"pos", .new k!"Coordinate" [(k!"X", k!"0.0"), (k!"Y", k!"0.0"), (k!"Z", k!"0.0")]),
   (k!"scale", .new k!"Coordinate" [(k!"X", k!"1.0"), (k!"Y", k!"1.0"), (k!"Z", k!"1.0")]),
   (k!"rotate", .new k!"Coordinate" [(k!"X", k!"0.0"), (k!"Y", k!"0.0"), (k!"Z", k!"0.0")]),
   (k!"hide", .const k!"False"),
   (k!"opacity", .const k!"None")]

/-- `DrillDefinition`, footprint.py 221–237 -/
def clsDrillDefinition : List (Str × Factory) :=
  [(k!"oval", .const k!"False"),
   (k!"diameter", .const k!"0.0"),
   (k!"width", .const k!"None"),
   (k!"offset", .const k!"None")]

/-- `PadOptions`, footprint.py 297–308 -/
def clsPadOptions : List (Str × Factory) :=
  [(k!"clearance", .const k!"'outline'"),
   (k!"anchor", .const k!"'rect'")]

/-- `Pad`, footprint.py 354–476 -/
def clsPad : List (Str × Factory) :=
  [(k!"number", .const k!"'x'"),
   (k!"type", .const k!"'smd'"),
   (k!"shape", .const k!"'rect'"),
   (k!"position", .new k!"Position" []),
   (k!"locked", .const k!"False"),
   (k!"size", .new k!"Position" []),
   (k!"drill", .const k!"None"),
   (k!"layers", .list),
   (k!"property", .const k!"None"),
   (k!"removeUnusedLayers", .const k!"False"),
   (k!"keepEndLayers", .const k!"False"),
   (k!"roundrectRatio", .const k!"None"),
   (k!"chamferRatio", .const k!"None"),
   (k!"chamfer", .list),
   (k!"net", .const k!"None"),
   (k!"tstamp", .const k!"None"),
   (k!"pinFunction", .const k!"None"),
   (k!"pinType", .const k!"None"),
   (k!"dieLength", .const k!"None"),
   (k!"solderMaskMargin", .const k!"None"),
   (k!"solderPasteMargin", .const k!"None"),
   (k!"solderPasteMarginRatio", .const k!"None"),
   (k!"clearance", .const k!"None"),
   (k!"zoneConnect", .const k!"None"),
   (k!"thermalWidth", .const k!"None"),
   (k!"thermalGap", .const k!"None"),
   (k!"customPadOptions", .const k!"None"),
   (k!"customPadPrimitives", .list)]

/-- `Footprint`, footprint.py 664–836 -/
def clsFootprint : List (Str × Factory) :=
  [(k!"libraryNickname", .const k!"None"),
   (k!"entryName", .const k!"None"),
   (k!"version", .const k!"None"),
   (k!"generator", .const k!"None"),
   (k!"locked", .const k!"False"),
   (k!"placed", .const k!"False"),
   (k!"layer", .const k!"'F.Cu'"),
   (k!"tedit", .const k!"remove_prefix(hex(calendar.timegm(datetime.datetime.now().utctimetuple())), '0x')"),
   (k!"tstamp", .const k!"None"),
   (k!"position", .const k!"None"),
   (k!"description", .const k!"None"),
   (k!"tags", .const k!"None"),
   (k!"properties", .dict),
   (k!"path", .const k!"None"),
   (k!"autoplaceCost90", .const k!"None"),
   (k!"autoplaceCost180", .const k!"None"),
   (k!"solderMaskMargin", .const k!"None"),
   (k!"solderPasteMargin", .const k!"None"),
   (k!"solderPasteRatio", .const k!"None"),
   (k!"clearance", .const k!"None"),
   (k!"zoneConnect", .const k!"None"),
   (k!"thermalWidth", .const k!"None"),
   (k!"thermalGap", .const k!"None"),
   (k!"attributes", .new k!"Attributes" []),
   (k!"privateLayers", .list),
   (k!"netTiePadGroups", .list),
   (k!"graphicItems", .list),
   (k!"pads", .list),
   (k!"zones", .list),
   (k!"groups", .list),
   (k!"models", .list),
   (k!"filePath", .const k!"None")]

/-- `GeneralSettings`, items/brditems.py 25–32 -/
def clsGeneralSettings : List (Str × Factory) :=
  [(k!"thickness", .const k!"1.6")]

/-- `LayerToken`, items/brditems.py 80–98 -/
def clsLayerToken : List (Str × Factory) :=
  [(k!"ordinal", .const k!"0"),
   (k!"name", .const k!"'F.Cu'"),
   (k!"type", .const k!"'signal'"),
   (k!"userName", .const k!"None")]

/-- `StackupSubLayer`, items/brditems.py 145–157 -/
def clsStackupSubLayer : List (Str × Factory) :=
  [(k!"thickness", .const k!"0.1"),
   (k!"material", .const k!"None"),
   (k!"epsilonR", .const k!"None"),
   (k!"lossTangent", .const k!"None")]

/-- `StackupLayer`, items/brditems.py 192–228 -/
def clsStackupLayer : List (Str × Factory) :=
  [(k!"name", .const k!"''"),
   (k!"type", .const k!"''"),
   (k!"color", .const k!"None"),
   (k!"thickness", .const k!"None"),
   (k!"material", .const k!"None"),
   (k!"epsilonR", .const k!"None"),
   (k!"lossTangent", .const k!"None"),
   (k!"subLayers", .list)]

/-- `Stackup`, items/brditems.py 319–347 -/
def clsStackup : List (Str × Factory) :=
  [(k!"layers", .list),
   (k!"copperFinish", .const k!"None"),
   (k!"dielectricContraints", .const k!"None"),
   (k!"edgeConnector", .const k!"None"),
   (k!"castellatedPads", .const k!"False"),
   (k!"edgePlating", .const k!"False")]

/-- `PlotSettings`, items/brditems.py 405–538 -/
def clsPlotSettings : List (Str × Factory) :=
  [(k!"layerSelection", .const k!"''"),
   (k!"plotOnAllLayersSelection", .const k!"None"),
   (k!"disableApertMacros", .const k!"False"),
   (k!"useGerberExtensions", .const k!"False"),
   (k!"useGerberAttributes", .const k!"False"),
   (k!"useGerberAdvancedAttributes", .const k!"False"),
   (k!"createGerberJobFile", .const k!"False"),
   (k!"dashedLineDashRatio", .const k!"None"),
   (k!"dashedLineGapRatio", .const k!"None"),
   (k!"svgUseInch", .const k!"None"),
   (k!"svgPrecision", .const k!"0.0"),
   (k!"excludeEdgeLayer", .const k!"None"),
   (k!"plotFameRef", .const k!"False"),
   (k!"viasOnMask", .const k!"False"),
   (k!"mode", .const k!"1"),
   (k!"useAuxOrigin", .const k!"False"),
   (k!"hpglPenNumber", .const k!"0"),
   (k!"hpglPenSpeed", .const k!"0"),
   (k!"hpglPenDiameter", .const k!"0.0"),
   (k!"dxfPolygonMode", .const k!"False"),
   (k!"dxfImperialUnits", .const k!"False"),
   (k!"dxfUsePcbnewFont", .const k!"False"),
   (k!"psNegative", .const k!"False"),
   (k!"psA4Output", .const k!"False"),
   (k!"plotReference", .const k!"False"),
   (k!"plotValue", .const k!"False"),
   (k!"plotInvisibleText", .const k!"False"),
   (k!"sketchPadsOnFab", .const k!"False"),
   (k!"subtractMaskFromSilk", .const k!"False"),
   (k!"outputFormat", .const k!"0"),
   (k!"mirror", .const k!"False"),
   (k!"drillShape", .const k!"0"),
   (k!"scaleSelection", .const k!"1"),
   (k!"outputDirectory", .const k!"''")]

/-- `SetupData`, items/brditems.py 658–694 -/
def clsSetupData : List (Str × Factory) :=
  [(k!"stackup", .const k!"None"),
   (k!"packToMaskClearance", .const k!"0.0"),
   (k!"solderMaskMinWidth", .const k!"None"),
   (k!"padToPasteClearance", .const k!"None"),
   (k!"padToPasteClearanceRatio", .const k!"None"),
   (k!"auxAxisOrigin", .const k!"None"),
   (k!"gridOrigin", .const k!"None"),
   (k!"plotSettings", .const k!"None")]

/-- `Segment`, items/brditems.py 757–783 -/
def clsSegment : List (Str × Factory) :=
  [(k!"start", .new k!"Position" []),
   (k!"end", .new k!"Position" []),
   (k!"width", .const k!"0.1"),
   (k!"layer", .const k!"'F.Cu'"),
   (k!"locked", .const k!"False"),
   (k!"net", .const k!"0"),
   (k!"tstamp", .const k!"''")]

/-- `Via`, items/brditems.py 836–876 -/
def clsVia : List (Str × Factory) :=
  [(k!"type", .const k!"None"),
   (k!"locked", .const k!"False"),
   (k!"position", .new k!"Position" []),
   (k!"size", .const k!"0.0"),
   (k!"drill", .const k!"0.0"),
   (k!"layers", .list),
   (k!"removeUnusedLayers", .const k!"False"),
   (k!"keepEndLayers", .const k!"False"),
   (k!"free", .const k!"False"),
   (k!"net", .const k!"0"),
   (k!"tstamp", .const k!"None")]

/-- `Arc`, items/brditems.py 945–975 -/
def clsArc : List (Str × Factory) :=
  [(k!"start", .new k!"Position" []),
   (k!"mid", .new k!"Position" []),
   (k!"end", .new k!"Position" []),
   (k!"width", .const k!"0.2"),
   (k!"layer", .const k!"'F.Cu'"),
   (k!"locked", .const k!"False"),
   (k!"net", .const k!"0"),
   (k!"tstamp", .const k!"None")]

/-- `Target`, items/brditems.py 1036–1058 -/
def clsTarget : List (Str × Factory) :=
  [(k!"type", .const k!"'plus'"),
   (k!"position", .new k!"Position" []),
   (k!"size", .const k!"0"),
   (k!"width", .const k!"0.1"),
   (k!"layer", .const k!"'F.Cu'"),
   (k!"tstamp", .const k!"None")]

/-- `Position`, items/common.py 26–45 -/
def clsPosition : List (Str × Factory) :=
  [(k!"X", .const k!"0.0"),
   (k!"Y", .const k!"0.0"),
   (k!"angle", .const k!"None"),
   (k!"unlocked", .const k!"False")]

/-- `Coordinate`, items/common.py 84–93 -/
def clsCoordinate : List (Str × Factory) :=
  [(k!"X", .const k!"0.0"),
   (k!"Y", .const k!"0.0"),
   (k!"Z", .const k!"0.0")]

/-- `ColorRGBA`, items/common.py 138–153 -/
def clsColorRGBA : List (Str × Factory) :=
  [(k!"R", .const k!"0"),
   (k!"G", .const k!"0"),
   (k!"B", .const k!"0"),
   (k!"A", .const k!"0"),
   (k!"precision", .const k!"None")]

/-- `Stroke`, items/common.py 205–221 -/
def clsStroke : List (Str × Factory) :=
  [(k!"width", .const k!"0.0"),
   (k!"type", .const k!"None"),
   (k!"color", .const k!"None")]

/-- `Font`, items/common.py 273–302 -/
def clsFont : List (Str × Factory) :=
  [(k!"face", .const k!"None"),
   (k!"height", .const k!"1.0"),
   (k!"width", .const k!"1.0"),
   (k!"thickness", .const k!"None"),
   (k!"bold", .const k!"False"),
   (k!"italic", .const k!"False"),
   (k!"lineSpacing", .const k!"None"),
   (k!"color", .const k!"None")]

/-- `Justify`, items/common.py 367–380 -/
def clsJustify : List (Str × Factory) :=
  [(k!"horizontally", .const k!"None"),
   (k!"vertically", .const k!"None"),
   (k!"mirror", .const k!"False")]

/-- `Effects`, items/common.py 439–455 -/
def clsEffects : List (Str × Factory) :=
  [(k!"font", .new k!"Font" []),
   (k!"justify", .new k!"Justify" []),
   (k!"hide", .const k!"False"),
   (k!"href", .const k!"None")]

/-- `Net`, items/common.py 512–518 -/
def clsNet : List (Str × Factory) :=
  [(k!"number", .const k!"0"),
   (k!"name", .const k!"''")]

/-- `Group`, items/common.py 562–578 -/
def clsGroup : List (Str × Factory) :=
  [(k!"name", .const k!"''"),
   (k!"locked", .const k!"False"),
   (k!"id", .const k!"''"),
   (k!"members", .list)]

/-- `PageSettings`, items/common.py 637–654 -/
def clsPageSettings : List (Str × Factory) :=
  [(k!"paperSize", .const k!"'A4'"),
   (k!"width", .const k!"None"),
   (k!"height", .const k!"None"),
   (k!"portrait", .const k!"False")]

/-- `TitleBlock`, items/common.py 718–737 -/
def clsTitleBlock : List (Str × Factory) :=
  [(k!"title", .const k!"None"),
   (k!"date", .const k!"None"),
   (k!"revision", .const k!"None"),
   (k!"company", .const k!"None"),
   (k!"comments", .dict)]

/-- `Property`, items/common.py 802–827 -/
def clsProperty : List (Str × Factory) :=
  [(k!"key", .const k!"''"),
   (k!"value", .const k!"''"),
   (k!"id", .const k!"None"),
   (k!"position", .new k!"Position" [(k!"angle", k!"0")]),
   (k!"effects", .const k!"None"),
   (k!"showName", .const k!"False")]

/-- `RenderCachePolygon`, items/common.py 889–895 -/
def clsRenderCachePolygon : List (Str × Factory) :=
  [(k!"pts", .list)]

/-- `RenderCache`, items/common.py 954–969 -/
def clsRenderCache : List (Str × Factory) :=
  [(k!"text", .const k!"''"),
   (k!"id", .const k!"0"),
   (k!"polygons", .list)]

/-- `Fill`, items/common.py 1019–1033 -/
def clsFill : List (Str × Factory) :=
  [(k!"type", .const k!"'none'"),
   (k!"color", .const k!"None")]

/-- `Image`, items/common.py 1082–1102 -/
def clsImage : List (Str × Factory) :=
  [(k!"position", .new k!"Position" []),
   (k!"scale", .const k!"None"),
   (k!"data", .list),
   (k!"uuid", .const k!"None"),
   (k!"layer", .const k!"None")]

/-- `DimensionFormat`, items/dimensions.py 27–62 -/
def clsDimensionFormat : List (Str × Factory) :=
  [(k!"prefix", .const k!"None"),
   (k!"suffix", .const k!"None"),
   (k!"units", .const k!"3"),
   (k!"unitsFormat", .const k!"1"),
   (k!"precision", .const k!"4"),
   (k!"overrideValue", .const k!"None"),
   (k!"suppressZeroes", .const k!"False")]

/-- `DimensionStyle`, items/dimensions.py 121–157 -/
def clsDimensionStyle : List (Str × Factory) :=
  [(k!"thickness", .const k!"0.0"),
   (k!"arrowLength", .const k!"0.0"),
   (k!"textPositionMode", .const k!"0"),
   (k!"extensionHeight", .const k!"None"),
   (k!"textFrame", .const k!"None"),
   (k!"extensionOffset", .const k!"None"),
   (k!"keepTextAligned", .const k!"False")]

/-- `Dimension`, items/dimensions.py 217–259 -/
def clsDimension : List (Str × Factory) :=
  [(k!"locked", .const k!"False"),
   (k!"type", .const k!"'aligned'"),
   (k!"layer", .const k!"'F.Cu'"),
   (k!"tstamp", .const k!"None"),
   (k!"pts", .list),
   (k!"height", .const k!"None"),
   (k!"orientation", .const k!"None"),
   (k!"leaderLength", .const k!"None"),
   (k!"grText", .const k!"None"),
   (k!"format", .const k!"None"),
   (k!"style", .new k!"DimensionStyle" [])]

/-- `FpText`, items/fpitems.py 30–64 -/
def clsFpText : List (Str × Factory) :=
  [(k!"type", .const k!"'reference'"),
   (k!"text", .const k!"'%REF'"),
   (k!"position", .new k!"Position" []),
   (k!"layer", .const k!"'F.Cu'"),
   (k!"knockout", .const k!"False"),
   (k!"hide", .const k!"False"),
   (k!"effects", .new k!"Effects" []),
   (k!"tstamp", .const k!"None"),
   (k!"renderCache", .const k!"None")]

/-- `FpLine`, items/fpitems.py 136–163 -/
def clsFpLine : List (Str × Factory) :=
  [(k!"start", .new k!"Position" []),
   (k!"end", .new k!"Position" []),
   (k!"layer", .const k!"'F.Cu'"),
   (k!"width", .const k!"0.12"),
   (k!"stroke", .const k!"None"),
   (k!"locked", .const k!"False"),
   (k!"tstamp", .const k!"None")]

/-- `FpRect`, items/fpitems.py 228–257 -/
def clsFpRect : List (Str × Factory) :=
  [(k!"start", .new k!"Position" []),
   (k!"end", .new k!"Position" []),
   (k!"layer", .const k!"'F.Cu'"),
   (k!"width", .const k!"0.12"),
   (k!"stroke", .const k!"None"),
   (k!"fill", .const k!"None"),
   (k!"locked", .const k!"False"),
   (k!"tstamp", .const k!"None")]

/-- `FpTextBox`, items/fpitems.py 327–376 -/
def clsFpTextBox : List (Str × Factory) :=
  [(k!"locked", .const k!"False"),
   (k!"text", .const k!"''"),
   (k!"start", .const k!"None"),
   (k!"end", .const k!"None"),
   (k!"pts", .list),
   (k!"angle", .const k!"None"),
   (k!"layer", .const k!"'F.Cu'"),
   (k!"tstamp", .const k!"None"),
   (k!"effects", .const k!"None"),
   (k!"stroke", .const k!"None"),
   (k!"renderCache", .const k!"None")]

/-- `FpCircle`, items/fpitems.py 474–503 -/
def clsFpCircle : List (Str × Factory) :=
  [(k!"center", .new k!"Position" []),
   (k!"end", .new k!"Position" []),
   (k!"layer", .const k!"'F.Cu'"),
   (k!"width", .const k!"0.12"),
   (k!"stroke", .const k!"None"),
   (k!"fill", .const k!"None"),
   (k!"locked", .const k!"False"),
   (k!"tstamp", .const k!"None")]

/-- `FpArc`, items/fpitems.py 573–601 -/
def clsFpArc : List (Str × Factory) :=
  [(k!"start", .new k!"Position" []),
   (k!"mid", .new k!"Position" []),
   (k!"end", .new k!"Position" []),
   (k!"layer", .const k!"'F.Cu'"),
   (k!"width", .const k!"0.12"),
   (k!"stroke", .const k!"None"),
   (k!"locked", .const k!"False"),
   (k!"tstamp", .const k!"None")]

/-- `FpPoly`, items/fpitems.py 670–696 -/
def clsFpPoly : List (Str × Factory) :=
  [(k!"layer", .const k!"'F.Cu'"),
   (k!"coordinates", .list),
   (k!"width", .const k!"0.12"),
   (k!"stroke", .const k!"None"),
   (k!"fill", .const k!"None"),
   (k!"locked", .const k!"False"),
   (k!"tstamp", .const k!"None")]

/-- `FpCurve`, items/fpitems.py 775–797 -/
def clsFpCurve : List (Str × Factory) :=
  [(k!"coordinates", .list),
   (k!"layer", .const k!"'F.Cu'"),
   (k!"width", .const k!"0.12"),
   (k!"stroke", .const k!"None"),
   (k!"locked", .const k!"False"),
   (k!"tstamp", .const k!"None")]

/-- `GrText`, items/gritems.py 27–57 -/
def clsGrText : List (Str × Factory) :=
  [(k!"text", .const k!"''"),
   (k!"knockout", .const k!"False"),
   (k!"position", .new k!"Position" []),
   (k!"layer", .const k!"None"),
   (k!"effects", .new k!"Effects" []),
   (k!"tstamp", .const k!"None"),
   (k!"locked", .const k!"False"),
   (k!"renderCache", .const k!"None")]

/-- `GrTextBox`, items/gritems.py 127–176 -/
def clsGrTextBox : List (Str × Factory) :=
  [(k!"locked", .const k!"False"),
   (k!"text", .const k!"''"),
   (k!"start", .const k!"None"),
   (k!"end", .const k!"None"),
   (k!"pts", .list),
   (k!"angle", .const k!"None"),
   (k!"layer", .const k!"'F.Cu'"),
   (k!"tstamp", .const k!"None"),
   (k!"effects", .const k!"None"),
   (k!"stroke", .const k!"None"),
   (k!"renderCache", .const k!"None")]

/-- `GrLine`, items/gritems.py 276–301 -/
def clsGrLine : List (Str × Factory) :=
  [(k!"start", .new k!"Position" []),
   (k!"end", .new k!"Position" []),
   (k!"angle", .const k!"None"),
   (k!"layer", .const k!"None"),
   (k!"width", .const k!"0.12"),
   (k!"tstamp", .const k!"None"),
   (k!"locked", .const k!"False")]

/-- `GrRect`, items/gritems.py 357–382 -/
def clsGrRect : List (Str × Factory) :=
  [(k!"start", .new k!"Position" []),
   (k!"end", .new k!"Position" []),
   (k!"layer", .const k!"None"),
   (k!"width", .const k!"0.12"),
   (k!"fill", .const k!"None"),
   (k!"tstamp", .const k!"None"),
   (k!"locked", .const k!"False")]

/-- `GrCircle`, items/gritems.py 439–464 -/
def clsGrCircle : List (Str × Factory) :=
  [(k!"center", .new k!"Position" []),
   (k!"end", .new k!"Position" []),
   (k!"layer", .const k!"None"),
   (k!"width", .const k!"0.12"),
   (k!"fill", .const k!"None"),
   (k!"tstamp", .const k!"None"),
   (k!"locked", .const k!"False")]

/-- `GrArc`, items/gritems.py 522–547 -/
def clsGrArc : List (Str × Factory) :=
  [(k!"start", .new k!"Position" []),
   (k!"mid", .new k!"Position" []),
   (k!"end", .new k!"Position" []),
   (k!"layer", .const k!"None"),
   (k!"width", .const k!"0.12"),
   (k!"tstamp", .const k!"None"),
   (k!"locked", .const k!"False")]

/-- `GrPoly`, items/gritems.py 604–626 -/
def clsGrPoly : List (Str × Factory) :=
  [(k!"layer", .const k!"None"),
   (k!"coordinates", .list),
   (k!"width", .const k!"0.12"),
   (k!"fill", .const k!"None"),
   (k!"tstamp", .const k!"None"),
   (k!"locked", .const k!"False")]

/-- `GrCurve`, items/gritems.py 701–719 -/
def clsGrCurve : List (Str × Factory) :=
  [(k!"coordinates", .list),
   (k!"layer", .const k!"None"),
   (k!"width", .const k!"0.12"),
   (k!"tstamp", .const k!"None"),
   (k!"locked", .const k!"False")]

/-- `Junction`, items/schitems.py 26–44 -/
def clsJunction : List (Str × Factory) :=
  [(k!"position", .new k!"Position" []),
   (k!"diameter", .const k!"0"),
   (k!"color", .new k!"ColorRGBA" []),
   (k!"uuid", .const k!"None")]

/-- `NoConnect`, items/schitems.py 92–102 -/
def clsNoConnect : List (Str × Factory) :=
  [(k!"position", .new k!"Position" []),
   (k!"uuid", .const k!"None")]

/-- `BusEntry`, items/schitems.py 148–165 -/
def clsBusEntry : List (Str × Factory) :=
  [(k!"position", .new k!"Position" []),
   (k!"uuid", .const k!"None"),
   (k!"size", .new k!"Position" []),
   (k!"stroke", .new k!"Stroke" [])]

/-- `BusAlias`, items/schitems.py 217–227 -/
def clsBusAlias : List (Str × Factory) :=
  [(k!"name", .const k!"''"),
   (k!"members", .list)]

/-- `Connection`, items/schitems.py 282–299 -/
def clsConnection : List (Str × Factory) :=
  [(k!"type", .const k!"'wire'"),
   (k!"points", .list),
   (k!"stroke", .new k!"Stroke" []),
   (k!"uuid", .const k!"None")]

/-- `PolyLine`, items/schitems.py 357–371 -/
def clsPolyLine : List (Str × Factory) :=
  [(k!"points", .list),
   (k!"stroke", .new k!"Stroke" []),
   (k!"uuid", .const k!"None")]

/-- `Text`, items/schitems.py 428–444 -/
def clsText : List (Str × Factory) :=
  [(k!"text", .const k!"''"),
   (k!"position", .new k!"Position" []),
   (k!"effects", .new k!"Effects" []),
   (k!"uuid", .const k!"None")]

/-- `TextBox`, items/schitems.py 505–531 -/
def clsTextBox : List (Str × Factory) :=
  [(k!"text", .const k!"''"),
   (k!"position", .new k!"Position" []),
   (k!"size", .new k!"Position" []),
   (k!"stroke", .new k!"Stroke" []),
   (k!"fill", .new k!"Fill" []),
   (k!"effects", .new k!"Effects" []),
   (k!"uuid", .const k!"None")]

/-- `LocalLabel`, items/schitems.py 591–610 -/
def clsLocalLabel : List (Str × Factory) :=
  [(k!"text", .const k!"''"),
   (k!"position", .new k!"Position" []),
   (k!"effects", .new k!"Effects" []),
   (k!"uuid", .const k!"None"),
   (k!"fieldsAutoplaced", .const k!"False")]

/-- `GlobalLabel`, items/schitems.py 667–694 -/
def clsGlobalLabel : List (Str × Factory) :=
  [(k!"text", .const k!"''"),
   (k!"shape", .const k!"'input'"),
   (k!"fieldsAutoplaced", .const k!"False"),
   (k!"position", .new k!"Position" []),
   (k!"effects", .new k!"Effects" []),
   (k!"uuid", .const k!"None"),
   (k!"properties", .list)]

/-- `HierarchicalLabel`, items/schitems.py 755–779 -/
def clsHierarchicalLabel : List (Str × Factory) :=
  [(k!"text", .const k!"''"),
   (k!"shape", .const k!"'input'"),
   (k!"position", .new k!"Position" []),
   (k!"effects", .new k!"Effects" []),
   (k!"uuid", .const k!"None"),
   (k!"fieldsAutoplaced", .const k!"False")]

/-- `SymbolProjectPath`, items/schitems.py 837–854 -/
def clsSymbolProjectPath : List (Str × Factory) :=
  [(k!"sheetInstancePath", .const k!"''"),
   (k!"reference", .const k!"''"),
   (k!"unit", .const k!"1")]

/-- `SymbolProjectInstance`, items/schitems.py 903–915, with the fields of `ProjectInstance`, items/common.py 1164–1170 -/
def clsSymbolProjectInstance : List (Str × Factory) :=
  [(k!"name", .const k!"''"),
   (k!"paths", .list)]

/-- `SchematicSymbol`, items/schitems.py 963–1056 -/
def clsSchematicSymbol : List (Str × Factory) :=
  [(k!"libraryNickname", .const k!"None"),
   (k!"entryName", .const k!"None"),
   (k!"libName", .const k!"None"),
   (k!"position", .new k!"Position" []),
   (k!"unit", .const k!"None"),
   (k!"inBom", .const k!"False"),
   (k!"onBoard", .const k!"False"),
   (k!"dnp", .const k!"None"),
   (k!"fieldsAutoplaced", .const k!"False"),
   (k!"uuid", .const k!"''"),
   (k!"properties", .list),
   (k!"pins", .dict),
   (k!"mirror", .const k!"None"),
   (k!"instances", .list)]

/-- `HierarchicalPin`, items/schitems.py 1144–1166 -/
def clsHierarchicalPin : List (Str × Factory) :=
  [(k!"name", .const k!"''"),
   (k!"connectionType", .const k!"'input'"),
   (k!"position", .new k!"Position" []),
   (k!"effects", .new k!"Effects" []),
   (k!"uuid", .const k!"None")]

/-- `HierarchicalSheetProjectPath`, items/schitems.py 1222–1235 -/
def clsHierarchicalSheetProjectPath : List (Str × Factory) :=
  [(k!"sheetInstancePath", .const k!"''"),
   (k!"page", .const k!"''")]

/-- `HierarchicalSheetProjectInstance`, items/schitems.py 1279–1291, with the fields of `ProjectInstance`, items/common.py 1164–1170 -/
def clsHierarchicalSheetProjectInstance : List (Str × Factory) :=
  [(k!"name", .const k!"''"),
   (k!"paths", .list)]

/-- `HierarchicalSheet`, items/schitems.py 1339–1384 -/
def clsHierarchicalSheet : List (Str × Factory) :=
  [(k!"position", .new k!"Position" []),
   (k!"width", .const k!"0"),
   (k!"height", .const k!"0"),
   (k!"fieldsAutoplaced", .const k!"False"),
   (k!"stroke", .new k!"Stroke" []),
   (k!"fill", .new k!"ColorRGBA" []),
   (k!"uuid", .const k!"None"),
   (k!"sheetName", .new k!"Property" [(k!"key", k!"'Sheet name'")]),
   (k!"fileName", .new k!"Property" [(k!"key", k!"'Sheet file'")]),
   (k!"properties", .list),
   (k!"pins", .list),
   (k!"instances", .list)]

/-- `HierarchicalSheetInstance`, items/schitems.py 1468–1479 -/
def clsHierarchicalSheetInstance : List (Str × Factory) :=
  [(k!"instancePath", .const k!"'/'"),
   (k!"page", .const k!"'1'")]

/-- `SymbolInstance`, items/schitems.py 1525–1546 -/
def clsSymbolInstance : List (Str × Factory) :=
  [(k!"path", .const k!"'/'"),
   (k!"reference", .const k!"''"),
   (k!"unit", .const k!"0"),
   (k!"value", .const k!"''"),
   (k!"footprint", .const k!"''")]

/-- `Rectangle`, items/schitems.py 1597–1618 -/
def clsRectangle : List (Str × Factory) :=
  [(k!"start", .new k!"Position" []),
   (k!"end", .new k!"Position" []),
   (k!"stroke", .new k!"Stroke" []),
   (k!"fill", .new k!"Fill" []),
   (k!"uuid", .const k!"None")]

/-- `Arc`, items/schitems.py 1673–1697 -/
def clsschitemsArc : List (Str × Factory) :=
  [(k!"start", .new k!"Position" []),
   (k!"mid", .new k!"Position" []),
   (k!"end", .new k!"Position" []),
   (k!"stroke", .new k!"Stroke" []),
   (k!"fill", .new k!"Fill" []),
   (k!"uuid", .const k!"None")]

/-- `Circle`, items/schitems.py 1753–1774 -/
def clsCircle : List (Str × Factory) :=
  [(k!"center", .new k!"Position" []),
   (k!"radius", .const k!"0.0"),
   (k!"stroke", .new k!"Stroke" []),
   (k!"fill", .new k!"Fill" []),
   (k!"uuid", .const k!"None")]

/-- `NetclassFlag`, items/schitems.py 1829–1860 -/
def clsNetclassFlag : List (Str × Factory) :=
  [(k!"text", .const k!"''"),
   (k!"length", .const k!"2.54"),
   (k!"shape", .const k!"'round'"),
   (k!"position", .cls k!"Position"),
   (k!"effects", .cls k!"Effects"),
   (k!"properties", .list),
   (k!"uuid", .const k!"None"),
   (k!"fieldsAutoplaced", .const k!"False")]

/-- `SyArc`, items/syitems.py 27–52 -/
def clsSyArc : List (Str × Factory) :=
  [(k!"private", .const k!"False"),
   (k!"start", .new k!"Position" []),
   (k!"mid", .new k!"Position" []),
   (k!"end", .new k!"Position" []),
   (k!"stroke", .new k!"Stroke" []),
   (k!"fill", .new k!"Fill" [])]

/-- `SyCircle`, items/syitems.py 113–135 -/
def clsSyCircle : List (Str × Factory) :=
  [(k!"private", .const k!"False"),
   (k!"center", .new k!"Position" []),
   (k!"radius", .const k!"0.0"),
   (k!"stroke", .new k!"Stroke" []),
   (k!"fill", .new k!"Fill" [])]

/-- `SyCurve`, items/syitems.py 191–204 -/
def clsSyCurve : List (Str × Factory) :=
  [(k!"points", .list),
   (k!"stroke", .new k!"Stroke" []),
   (k!"fill", .new k!"Fill" [])]

/-- `SyPolyLine`, items/syitems.py 260–273 -/
def clsSyPolyLine : List (Str × Factory) :=
  [(k!"points", .list),
   (k!"stroke", .new k!"Stroke" []),
   (k!"fill", .new k!"Fill" [])]

/-- `SyRect`, items/syitems.py 329–351 -/
def clsSyRect : List (Str × Factory) :=
  [(k!"private", .const k!"False"),
   (k!"start", .new k!"Position" []),
   (k!"end", .new k!"Position" []),
   (k!"stroke", .new k!"Stroke" []),
   (k!"fill", .new k!"Fill" [])]

/-- `SyText`, items/syitems.py 407–420 -/
def clsSyText : List (Str × Factory) :=
  [(k!"text", .const k!"''"),
   (k!"position", .new k!"Position" []),
   (k!"effects", .new k!"Effects" [])]

/-- `SyTextBox`, items/syitems.py 471–505 -/
def clsSyTextBox : List (Str × Factory) :=
  [(k!"text", .const k!"''"),
   (k!"private", .const k!"False"),
   (k!"position", .new k!"Position" []),
   (k!"size", .new k!"Position" []),
   (k!"stroke", .new k!"Stroke" []),
   (k!"fill", .new k!"Fill" []),
   (k!"effects", .new k!"Effects" []),
   (k!"uuid", .const k!"None")]

/-- `KeepoutSettings`, items/zones.py 26–50 -/
def clsKeepoutSettings : List (Str × Factory) :=
  [(k!"tracks", .const k!"'allowed'"),
   (k!"vias", .const k!"'allowed'"),
   (k!"pads", .const k!"'allowed'"),
   (k!"copperpour", .const k!"'not-allowed'"),
   (k!"footprints", .const k!"'not-allowed'")]

/-- `FillSettings`, items/zones.py 105–178 -/
def clsFillSettings : List (Str × Factory) :=
  [(k!"yes", .const k!"False"),
   (k!"mode", .const k!"None"),
   (k!"thermalGap", .const k!"None"),
   (k!"thermalBridgeWidth", .const k!"None"),
   (k!"smoothingStyle", .const k!"None"),
   (k!"smoothingRadius", .const k!"None"),
   (k!"islandRemovalMode", .const k!"None"),
   (k!"islandAreaMin", .const k!"None"),
   (k!"hatchThickness", .const k!"None"),
   (k!"hatchGap", .const k!"None"),
   (k!"hatchOrientation", .const k!"None"),
   (k!"hatchSmoothingLevel", .const k!"None"),
   (k!"hatchSmoothingValue", .const k!"None"),
   (k!"hatchBorderAlgorithm", .const k!"None"),
   (k!"hatchMinHoleArea", .const k!"None")]

/-- `ZonePolygon`, items/zones.py 255–258 -/
def clsZonePolygon : List (Str × Factory) :=
  [(k!"coordinates", .list)]

/-- `FilledPolygon`, items/zones.py 317–331 -/
def clsFilledPolygon : List (Str × Factory) :=
  [(k!"layer", .const k!"'F.Cu'"),
   (k!"island", .const k!"False"),
   (k!"coordinates", .list)]

/-- `FillSegments`, items/zones.py 397–408 -/
def clsFillSegments : List (Str × Factory) :=
  [(k!"layer", .const k!"'F.Cu'"),
   (k!"coordinates", .list)]

/-- `Hatch`, items/zones.py 470–477 -/
def clsHatch : List (Str × Factory) :=
  [(k!"style", .const k!"'none'"),
   (k!"pitch", .const k!"0.0")]

/-- `Zone`, items/zones.py 481–549 -/
def clsZone : List (Str × Factory) :=
  [(k!"locked", .const k!"False"),
   (k!"net", .const k!"0"),
   (k!"netName", .const k!"'unknown'"),
   (k!"layers", .list),
   (k!"tstamp", .const k!"None"),
   (k!"name", .const k!"None"),
   (k!"hatch", .new k!"Hatch" []),
   (k!"priority", .const k!"None"),
   (k!"connectPads", .const k!"None"),
   (k!"clearance", .const k!"0.254"),
   (k!"minThickness", .const k!"0.254"),
   (k!"filledAreasThickness", .const k!"None"),
   (k!"keepoutSettings", .const k!"None"),
   (k!"fillSettings", .const k!"None"),
   (k!"polygons", .list),
   (k!"filledPolygons", .list),
   (k!"fillSegments", .const k!"None")]

/-- `Library`, libraries.py 23–42 -/
def clsLibrary : List (Str × Factory) :=
  [(k!"name", .const k!"''"),
   (k!"type", .const k!"'KiCad'"),
   (k!"uri", .const k!"''"),
   (k!"options", .const k!"''"),
   (k!"description", .const k!"''"),
   (k!"active", .const k!"True")]

/-- `LibTable`, libraries.py 103–113 -/
def clsLibTable : List (Str × Factory) :=
  [(k!"type", .const k!"'sym_lib_table'"),
   (k!"libs", .list),
   (k!"filePath", .const k!"None")]

/-- `Schematic`, schematic.py 29–113 -/
def clsSchematic : List (Str × Factory) :=
  [(k!"version", .const k!"'20211014'"),
   (k!"generator", .const k!"'kiutils'"),
   (k!"uuid", .const k!"None"),
   (k!"paper", .new k!"PageSettings" []),
   (k!"titleBlock", .const k!"None"),
   (k!"libSymbols", .list),
   (k!"schematicSymbols", .list),
   (k!"junctions", .list),
   (k!"noConnects", .list),
   (k!"busEntries", .list),
   (k!"busAliases", .list),
   (k!"graphicalItems", .list),
   (k!"shapes", .list),
   (k!"images", .list),
   (k!"texts", .list),
   (k!"textBoxes", .list),
   (k!"labels", .list),
   (k!"globalLabels", .list),
   (k!"hierarchicalLabels", .list),
   (k!"netclassFlags", .list),
   (k!"sheets", .list),
   (k!"sheetInstances", .list),
   (k!"symbolInstances", .list),
   (k!"filePath", .const k!"None")]

/-- `SymbolAlternativePin`, symbol.py 29–37 -/
def clsSymbolAlternativePin : List (Str × Factory) :=
  [(k!"pinName", .const k!"''"),
   (k!"electricalType", .const k!"'input'"),
   (k!"graphicalStyle", .const k!"'line'")]

/-- `SymbolPin`, symbol.py 83–122 -/
def clsSymbolPin : List (Str × Factory) :=
  [(k!"electricalType", .const k!"'input'"),
   (k!"graphicalStyle", .const k!"'line'"),
   (k!"position", .new k!"Position" []),
   (k!"length", .const k!"0.254"),
   (k!"name", .const k!"''"),
   (k!"nameEffects", .const k!"None"),
   (k!"number", .const k!"'0'"),
   (k!"numberEffects", .const k!"None"),
   (k!"hide", .const k!"False"),
   (k!"alternatePins", .list)]

/-- `Symbol`, symbol.py 211–355 -/
def clsSymbol : List (Str × Factory) :=
  [(k!"libraryNickname", .const k!"None"),
   (k!"entryName", .const k!"None"),
   (k!"unitId", .const k!"None"),
   (k!"styleId", .const k!"None"),
   (k!"extends", .const k!"None"),
   (k!"hidePinNumbers", .const k!"False"),
   (k!"pinNames", .const k!"False"),
   (k!"pinNamesHide", .const k!"False"),
   (k!"pinNamesOffset", .const k!"None"),
   (k!"inBom", .const k!"None"),
   (k!"onBoard", .const k!"None"),
   (k!"isPower", .const k!"False"),
   (k!"properties", .list),
   (k!"graphicItems", .list),
   (k!"pins", .list),
   (k!"units", .list)]

/-- `SymbolLib`, symbol.py 483–499 -/
def clsSymbolLib : List (Str × Factory) :=
  [(k!"version", .const k!"'20211014'"),
   (k!"generator", .const k!"None"),
   (k!"symbols", .list),
   (k!"filePath", .const k!"None")]

/-- `WksFontSize`, wks.py 28–34 -/
def clsWksFontSize : List (Str × Factory) :=
  [(k!"width", .const k!"1.0"),
   (k!"height", .const k!"1.0")]

/-- `WksFont`, wks.py 77–89 -/
def clsWksFont : List (Str × Factory) :=
  [(k!"linewidth", .const k!"None"),
   (k!"size", .const k!"None"),
   (k!"bold", .const k!"False"),
   (k!"italic", .const k!"False")]

/-- `WksPosition`, wks.py 147–158 -/
def clsWksPosition : List (Str × Factory) :=
  [(k!"X", .const k!"0.0"),
   (k!"Y", .const k!"0.0"),
   (k!"corner", .const k!"None")]

/-- `Line`, wks.py 193–227 -/
def clsLine : List (Str × Factory) :=
  [(k!"name", .const k!"''"),
   (k!"start", .new k!"WksPosition" []),
   (k!"end", .new k!"WksPosition" []),
   (k!"option", .const k!"None"),
   (k!"lineWidth", .const k!"None"),
   (k!"repeat", .const k!"None"),
   (k!"incrx", .const k!"None"),
   (k!"incry", .const k!"None"),
   (k!"comment", .const k!"None")]

/-- `Rect`, wks.py 292–326 -/
def clsRect : List (Str × Factory) :=
  [(k!"name", .const k!"''"),
   (k!"start", .new k!"WksPosition" []),
   (k!"end", .new k!"WksPosition" []),
   (k!"option", .const k!"None"),
   (k!"lineWidth", .const k!"None"),
   (k!"repeat", .const k!"None"),
   (k!"incrx", .const k!"None"),
   (k!"incry", .const k!"None"),
   (k!"comment", .const k!"None")]

/-- `Polygon`, wks.py 391–426 -/
def clsPolygon : List (Str × Factory) :=
  [(k!"name", .const k!"''"),
   (k!"position", .new k!"WksPosition" []),
   (k!"option", .const k!"None"),
   (k!"rotate", .const k!"None"),
   (k!"coordinates", .list),
   (k!"repeat", .const k!"None"),
   (k!"incrx", .const k!"None"),
   (k!"incry", .const k!"None"),
   (k!"comment", .const k!"None")]

/-- `Bitmap`, wks.py 459–496 -/
def clsBitmap : List (Str × Factory) :=
  [(k!"name", .const k!"''"),
   (k!"position", .new k!"WksPosition" []),
   (k!"option", .const k!"None"),
   (k!"scale", .const k!"1.0"),
   (k!"repeat", .const k!"None"),
   (k!"incrx", .const k!"None"),
   (k!"incry", .const k!"None"),
   (k!"comment", .const k!"None"),
   (k!"pngdata", .list)]

/-- `TbText`, wks.py 578–628 -/
def clsTbText : List (Str × Factory) :=
  [(k!"text", .const k!"''"),
   (k!"name", .const k!"''"),
   (k!"position", .new k!"WksPosition" []),
   (k!"option", .const k!"None"),
   (k!"rotate", .const k!"None"),
   (k!"font", .new k!"WksFont" []),
   (k!"justify", .const k!"None"),
   (k!"maxlen", .const k!"None"),
   (k!"maxheight", .const k!"None"),
   (k!"repeat", .const k!"None"),
   (k!"incrx", .const k!"None"),
   (k!"incry", .const k!"None"),
   (k!"incrlabel", .const k!"None"),
   (k!"comment", .const k!"None")]

/-- `TextSize`, wks.py 704–710 -/
def clsTextSize : List (Str × Factory) :=
  [(k!"width", .const k!"1.5"),
   (k!"height", .const k!"1.5")]

/-- `Setup`, wks.py 753–778 -/
def clsSetup : List (Str × Factory) :=
  [(k!"textSize", .new k!"TextSize" []),
   (k!"lineWidth", .const k!"0.15"),
   (k!"textLineWidth", .const k!"0.15"),
   (k!"leftMargin", .const k!"10.0"),
   (k!"rightMargin", .const k!"10.0"),
   (k!"topMargin", .const k!"10.0"),
   (k!"bottomMargin", .const k!"10.0")]

/-- `WorkSheet`, wks.py 835–853 -/
def clsWorkSheet : List (Str × Factory) :=
  [(k!"version", .const k!"'20211014'"),
   (k!"generator", .const k!"'kiutils'"),
   (k!"setup", .new k!"Setup" []),
   (k!"drawingObjects", .list),
   (k!"filePath", .const k!"None")]

/-- All dataclasses of the package with the defaults of their fields, but `ProjectInstance` (items/common.py 1163–1179): it has abstract
methods, so Python makes no objects of it; its two subclasses are in the table with its field. (The trace `Arc` is that of brditems.py; the class with the same
name in schitems.py is `schitems.Arc`.) -/
def classTable : List (Str × List (Str × Factory)) :=
  [(k!"Board", clsBoard),
   (k!"Constraint", clsConstraint),
   (k!"Rule", clsRule),
   (k!"DesignRules", clsDesignRules),
   (k!"Attributes", clsAttributes),
   (k!"Model", clsModel),
   (k!"DrillDefinition", clsDrillDefinition),
   (k!"PadOptions", clsPadOptions),
   (k!"Pad", clsPad),
   (k!"Footprint", clsFootprint),
   (k!"GeneralSettings", clsGeneralSettings),
   (k!"LayerToken", clsLayerToken),
   (k!"StackupSubLayer", clsStackupSubLayer),
   (k!"StackupLayer", clsStackupLayer),
   (k!"Stackup", clsStackup),
   (k!"PlotSettings", clsPlotSettings),
   (k!"SetupData", clsSetupData),
   (k!"Segment", clsSegment),
   (k!"Via", clsVia),
   (k!"Arc", clsArc),
   (k!"Target", clsTarget),
   (k!"Position", clsPosition),
   (k!"Coordinate", clsCoordinate),
   (k!"ColorRGBA", clsColorRGBA),
   (k!"Stroke", clsStroke),
   (k!"Font", clsFont),
   (k!"Justify", clsJustify),
   (k!"Effects", clsEffects),
   (k!"Net", clsNet),
   (k!"Group", clsGroup),
   (k!"PageSettings", clsPageSettings),
   (k!"TitleBlock", clsTitleBlock),
   (k!"Property", clsProperty),
   (k!"RenderCachePolygon", clsRenderCachePolygon),
   (k!"RenderCache", clsRenderCache),
   (k!"Fill", clsFill),
   (k!"Image", clsImage),
   (k!"DimensionFormat", clsDimensionFormat),
   (k!"DimensionStyle", clsDimensionStyle),
   (k!"Dimension", clsDimension),
   (k!"FpText", clsFpText),
   (k!"FpLine", clsFpLine),
   (k!"FpRect", clsFpRect),
   (k!"FpTextBox", clsFpTextBox),
   (k!"FpCircle", clsFpCircle),
   (k!"FpArc", clsFpArc),
   (k!"FpPoly", clsFpPoly),
   (k!"FpCurve", clsFpCurve),
   (k!"GrText", clsGrText),
   (k!"GrTextBox", clsGrTextBox),
   (k!"GrLine", clsGrLine),
   (k!"GrRect", clsGrRect),
   (k!"GrCircle", clsGrCircle),
   (k!"GrArc", clsGrArc),
   (k!"GrPoly", clsGrPoly),
   (k!"GrCurve", clsGrCurve),
   (k!"Junction", clsJunction),
   (k!"NoConnect", clsNoConnect),
   (k!"BusEntry", clsBusEntry),
   (k!"BusAlias", clsBusAlias),
   (k!"Connection", clsConnection),
   (k!"PolyLine", clsPolyLine),
   (k!"Text", clsText),
   (k!"TextBox", clsTextBox),
   (k!"LocalLabel", clsLocalLabel),
   (k!"GlobalLabel", clsGlobalLabel),
   (k!"HierarchicalLabel", clsHierarchicalLabel),
   (k!"SymbolProjectPath", clsSymbolProjectPath),
   (k!"SymbolProjectInstance", clsSymbolProjectInstance),
   (k!"SchematicSymbol", clsSchematicSymbol),
   (k!"HierarchicalPin", clsHierarchicalPin),
   (k!"HierarchicalSheetProjectPath", clsHierarchicalSheetProjectPath),
   (k!"HierarchicalSheetProjectInstance", clsHierarchicalSheetProjectInstance),
   (k!"HierarchicalSheet", clsHierarchicalSheet),
   (k!"HierarchicalSheetInstance", clsHierarchicalSheetInstance),
   (k!"SymbolInstance", clsSymbolInstance),
   (k!"Rectangle", clsRectangle),
   (k!"schitems.Arc", clsschitemsArc),
   (k!"Circle", clsCircle),
   (k!"NetclassFlag", clsNetclassFlag),
   (k!"SyArc", clsSyArc),
   (k!"SyCircle", clsSyCircle),
   (k!"SyCurve", clsSyCurve),
   (k!"SyPolyLine", clsSyPolyLine),
   (k!"SyRect", clsSyRect),
   (k!"SyText", clsSyText),
   (k!"SyTextBox", clsSyTextBox),
   (k!"KeepoutSettings", clsKeepoutSettings),
   (k!"FillSettings", clsFillSettings),
   (k!"ZonePolygon", clsZonePolygon),
   (k!"FilledPolygon", clsFilledPolygon),
   (k!"FillSegments", clsFillSegments),
   (k!"Hatch", clsHatch),
   (k!"Zone", clsZone),
   (k!"Library", clsLibrary),
   (k!"LibTable", clsLibTable),
   (k!"Schematic", clsSchematic),
   (k!"SymbolAlternativePin", clsSymbolAlternativePin),
   (k!"SymbolPin", clsSymbolPin),
   (k!"Symbol", clsSymbol),
   (k!"SymbolLib", clsSymbolLib),
   (k!"WksFontSize", clsWksFontSize),
   (k!"WksFont", clsWksFont),
   (k!"WksPosition", clsWksPosition),
   (k!"Line", clsLine),
   (k!"Rect", clsRect),
   (k!"Polygon", clsPolygon),
   (k!"Bitmap", clsBitmap),
   (k!"TbText", clsTbText),
   (k!"TextSize", clsTextSize),
   (k!"Setup", clsSetup),
   (k!"WorkSheet", clsWorkSheet)]

/-! ## The heap -/

/-- What an attribute or an item of a list holds; the address of an object is a number. -/
inductive Ref where
  | const (source : Str)
  | obj (a : Nat)
  deriving DecidableEq

/-- An object, list, dict or class with its attributes (items, entries, class attributes); items of lists have their index as name. -/
structure Cell where
  cls : Str
  slots : List (Str × Ref)

/-- All objects; an address is a position. -/
abbrev Heap := List Cell

/-- `a.name = r`, `a.append(r)` and the like. -/
def Heap.write (h : Heap) (a : Nat) (name : Str) (r : Ref) : Heap :=
  match h[a]? with
  | some c => h.set a { c with slots := (name, r) :: c.slots.filter (fun s => s.1 ≠ name) }
  | none => h

/-- `a.name` -/
def Heap.read (h : Heap) (a : Nat) (name : Str) : Option Ref :=
  match h[a]? with
  | some c => c.slots.lookup name
  | none => none

/-- `r.n1.n2.…` -/
def Heap.path (h : Heap) : Ref → List Str → Option Ref
  | r, [] => some r
  | .obj a, n :: ns => match h.read a n with
    | some r => h.path r ns
    | none => none
  | .const _, _ :: _ => none

mutual
/-- `C(**args)`: the object with its fields in order; a factory is called for each field without an argument. `classes` gives the
address of the classes themselves, `fuel` bounds the nesting of factories. (Python makes the object before its fields; only the
order of the addresses depends on it.) -/
def construct (classes : Str → Nat) : Nat → Str → List (Str × Ref) → Heap → Option (Nat × Heap)
  | 0, _, _, _ => none
  | fuel + 1, c, args, h =>
    (classTable.lookup c).bind fun fields =>
    (fillIn classes fuel args fields h).bind fun (slots, h) =>
    some (h.length, h ++ [⟨c, slots⟩])
/-- The value of a field: the argument with its name, else what the factory makes. -/
def fieldValue (classes : Str → Nat) : Nat → Option Ref → Factory → Heap → Option (Ref × Heap)
  | _, some r, _, h => some (r, h)
  | _, none, .const s, h => some (.const s, h)
  | _, none, .list, h => some (.obj h.length, h ++ [⟨k!"list", []⟩])
  | _, none, .dict, h => some (.obj h.length, h ++ [⟨k!"dict", []⟩])
  | fuel, none, .new c args, h => (construct classes fuel c (args.map fun x => (x.1, .const x.2)) h).bind fun (a, h) => some (.obj a, h)
  | _, none, .cls c, h => some (.obj (classes c), h)
/-- The fields of a new object, one after the other. -/
def fillIn (classes : Str → Nat) : Nat → List (Str × Ref) → List (Str × Factory) → Heap → Option (List (Str × Ref) × Heap)
  | _, _, [], h => some ([], h)
  | fuel, args, field :: fields, h =>
    (fieldValue classes fuel (args.lookup field.1) field.2 h).bind fun (r, h) =>
    (fillIn classes fuel args fields h).bind fun (slots, h) =>
    some ((field.1, r) :: slots, h)
end

/-- The keywords of a call, one after the other: each must be the name of a parameter that has no value yet; `none` is a `TypeError`. -/
def bindKeywords (names : List Str) (args : List (Str × Ref)) : List (Str × Ref) → Option (List (Str × Ref))
  | [] => some args
  | (n, r) :: kw => if n ∈ names ∧ args.lookup n = none then bindKeywords names ((n, r) :: args) kw else none

/-- The parameters of `__init__` with the arguments of a call; the generated `__init__` has the fields as parameters, in order, all of
them with a default. -/
def bindArgs (names : List Str) (pos : List Ref) (kw : List (Str × Ref)) : Option (List (Str × Ref)) :=
  if names.length < pos.length then none else bindKeywords names (names.zip pos) kw

/-- What a call does: it returns the address of an object, or raises `TypeError`. -/
inductive Called where
  | returns (a : Nat) (h : Heap)
  | typeError (h : Heap)

/-- `C(p1, p2, …, n1=r1, n2=r2, …)`. Arguments are bound before any factory is called. -/
def call (classes : Str → Nat) (fuel : Nat) (c : Str) (pos : List Ref) (kw : List (Str × Ref)) (h : Heap) : Option Called :=
  (classTable.lookup c).bind fun fields =>
    match bindArgs (fields.map (·.1)) pos kw with
    | none => some (.typeError h)
    | some args => (construct classes fuel c args h).bind fun (a, h) => some (.returns a h)

end Kiutils.Objects
