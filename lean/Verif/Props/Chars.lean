import Verif.Proofs.Chars
import Verif.Props.Samples
/-!
# C62: which characters are written

Whatever an object is – nothing is assumed about it – the text that is saved for it consists of printable ASCII characters, line
feeds, and characters that occur in the strings of the object (`texts`, `Verif/Texts.lean`).
-/
namespace Kiutils

/-- If a text is returned, each of its characters is a printable ASCII character, a line feed, or occurs in one of the strings. -/
def WritesOnly (strings : List Str) (text : PyM Str) : Prop :=
  ∀ t, text = .ok t → ∀ c ∈ t, c = '\n' ∨ 32 ≤ c.toNat ∧ c.toNat ≤ 126 ∨ ∃ s ∈ strings, c ∈ s

/-- The characters allowed by `WritesOnly`. -/
def Allowed (strings : List Str) (c : Char) : Prop := c = '\n' ∨ 32 ≤ c.toNat ∧ c.toNat ≤ 126 ∨ ∃ s ∈ strings, c ∈ s

instance (strings : List Str) : Base (Allowed strings) := ⟨fun _ h => h.elim .inl fun h => .inr (.inl h)⟩

theorem only_allowed {α : Type} [Texts α] (o : α) : Only (Chars (Allowed (texts o))) o := fun s hs _ hc => .inr (.inr ⟨s, hs, hc⟩)

theorem writes_of {strings : List Str} {s : Str} (h : Chars (Allowed strings) s) : WritesOnly strings (.ok s) := fun t e => by
  cases e; exact h

theorem writes_ofM {strings : List Str} {m : PyM Str} (h : CharsM (Allowed strings) m) : WritesOnly strings m := h

theorem C62_Coordinate (o : Coordinate) (i : Nat) (nl : Bool) : WritesOnly (texts o) (.ok (o.toSexpr i nl)) :=
  writes_of (Coordinate.toSexpr_chars (only_allowed o))
example := C62_Coordinate sampleCoordinate
theorem C62_ColorRGBA (o : ColorRGBA) (i : Nat) (nl : Bool) : WritesOnly (texts o) (.ok (o.toSexpr i nl)) :=
  writes_of (ColorRGBA.toSexpr_chars (only_allowed o))
example := C62_ColorRGBA sampleColorRGBA
theorem C62_ColorRGBA_M (o : ColorRGBA) (i : Nat) (nl : Bool) : WritesOnly (texts o) (o.toSexprM i nl) :=
  writes_ofM (ColorRGBA.toSexprM_chars (only_allowed o))
example := C62_ColorRGBA_M sampleColorRGBA
theorem C62_Stroke (o : Stroke) (i : Nat) (nl : Bool) : WritesOnly (texts o) (.ok (o.toSexpr i nl)) :=
  writes_of (Stroke.toSexpr_chars (only_allowed o))
example := C62_Stroke sampleStroke
theorem C62_Font (o : Font) (i : Nat) (nl : Bool) : WritesOnly (texts o) (.ok (o.toSexpr i nl)) :=
  writes_of (Font.toSexpr_chars (only_allowed o))
example := C62_Font sampleFont
theorem C62_Justify (o : Justify) (i : Nat) (nl : Bool) : WritesOnly (texts o) (.ok (o.toSexpr i nl)) :=
  writes_of (Justify.toSexpr_chars (only_allowed o))
example := C62_Justify sampleJustify
theorem C62_Effects (o : Effects) (i : Nat) (nl : Bool) : WritesOnly (texts o) (.ok (o.toSexpr i nl)) :=
  writes_of (Effects.toSexpr_chars (only_allowed o))
example := C62_Effects sampleEffects
theorem C62_Net (o : Net) (i : Nat) (nl : Bool) : WritesOnly (texts o) (.ok (o.toSexpr i nl)) :=
  writes_of (Net.toSexpr_chars (only_allowed o))
example := C62_Net sampleNet
theorem C62_Group (o : Group) (i : Nat) (nl : Bool) : WritesOnly (texts o) (.ok (o.toSexpr i nl)) :=
  writes_of (Group.toSexpr_chars (only_allowed o))
example := C62_Group sampleGroup
theorem C62_PageSettings (o : PageSettings) (i : Nat) (nl : Bool) : WritesOnly (texts o) (o.toSexpr i nl) :=
  writes_ofM (PageSettings.toSexpr_chars (only_allowed o))
example := C62_PageSettings samplePageSettings
theorem C62_TitleBlock (o : TitleBlock) (i : Nat) (nl : Bool) : WritesOnly (texts o) (.ok (o.toSexpr i nl)) :=
  writes_of (TitleBlock.toSexpr_chars (only_allowed o))
example := C62_TitleBlock sampleTitleBlock
theorem C62_Property (o : Property) (i : Nat) (nl : Bool) : WritesOnly (texts o) (.ok (o.toSexpr i nl)) :=
  writes_of (Property.toSexpr_chars (only_allowed o))
example := C62_Property sampleProperty
theorem C62_RenderCachePolygon (o : RenderCachePolygon) (i : Nat) (nl : Bool) : WritesOnly (texts o) (.ok (o.toSexpr i nl)) :=
  writes_of (RenderCachePolygon.toSexpr_chars (only_allowed o))
example := C62_RenderCachePolygon sampleRenderCachePolygon
theorem C62_RenderCache (o : RenderCache) (i : Nat) (nl : Bool) : WritesOnly (texts o) (.ok (o.toSexpr i nl)) :=
  writes_of (RenderCache.toSexpr_chars (only_allowed o))
example := C62_RenderCache sampleRenderCache
theorem C62_Fill (o : Fill) (i : Nat) (nl : Bool) : WritesOnly (texts o) (.ok (o.toSexpr i nl)) :=
  writes_of (Fill.toSexpr_chars (only_allowed o))
example := C62_Fill sampleFill
theorem C62_Image (o : Image) (i : Nat) (nl : Bool) : WritesOnly (texts o) (.ok (o.toSexpr i nl)) :=
  writes_of (Image.toSexpr_chars (only_allowed o))
example := C62_Image sampleImage
theorem C62_Library (o : Library) (i : Nat) (nl : Bool) : WritesOnly (texts o) (.ok (o.toSexpr i nl)) :=
  writes_of (Library.toSexpr_chars (only_allowed o))
example := C62_Library sampleLibrary
theorem C62_LibTable (o : LibTable) (i : Nat) (nl : Bool) : WritesOnly (texts o) (.ok (o.toSexpr i nl)) :=
  writes_of (LibTable.toSexpr_chars (only_allowed o))
example := C62_LibTable sampleLibTable
theorem C62_Constraint (o : Constraint) (i : Nat) (nl : Bool) : WritesOnly (texts o) (o.toSexpr i nl) :=
  writes_ofM (Constraint.toSexpr_chars (only_allowed o))
example := C62_Constraint sampleConstraint
theorem C62_Rule (o : Rule) (i : Nat) : WritesOnly (texts o) (o.toSexpr i) :=
  writes_ofM (Rule.toSexpr_chars (only_allowed o))
example := C62_Rule sampleRule
theorem C62_DesignRules (o : DesignRules) (i : Nat) (nl : Bool) : WritesOnly (texts o) (o.toSexpr i nl) :=
  writes_ofM (DesignRules.toSexpr_chars (only_allowed o))
example := C62_DesignRules sampleDesignRules
theorem C62_WksFontSize (o : WksFontSize) (i : Nat) (nl : Bool) : WritesOnly (texts o) (.ok (o.toSexpr i nl)) :=
  writes_of (WksFontSize.toSexpr_chars (only_allowed o))
example := C62_WksFontSize sampleWksFontSize
theorem C62_WksFont (o : WksFont) (i : Nat) (nl : Bool) : WritesOnly (texts o) (.ok (o.toSexpr i nl)) :=
  writes_of (WksFont.toSexpr_chars (only_allowed o))
example := C62_WksFont sampleWksFont
theorem C62_Bitmap (o : Bitmap) (i : Nat) (nl : Bool) : WritesOnly (texts o) (.ok (o.toSexpr i nl)) :=
  writes_of (Bitmap.toSexpr_chars (only_allowed o))
example := C62_Bitmap sampleBitmap
theorem C62_TbText (o : TbText) (i : Nat) (nl : Bool) : WritesOnly (texts o) (.ok (o.toSexpr i nl)) :=
  writes_of (TbText.toSexpr_chars (only_allowed o))
example := C62_TbText sampleTbText
theorem C62_TextSize (o : TextSize) (i : Nat) (nl : Bool) : WritesOnly (texts o) (.ok (o.toSexpr i nl)) :=
  writes_of (TextSize.toSexpr_chars (only_allowed o))
example := C62_TextSize sampleTextSize
theorem C62_Setup (o : Setup) (i : Nat) (nl : Bool) : WritesOnly (texts o) (.ok (o.toSexpr i nl)) :=
  writes_of (Setup.toSexpr_chars (only_allowed o))
example := C62_Setup sampleSetup
theorem C62_WksItem (o : WksItem) (i : Nat) : WritesOnly (texts o) (o.toSexpr i) :=
  writes_ofM (WksItem.toSexpr_chars (only_allowed o))
theorem C62_WorkSheet (o : WorkSheet) (i : Nat) (nl : Bool) : WritesOnly (texts o) (o.toSexpr i nl) :=
  writes_ofM (WorkSheet.toSexpr_chars (only_allowed o))
example := C62_WorkSheet sampleWorkSheet
theorem C62_SyArc (o : SyArc) (i : Nat) (nl : Bool) : WritesOnly (texts o) (.ok (o.toSexpr i nl)) :=
  writes_of (SyArc.toSexpr_chars (only_allowed o))
example := C62_SyArc sampleSyArc
theorem C62_SyCircle (o : SyCircle) (i : Nat) (nl : Bool) : WritesOnly (texts o) (.ok (o.toSexpr i nl)) :=
  writes_of (SyCircle.toSexpr_chars (only_allowed o))
example := C62_SyCircle sampleSyCircle
theorem C62_SyCurve (o : SyCurve) (i : Nat) (nl : Bool) : WritesOnly (texts o) (.ok (o.toSexpr i nl)) :=
  writes_of (SyCurve.toSexpr_chars (only_allowed o))
theorem C62_SyPolyLine (o : SyPolyLine) (i : Nat) (nl : Bool) : WritesOnly (texts o) (.ok (o.toSexpr i nl)) :=
  writes_of (SyPolyLine.toSexpr_chars (only_allowed o))
example := C62_SyPolyLine sampleSyPolyLine
theorem C62_SyRect (o : SyRect) (i : Nat) (nl : Bool) : WritesOnly (texts o) (.ok (o.toSexpr i nl)) :=
  writes_of (SyRect.toSexpr_chars (only_allowed o))
example := C62_SyRect sampleSyRect
theorem C62_SyText (o : SyText) (i : Nat) (nl : Bool) : WritesOnly (texts o) (.ok (o.toSexpr i nl)) :=
  writes_of (SyText.toSexpr_chars (only_allowed o))
example := C62_SyText sampleSyText
theorem C62_SyTextBox (o : SyTextBox) (i : Nat) (nl : Bool) : WritesOnly (texts o) (.ok (o.toSexpr i nl)) :=
  writes_of (SyTextBox.toSexpr_chars (only_allowed o))
example := C62_SyTextBox sampleSyTextBox
theorem C62_SyItem (o : SyItem) (i : Nat) : WritesOnly (texts o) (.ok (o.toSexpr i)) :=
  writes_of (SyItem.toSexpr_chars (only_allowed o))
theorem C62_SymbolAlternativePin (o : SymbolAlternativePin) (i : Nat) (nl : Bool) : WritesOnly (texts o) (.ok (o.toSexpr i nl)) :=
  writes_of (SymbolAlternativePin.toSexpr_chars (only_allowed o))
example := C62_SymbolAlternativePin sampleSymbolAlternativePin
theorem C62_SymbolPin (o : SymbolPin) (i : Nat) (nl : Bool) : WritesOnly (texts o) (.ok (o.toSexpr i nl)) :=
  writes_of (SymbolPin.toSexpr_chars (only_allowed o))
example := C62_SymbolPin sampleSymbolPin
theorem C62_Symbol (o : Symbol) (i : Nat) (nl : Bool) : WritesOnly (texts o) (.ok (o.toSexpr i nl)) :=
  writes_of (Symbol.toSexpr_chars (only_allowed o))
example := C62_Symbol sampleSymbol
theorem C62_SymbolLib (o : SymbolLib) (i : Nat) (nl : Bool) : WritesOnly (texts o) (.ok (o.toSexpr i nl)) :=
  writes_of (SymbolLib.toSexpr_chars (only_allowed o))
example := C62_SymbolLib sampleSymbolLib
theorem C62_Junction (o : Junction) (i : Nat) (nl : Bool) : WritesOnly (texts o) (o.toSexpr i nl) :=
  writes_ofM (Junction.toSexpr_chars (only_allowed o))
example := C62_Junction sampleJunction
theorem C62_NoConnect (o : NoConnect) (i : Nat) (nl : Bool) : WritesOnly (texts o) (.ok (o.toSexpr i nl)) :=
  writes_of (NoConnect.toSexpr_chars (only_allowed o))
example := C62_NoConnect sampleNoConnect
theorem C62_BusEntry (o : BusEntry) (i : Nat) (nl : Bool) : WritesOnly (texts o) (.ok (o.toSexpr i nl)) :=
  writes_of (BusEntry.toSexpr_chars (only_allowed o))
example := C62_BusEntry sampleBusEntry
theorem C62_BusAlias (o : BusAlias) (i : Nat) (nl : Bool) : WritesOnly (texts o) (.ok (o.toSexpr i nl)) :=
  writes_of (BusAlias.toSexpr_chars (only_allowed o))
example := C62_BusAlias sampleBusAlias
theorem C62_Connection (o : Connection) (i : Nat) (nl : Bool) : WritesOnly (texts o) (.ok (o.toSexpr i nl)) :=
  writes_of (Connection.toSexpr_chars (only_allowed o))
example := C62_Connection sampleConnection
theorem C62_PolyLine (o : PolyLine) (i : Nat) (nl : Bool) : WritesOnly (texts o) (.ok (o.toSexpr i nl)) :=
  writes_of (PolyLine.toSexpr_chars (only_allowed o))
example := C62_PolyLine samplePolyLine
theorem C62_Text (o : Text) (i : Nat) (nl : Bool) : WritesOnly (texts o) (o.toSexpr i nl) :=
  writes_ofM (Text.toSexpr_chars (only_allowed o))
example := C62_Text sampleText
theorem C62_TextBox (o : TextBox) (i : Nat) (nl : Bool) : WritesOnly (texts o) (.ok (o.toSexpr i nl)) :=
  writes_of (TextBox.toSexpr_chars (only_allowed o))
example := C62_TextBox sampleTextBox
theorem C62_LocalLabel (o : LocalLabel) (i : Nat) (nl : Bool) : WritesOnly (texts o) (.ok (o.toSexpr i nl)) :=
  writes_of (LocalLabel.toSexpr_chars (only_allowed o))
example := C62_LocalLabel sampleLocalLabel
theorem C62_GlobalLabel (o : GlobalLabel) (i : Nat) (nl : Bool) : WritesOnly (texts o) (.ok (o.toSexpr i nl)) :=
  writes_of (GlobalLabel.toSexpr_chars (only_allowed o))
example := C62_GlobalLabel sampleGlobalLabel
theorem C62_HierarchicalLabel (o : HierarchicalLabel) (i : Nat) (nl : Bool) : WritesOnly (texts o) (.ok (o.toSexpr i nl)) :=
  writes_of (HierarchicalLabel.toSexpr_chars (only_allowed o))
example := C62_HierarchicalLabel sampleHierarchicalLabel
theorem C62_SymbolProjectPath (o : SymbolProjectPath) (i : Nat) (nl : Bool) : WritesOnly (texts o) (.ok (o.toSexpr i nl)) :=
  writes_of (SymbolProjectPath.toSexpr_chars (only_allowed o))
example := C62_SymbolProjectPath sampleSymbolProjectPath
theorem C62_SymbolProjectInstance (o : SymbolProjectInstance) (i : Nat) (nl : Bool) : WritesOnly (texts o) (.ok (o.toSexpr i nl)) :=
  writes_of (SymbolProjectInstance.toSexpr_chars (only_allowed o))
example := C62_SymbolProjectInstance sampleSymbolProjectInstance
theorem C62_SchematicSymbol (o : SchematicSymbol) (i : Nat) (nl : Bool) : WritesOnly (texts o) (.ok (o.toSexpr i nl)) :=
  writes_of (SchematicSymbol.toSexpr_chars (only_allowed o))
example := C62_SchematicSymbol sampleSchematicSymbol
theorem C62_HierarchicalPin (o : HierarchicalPin) (i : Nat) (nl : Bool) : WritesOnly (texts o) (.ok (o.toSexpr i nl)) :=
  writes_of (HierarchicalPin.toSexpr_chars (only_allowed o))
example := C62_HierarchicalPin sampleHierarchicalPin
theorem C62_HierarchicalSheetProjectPath (o : HierarchicalSheetProjectPath) (i : Nat) (nl : Bool) : WritesOnly (texts o) (.ok (o.toSexpr i nl)) :=
  writes_of (HierarchicalSheetProjectPath.toSexpr_chars (only_allowed o))
example := C62_HierarchicalSheetProjectPath sampleHierarchicalSheetProjectPath
theorem C62_HierarchicalSheetProjectInstance (o : HierarchicalSheetProjectInstance) (i : Nat) (nl : Bool) : WritesOnly (texts o) (.ok (o.toSexpr i nl)) :=
  writes_of (HierarchicalSheetProjectInstance.toSexpr_chars (only_allowed o))
example := C62_HierarchicalSheetProjectInstance sampleHierarchicalSheetProjectInstance
theorem C62_HierarchicalSheet (o : HierarchicalSheet) (i : Nat) (nl : Bool) : WritesOnly (texts o) (o.toSexpr i nl) :=
  writes_ofM (HierarchicalSheet.toSexpr_chars (only_allowed o))
example := C62_HierarchicalSheet sampleHierarchicalSheet
theorem C62_HierarchicalSheetInstance (o : HierarchicalSheetInstance) (i : Nat) (nl : Bool) : WritesOnly (texts o) (.ok (o.toSexpr i nl)) :=
  writes_of (HierarchicalSheetInstance.toSexpr_chars (only_allowed o))
example := C62_HierarchicalSheetInstance sampleHierarchicalSheetInstance
theorem C62_SymbolInstance (o : SymbolInstance) (i : Nat) (nl : Bool) : WritesOnly (texts o) (.ok (o.toSexpr i nl)) :=
  writes_of (SymbolInstance.toSexpr_chars (only_allowed o))
example := C62_SymbolInstance sampleSymbolInstance
theorem C62_Rectangle (o : Rectangle) (i : Nat) (nl : Bool) : WritesOnly (texts o) (.ok (o.toSexpr i nl)) :=
  writes_of (Rectangle.toSexpr_chars (only_allowed o))
example := C62_Rectangle sampleRectangle
theorem C62_Arc (o : Arc) (i : Nat) (nl : Bool) : WritesOnly (texts o) (.ok (o.toSexpr i nl)) :=
  writes_of (Arc.toSexpr_chars (only_allowed o))
example := C62_Arc sampleArc
theorem C62_Circle (o : Circle) (i : Nat) (nl : Bool) : WritesOnly (texts o) (.ok (o.toSexpr i nl)) :=
  writes_of (Circle.toSexpr_chars (only_allowed o))
example := C62_Circle sampleCircle
theorem C62_NetclassFlag (o : NetclassFlag) (i : Nat) (nl : Bool) : WritesOnly (texts o) (o.toSexpr i nl) :=
  writes_ofM (NetclassFlag.toSexpr_chars (only_allowed o))
example := C62_NetclassFlag sampleNetclassFlag
theorem C62_SchGraphic (o : SchGraphic) (i : Nat) : WritesOnly (texts o) (.ok (o.toSexpr i)) :=
  writes_of (SchGraphic.toSexpr_chars (only_allowed o))
theorem C62_SchShape (o : SchShape) (i : Nat) : WritesOnly (texts o) (.ok (o.toSexpr i)) :=
  writes_of (SchShape.toSexpr_chars (only_allowed o))
theorem C62_Schematic (o : Schematic) (i : Nat) (nl : Bool) : WritesOnly (texts o) (o.toSexpr i nl) :=
  writes_ofM (Schematic.toSexpr_chars (only_allowed o))
example := C62_Schematic sampleSchematic
theorem C62_GrText (o : GrText) (i : Nat) (nl : Bool) : WritesOnly (texts o) (.ok (o.toSexpr i nl)) :=
  writes_of (GrText.toSexpr_chars (only_allowed o))
example := C62_GrText sampleGrText
theorem C62_GrTextBox (o : GrTextBox) (i : Nat) (nl : Bool) : WritesOnly (texts o) (o.toSexpr i nl) :=
  writes_ofM (GrTextBox.toSexpr_chars (only_allowed o))
example := C62_GrTextBox sampleGrTextBox
theorem C62_GrLine (o : GrLine) (i : Nat) (nl : Bool) : WritesOnly (texts o) (.ok (o.toSexpr i nl)) :=
  writes_of (GrLine.toSexpr_chars (only_allowed o))
example := C62_GrLine sampleGrLine
theorem C62_GrRect (o : GrRect) (i : Nat) (nl : Bool) : WritesOnly (texts o) (.ok (o.toSexpr i nl)) :=
  writes_of (GrRect.toSexpr_chars (only_allowed o))
example := C62_GrRect sampleGrRect
theorem C62_GrCircle (o : GrCircle) (i : Nat) (nl : Bool) : WritesOnly (texts o) (.ok (o.toSexpr i nl)) :=
  writes_of (GrCircle.toSexpr_chars (only_allowed o))
example := C62_GrCircle sampleGrCircle
theorem C62_GrArc (o : GrArc) (i : Nat) (nl : Bool) : WritesOnly (texts o) (.ok (o.toSexpr i nl)) :=
  writes_of (GrArc.toSexpr_chars (only_allowed o))
example := C62_GrArc sampleGrArc
theorem C62_GrPoly (o : GrPoly) (i : Nat) (nl : Bool) (ptsNewline : Bool) : WritesOnly (texts o) (.ok (o.toSexpr i nl ptsNewline)) :=
  writes_of (GrPoly.toSexpr_chars (only_allowed o))
example := C62_GrPoly sampleGrPoly
theorem C62_GrCurve (o : GrCurve) (i : Nat) (nl : Bool) : WritesOnly (texts o) (.ok (o.toSexpr i nl)) :=
  writes_of (GrCurve.toSexpr_chars (only_allowed o))
example := C62_GrCurve sampleGrCurve
theorem C62_GrItem (o : GrItem) (i : Nat) (nl : Bool) (ptsNewline : Bool) : WritesOnly (texts o) (o.toSexpr i nl ptsNewline) :=
  writes_ofM (GrItem.toSexpr_chars (only_allowed o))
theorem C62_FpText (o : FpText) (i : Nat) (nl : Bool) : WritesOnly (texts o) (.ok (o.toSexpr i nl)) :=
  writes_of (FpText.toSexpr_chars (only_allowed o))
example := C62_FpText sampleFpText
theorem C62_FpLine (o : FpLine) (i : Nat) (nl : Bool) : WritesOnly (texts o) (.ok (o.toSexpr i nl)) :=
  writes_of (FpLine.toSexpr_chars (only_allowed o))
example := C62_FpLine sampleFpLine
theorem C62_FpRect (o : FpRect) (i : Nat) (nl : Bool) : WritesOnly (texts o) (.ok (o.toSexpr i nl)) :=
  writes_of (FpRect.toSexpr_chars (only_allowed o))
example := C62_FpRect sampleFpRect
theorem C62_FpTextBox (o : FpTextBox) (i : Nat) (nl : Bool) : WritesOnly (texts o) (o.toSexpr i nl) :=
  writes_ofM (FpTextBox.toSexpr_chars (only_allowed o))
example := C62_FpTextBox sampleFpTextBox
theorem C62_FpCircle (o : FpCircle) (i : Nat) (nl : Bool) : WritesOnly (texts o) (.ok (o.toSexpr i nl)) :=
  writes_of (FpCircle.toSexpr_chars (only_allowed o))
example := C62_FpCircle sampleFpCircle
theorem C62_FpArc (o : FpArc) (i : Nat) (nl : Bool) : WritesOnly (texts o) (.ok (o.toSexpr i nl)) :=
  writes_of (FpArc.toSexpr_chars (only_allowed o))
example := C62_FpArc sampleFpArc
theorem C62_FpPoly (o : FpPoly) (i : Nat) (nl : Bool) : WritesOnly (texts o) (.ok (o.toSexpr i nl)) :=
  writes_of (FpPoly.toSexpr_chars (only_allowed o))
example := C62_FpPoly sampleFpPoly
theorem C62_FpCurve (o : FpCurve) (i : Nat) (nl : Bool) : WritesOnly (texts o) (.ok (o.toSexpr i nl)) :=
  writes_of (FpCurve.toSexpr_chars (only_allowed o))
example := C62_FpCurve sampleFpCurve
theorem C62_FpItem (o : FpItem) (i : Nat) : WritesOnly (texts o) (o.toSexpr i) :=
  writes_ofM (FpItem.toSexpr_chars (only_allowed o))
theorem C62_KeepoutSettings (o : KeepoutSettings) (i : Nat) (nl : Bool) : WritesOnly (texts o) (.ok (o.toSexpr i nl)) :=
  writes_of (KeepoutSettings.toSexpr_chars (only_allowed o))
example := C62_KeepoutSettings sampleKeepoutSettings
theorem C62_FillSettings (o : FillSettings) (i : Nat) (nl : Bool) : WritesOnly (texts o) (.ok (o.toSexpr i nl)) :=
  writes_of (FillSettings.toSexpr_chars (only_allowed o))
example := C62_FillSettings sampleFillSettings
theorem C62_ZonePolygon (o : ZonePolygon) (i : Nat) (nl : Bool) : WritesOnly (texts o) (.ok (o.toSexpr i nl)) :=
  writes_of (ZonePolygon.toSexpr_chars (only_allowed o))
example := C62_ZonePolygon sampleZonePolygon
theorem C62_FilledPolygon (o : FilledPolygon) (i : Nat) (nl : Bool) : WritesOnly (texts o) (.ok (o.toSexpr i nl)) :=
  writes_of (FilledPolygon.toSexpr_chars (only_allowed o))
example := C62_FilledPolygon sampleFilledPolygon
theorem C62_FillSegments (o : FillSegments) (i : Nat) (nl : Bool) : WritesOnly (texts o) (.ok (o.toSexpr i nl)) :=
  writes_of (FillSegments.toSexpr_chars (only_allowed o))
example := C62_FillSegments sampleFillSegments
theorem C62_Zone (o : Zone) (i : Nat) (nl : Bool) : WritesOnly (texts o) (o.toSexpr i nl) :=
  writes_ofM (Zone.toSexpr_chars (only_allowed o))
example := C62_Zone sampleZone
theorem C62_Attributes (o : Attributes) (i : Nat) (nl : Bool) : WritesOnly (texts o) (.ok (o.toSexpr i nl)) :=
  writes_of (Attributes.toSexpr_chars (only_allowed o))
example := C62_Attributes sampleAttributes
theorem C62_Model (o : Model) (i : Nat) (nl : Bool) : WritesOnly (texts o) (.ok (o.toSexpr i nl)) :=
  writes_of (Model.toSexpr_chars (only_allowed o))
example := C62_Model sampleModel
theorem C62_DrillDefinition (o : DrillDefinition) (i : Nat) (nl : Bool) : WritesOnly (texts o) (.ok (o.toSexpr i nl)) :=
  writes_of (DrillDefinition.toSexpr_chars (only_allowed o))
example := C62_DrillDefinition sampleDrillDefinition
theorem C62_PadOptions (o : PadOptions) (i : Nat) (nl : Bool) : WritesOnly (texts o) (.ok (o.toSexpr i nl)) :=
  writes_of (PadOptions.toSexpr_chars (only_allowed o))
example := C62_PadOptions samplePadOptions
theorem C62_Pad (o : Pad) (i : Nat) (nl : Bool) : WritesOnly (texts o) (o.toSexpr i nl) :=
  writes_ofM (Pad.toSexpr_chars (only_allowed o))
example := C62_Pad samplePad
theorem C62_Footprint (o : Footprint) (i : Nat) (nl : Bool) (layerInFirstLine : Bool) : WritesOnly (texts o) (o.toSexpr i nl layerInFirstLine) :=
  writes_ofM (Footprint.toSexpr_chars (only_allowed o))
example := C62_Footprint sampleFootprint
theorem C62_GeneralSettings (o : GeneralSettings) (i : Nat) (nl : Bool) : WritesOnly (texts o) (.ok (o.toSexpr i nl)) :=
  writes_of (GeneralSettings.toSexpr_chars (only_allowed o))
example := C62_GeneralSettings sampleGeneralSettings
theorem C62_LayerToken (o : LayerToken) (i : Nat) (nl : Bool) : WritesOnly (texts o) (.ok (o.toSexpr i nl)) :=
  writes_of (LayerToken.toSexpr_chars (only_allowed o))
example := C62_LayerToken sampleLayerToken
theorem C62_StackupSubLayer (o : StackupSubLayer) (i : Nat) (nl : Bool) : WritesOnly (texts o) (.ok (o.toSexpr i nl)) :=
  writes_of (StackupSubLayer.toSexpr_chars (only_allowed o))
example := C62_StackupSubLayer sampleStackupSubLayer
theorem C62_StackupLayer (o : StackupLayer) (i : Nat) (nl : Bool) : WritesOnly (texts o) (.ok (o.toSexpr i nl)) :=
  writes_of (StackupLayer.toSexpr_chars (only_allowed o))
example := C62_StackupLayer sampleStackupLayer
theorem C62_Stackup (o : Stackup) (i : Nat) (nl : Bool) : WritesOnly (texts o) (.ok (o.toSexpr i nl)) :=
  writes_of (Stackup.toSexpr_chars (only_allowed o))
example := C62_Stackup sampleStackup
theorem C62_PlotSettings (o : PlotSettings) (i : Nat) (nl : Bool) : WritesOnly (texts o) (o.toSexpr i nl) :=
  writes_ofM (PlotSettings.toSexpr_chars (only_allowed o))
example := C62_PlotSettings samplePlotSettings
theorem C62_SetupData (o : SetupData) (i : Nat) (nl : Bool) : WritesOnly (texts o) (o.toSexpr i nl) :=
  writes_ofM (SetupData.toSexpr_chars (only_allowed o))
example := C62_SetupData sampleSetupData
theorem C62_Segment (o : Segment) (i : Nat) (nl : Bool) : WritesOnly (texts o) (.ok (o.toSexpr i nl)) :=
  writes_of (Segment.toSexpr_chars (only_allowed o))
example := C62_Segment sampleSegment
theorem C62_Via (o : Via) (i : Nat) (nl : Bool) : WritesOnly (texts o) (.ok (o.toSexpr i nl)) :=
  writes_of (Via.toSexpr_chars (only_allowed o))
example := C62_Via sampleVia
theorem C62_TraceArc (o : TraceArc) (i : Nat) (nl : Bool) : WritesOnly (texts o) (.ok (o.toSexpr i nl)) :=
  writes_of (TraceArc.toSexpr_chars (only_allowed o))
example := C62_TraceArc sampleTraceArc
theorem C62_Target (o : Target) (i : Nat) (nl : Bool) : WritesOnly (texts o) (.ok (o.toSexpr i nl)) :=
  writes_of (Target.toSexpr_chars (only_allowed o))
example := C62_Target sampleTarget
theorem C62_DimensionFormat (o : DimensionFormat) (i : Nat) (nl : Bool) : WritesOnly (texts o) (.ok (o.toSexpr i nl)) :=
  writes_of (DimensionFormat.toSexpr_chars (only_allowed o))
example := C62_DimensionFormat sampleDimensionFormat
theorem C62_DimensionStyle (o : DimensionStyle) (i : Nat) (nl : Bool) : WritesOnly (texts o) (.ok (o.toSexpr i nl)) :=
  writes_of (DimensionStyle.toSexpr_chars (only_allowed o))
example := C62_DimensionStyle sampleDimensionStyle
theorem C62_Dimension (o : Dimension) (i : Nat) (nl : Bool) : WritesOnly (texts o) (o.toSexpr i nl) :=
  writes_ofM (Dimension.toSexpr_chars (only_allowed o))
example := C62_Dimension sampleDimension
theorem C62_TraceItem (o : TraceItem) (i : Nat) : WritesOnly (texts o) (.ok (o.toSexpr i)) :=
  writes_of (TraceItem.toSexpr_chars (only_allowed o))
theorem C62_Board (o : Board) (i : Nat) (nl : Bool) : WritesOnly (texts o) (o.toSexpr i nl) :=
  writes_ofM (Board.toSexpr_chars (only_allowed o))
example := C62_Board sampleBoard

/-- `Line` and `Rect` of worksheets, which differ in the token. -/
theorem C62_WksShape (head : Str) (hh : head = k!"line" ∨ head = k!"rect") (o : WksShape) (i : Nat) (nl : Bool) :
    WritesOnly (texts o) (.ok (o.toSexpr head i nl)) :=
  writes_of (WksShape.toSexpr_chars (by rcases hh with rfl | rfl <;> exact .lit rfl) (only_allowed o))

/-! ## Examples -/

/-- A name with an umlaut and a carriage return: both are written, nothing else that is not plain. -/
example : ∃ c ∈ ({ name := .str k!"ä\r", number := .int 1 } : Net).toSexpr, ¬ (c = '\n' ∨ 32 ≤ c.toNat ∧ c.toNat ≤ 126) :=
  ⟨'ä', by decide +kernel, by decide⟩
example (o : Net) (h : texts o = [k!"ä\r"]) (i : Nat) (nl : Bool) :
    ∀ c ∈ o.toSexpr i nl, c = '\n' ∨ 32 ≤ c.toNat ∧ c.toNat ≤ 126 ∨ c = 'ä' ∨ c = '\r' := fun c hc => by
  have := C62_Net o i nl _ rfl c hc
  simpa [h] using this

end Kiutils
