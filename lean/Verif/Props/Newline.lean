import Verif.Indent
import Verif.Props.Samples
/-!
# C73: the argument `newline`

For every class: with `newline = True` the text that `to_sexpr` returns is the text for `newline = False` with a line feed at the end
(and the same exceptions are raised). Five classes are exceptions for some of their objects: `_partial` and `_violated` together
say what is written for each of them.
-/
namespace Kiutils

theorem map_bind_py {α : Type} {m : PyM α} {f : α → PyM Str} {g : Str → Str} : (m >>= f).map g = m >>= fun a => (f a).map g := by
  cases m <;> rfl
theorem map_ok_py {s : Str} {g : Str → Str} : (Except.ok s : PyM Str).map g = .ok (g s) := rfl
theorem map_pure_py {s : Str} {g : Str → Str} : (pure s : PyM Str).map g = pure (g s) := rfl
theorem map_error_py {e : PyErr} {g : Str → Str} : (Except.error e : PyM Str).map g = .error e := rfl
theorem map_ite_py {c : Prop} [Decidable c] {m n : PyM Str} {g : Str → Str} : (if c then m else n).map g = if c then m.map g else n.map g := by
  split <;> rfl
theorem append_ite {c : Prop} [Decidable c] {s t u : Str} : (if c then s else t) ++ u = if c then s ++ u else t ++ u := by
  split <;> rfl

macro "newlines0" : tactic => `(tactic|
  simp only [endl, if_true, Bool.false_eq_true, if_false, List.append_nil, List.append_assoc, List.cons_append, List.nil_append,
    map_bind_py, map_ok_py, map_pure_py, map_error_py, map_ite_py, append_ite])
macro "newlines" : tactic => `(tactic| first
  | (newlines0; done)
  | (newlines0; split <;> first | rfl | (newlines0; done))
  | (newlines0; split <;> first | rfl | (split <;> first | rfl | (newlines0; done))))

theorem C73_Coordinate (o : Coordinate) (i : Nat) : o.toSexpr i true = o.toSexpr i false ++ ['\n'] := by
  unfold Coordinate.toSexpr
  newlines
example (i : Nat) := C73_Coordinate sampleCoordinate i
theorem C73_ColorRGBA (o : ColorRGBA) (i : Nat) : o.toSexpr i true = o.toSexpr i false ++ ['\n'] := by
  unfold ColorRGBA.toSexpr
  newlines
example (i : Nat) := C73_ColorRGBA sampleColorRGBA i
theorem C73_ColorRGBA_M (o : ColorRGBA) (i : Nat) : o.toSexprM i true = (o.toSexprM i false).map (· ++ ['\n']) := by
  unfold ColorRGBA.toSexprM
  newlines
example (i : Nat) := C73_ColorRGBA_M sampleColorRGBA i
theorem C73_Stroke (o : Stroke) (i : Nat) : o.toSexpr i true = o.toSexpr i false ++ ['\n'] := by
  unfold Stroke.toSexpr
  newlines
example (i : Nat) := C73_Stroke sampleStroke i
theorem C73_Font (o : Font) (i : Nat) : o.toSexpr i true = o.toSexpr i false ++ ['\n'] := by
  unfold Font.toSexpr
  newlines
example (i : Nat) := C73_Font sampleFont i
theorem C73_Justify (o : Justify) (i : Nat) : o.toSexpr i true = o.toSexpr i false ++ ['\n'] := by
  unfold Justify.toSexpr
  newlines
example (i : Nat) := C73_Justify sampleJustify i
theorem C73_Effects (o : Effects) (i : Nat) : o.toSexpr i true = o.toSexpr i false ++ ['\n'] := by
  unfold Effects.toSexpr
  newlines
example (i : Nat) := C73_Effects sampleEffects i
theorem C73_Net (o : Net) (i : Nat) : o.toSexpr i true = o.toSexpr i false ++ ['\n'] := by
  unfold Net.toSexpr
  newlines
example (i : Nat) := C73_Net sampleNet i
theorem C73_Group (o : Group) (i : Nat) : o.toSexpr i true = o.toSexpr i false ++ ['\n'] := by
  unfold Group.toSexpr
  newlines
example (i : Nat) := C73_Group sampleGroup i
theorem C73_PageSettings (o : PageSettings) (i : Nat) : o.toSexpr i true = (o.toSexpr i false).map (· ++ ['\n']) := by
  unfold PageSettings.toSexpr
  newlines
example (i : Nat) := C73_PageSettings samplePageSettings i
theorem C73_TitleBlock (o : TitleBlock) (i : Nat) : o.toSexpr i true = o.toSexpr i false ++ ['\n'] := by
  unfold TitleBlock.toSexpr
  newlines
example (i : Nat) := C73_TitleBlock sampleTitleBlock i
theorem C73_Property (o : Property) (i : Nat) : o.toSexpr i true = o.toSexpr i false ++ ['\n'] := by
  unfold Property.toSexpr
  newlines
example (i : Nat) := C73_Property sampleProperty i
theorem C73_RenderCachePolygon (o : RenderCachePolygon) (i : Nat) : o.toSexpr i true = o.toSexpr i false ++ ['\n'] := by
  unfold RenderCachePolygon.toSexpr
  newlines
example (i : Nat) := C73_RenderCachePolygon sampleRenderCachePolygon i
theorem C73_RenderCache (o : RenderCache) (i : Nat) : o.toSexpr i true = o.toSexpr i false ++ ['\n'] := by
  unfold RenderCache.toSexpr
  newlines
example (i : Nat) := C73_RenderCache sampleRenderCache i
theorem C73_Fill (o : Fill) (i : Nat) : o.toSexpr i true = o.toSexpr i false ++ ['\n'] := by
  unfold Fill.toSexpr
  newlines
example (i : Nat) := C73_Fill sampleFill i
theorem C73_Image (o : Image) (i : Nat) : o.toSexpr i true = o.toSexpr i false ++ ['\n'] := by
  unfold Image.toSexpr
  newlines
example (i : Nat) := C73_Image sampleImage i
theorem C73_Library (o : Library) (i : Nat) : o.toSexpr i true = o.toSexpr i false ++ ['\n'] := by
  unfold Library.toSexpr
  newlines
example (i : Nat) := C73_Library sampleLibrary i
theorem C73_LibTable (o : LibTable) (i : Nat) : o.toSexpr i true = o.toSexpr i false ++ ['\n'] := by
  unfold LibTable.toSexpr
  newlines
example (i : Nat) := C73_LibTable ({ sampleLibTable with libs := [] } : LibTable) i
theorem C73_Constraint (o : Constraint) (i : Nat) : o.toSexpr i true = (o.toSexpr i false).map (· ++ ['\n']) := by
  unfold Constraint.toSexpr
  newlines
example (i : Nat) := C73_Constraint sampleConstraint i
theorem C73_DesignRules (o : DesignRules) (i : Nat) : o.toSexpr i true = (o.toSexpr i false).map (· ++ ['\n']) := by
  unfold DesignRules.toSexpr
  newlines
example (i : Nat) := C73_DesignRules ({ sampleDesignRules with rules := [] } : DesignRules) i
theorem C73_WksFontSize (o : WksFontSize) (i : Nat) : o.toSexpr i true = o.toSexpr i false ++ ['\n'] := by
  unfold WksFontSize.toSexpr
  newlines
example (i : Nat) := C73_WksFontSize sampleWksFontSize i
theorem C73_WksFont_partial (o : WksFont) (i : Nat) (h : ¬ (o.linewidth = none ∧ o.size = none ∧ o.bold = false ∧ o.italic = false)) :
    o.toSexpr i true = o.toSexpr i false ++ ['\n'] := by
  have hc : o.isEmpty = false := by
    obtain ⟨lw, s, b, it⟩ := o
    cases lw <;> cases s <;> cases b <;> cases it <;> first | rfl | exact absurd ⟨rfl, rfl, rfl, rfl⟩ h
  unfold WksFont.toSexpr
  simp only [hc, if_false, Bool.false_eq_true, endl, if_true, List.append_nil, List.append_assoc, List.cons_append, List.nil_append]
example (i : Nat) := C73_WksFont_partial sampleWksFont i nofun
/-- Nothing is written for an empty font, not even a line feed. -/
theorem C73_WksFont_violated (o : WksFont) (i : Nat) (nl : Bool) (h : o.linewidth = none ∧ o.size = none ∧ o.bold = false ∧ o.italic = false) :
    o.toSexpr i nl = [] := by
  obtain ⟨lw, s, b, it⟩ := o
  obtain ⟨rfl, rfl, rfl, rfl⟩ := h
  rfl
example (i : Nat) := C73_WksFont_violated {} i true ⟨rfl, rfl, rfl, rfl⟩
theorem C73_Bitmap (o : Bitmap) (i : Nat) : o.toSexpr i true = o.toSexpr i false ++ ['\n'] := by
  unfold Bitmap.toSexpr
  newlines
example (i : Nat) := C73_Bitmap ({ sampleBitmap with comment := none } : Bitmap) i
theorem C73_TbText (o : TbText) (i : Nat) : o.toSexpr i true = o.toSexpr i false ++ ['\n'] := by
  unfold TbText.toSexpr
  newlines
example (i : Nat) := C73_TbText ({ sampleTbText with comment := none } : TbText) i
theorem C73_TextSize (o : TextSize) (i : Nat) : o.toSexpr i true = o.toSexpr i false ++ ['\n'] := by
  unfold TextSize.toSexpr
  newlines
example (i : Nat) := C73_TextSize sampleTextSize i
theorem C73_Setup (o : Setup) (i : Nat) : o.toSexpr i true = o.toSexpr i false ++ ['\n'] := by
  unfold Setup.toSexpr
  newlines
example (i : Nat) := C73_Setup sampleSetup i
theorem C73_WorkSheet (o : WorkSheet) (i : Nat) : o.toSexpr i true = (o.toSexpr i false).map (· ++ ['\n']) := by
  unfold WorkSheet.toSexpr
  newlines
example (i : Nat) := C73_WorkSheet ({ sampleWorkSheet with drawingObjects := [.line { sampleWksShape with comment := none }] } : WorkSheet) i
theorem C73_SyArc (o : SyArc) (i : Nat) : o.toSexpr i true = o.toSexpr i false ++ ['\n'] := by
  unfold SyArc.toSexpr
  newlines
example (i : Nat) := C73_SyArc sampleSyArc i
theorem C73_SyCircle (o : SyCircle) (i : Nat) : o.toSexpr i true = o.toSexpr i false ++ ['\n'] := by
  unfold SyCircle.toSexpr
  newlines
example (i : Nat) := C73_SyCircle sampleSyCircle i
theorem C73_SyPolyLine (o : SyPolyLine) (i : Nat) : o.toSexpr i true = o.toSexpr i false ++ ['\n'] := by
  unfold SyPolyLine.toSexpr
  newlines
example (i : Nat) := C73_SyPolyLine sampleSyPolyLine i
theorem C73_SyRect (o : SyRect) (i : Nat) : o.toSexpr i true = o.toSexpr i false ++ ['\n'] := by
  unfold SyRect.toSexpr
  newlines
example (i : Nat) := C73_SyRect sampleSyRect i
theorem C73_SyText (o : SyText) (i : Nat) : o.toSexpr i true = o.toSexpr i false ++ ['\n'] := by
  unfold SyText.toSexpr
  newlines
example (i : Nat) := C73_SyText sampleSyText i
theorem C73_SyTextBox (o : SyTextBox) (i : Nat) : o.toSexpr i true = o.toSexpr i false ++ ['\n'] := by
  unfold SyTextBox.toSexpr
  newlines
example (i : Nat) := C73_SyTextBox sampleSyTextBox i
theorem C73_SymbolAlternativePin (o : SymbolAlternativePin) (i : Nat) : o.toSexpr i true = o.toSexpr i false ++ ['\n'] := by
  unfold SymbolAlternativePin.toSexpr
  newlines
example (i : Nat) := C73_SymbolAlternativePin sampleSymbolAlternativePin i
theorem C73_SymbolPin (o : SymbolPin) (i : Nat) : o.toSexpr i true = o.toSexpr i false ++ ['\n'] := by
  unfold SymbolPin.toSexpr
  newlines
example (i : Nat) := C73_SymbolPin sampleSymbolPin i
theorem C73_Symbol (o : Symbol) (i : Nat) : o.toSexpr i true = o.toSexpr i false ++ ['\n'] := by
  unfold Symbol.toSexpr
  newlines
example (i : Nat) := C73_Symbol sampleSymbol i
theorem C73_SymbolLib (o : SymbolLib) (i : Nat) : o.toSexpr i true = o.toSexpr i false ++ ['\n'] := by
  unfold SymbolLib.toSexpr
  newlines
example (i : Nat) := C73_SymbolLib ({ sampleSymbolLib with symbols := [] } : SymbolLib) i
theorem C73_Junction (o : Junction) (i : Nat) : o.toSexpr i true = (o.toSexpr i false).map (· ++ ['\n']) := by
  unfold Junction.toSexpr
  newlines
example (i : Nat) := C73_Junction sampleJunction i
theorem C73_NoConnect (o : NoConnect) (i : Nat) : o.toSexpr i true = o.toSexpr i false ++ ['\n'] := by
  unfold NoConnect.toSexpr
  newlines
example (i : Nat) := C73_NoConnect sampleNoConnect i
theorem C73_BusEntry (o : BusEntry) (i : Nat) : o.toSexpr i true = o.toSexpr i false ++ ['\n'] := by
  unfold BusEntry.toSexpr
  newlines
example (i : Nat) := C73_BusEntry sampleBusEntry i
theorem C73_BusAlias (o : BusAlias) (i : Nat) : o.toSexpr i true = o.toSexpr i false ++ ['\n'] := by
  unfold BusAlias.toSexpr
  newlines
example (i : Nat) := C73_BusAlias sampleBusAlias i
theorem C73_Connection (o : Connection) (i : Nat) : o.toSexpr i true = o.toSexpr i false ++ ['\n'] := by
  unfold Connection.toSexpr
  newlines
example (i : Nat) := C73_Connection sampleConnection i
theorem C73_PolyLine (o : PolyLine) (i : Nat) : o.toSexpr i true = o.toSexpr i false ++ ['\n'] := by
  unfold PolyLine.toSexpr
  newlines
example (i : Nat) := C73_PolyLine samplePolyLine i
theorem C73_Text (o : Text) (i : Nat) : o.toSexpr i true = (o.toSexpr i false).map (· ++ ['\n']) := by
  unfold Text.toSexpr
  newlines
example (i : Nat) := C73_Text sampleText i
theorem C73_TextBox (o : TextBox) (i : Nat) : o.toSexpr i true = o.toSexpr i false ++ ['\n'] := by
  unfold TextBox.toSexpr
  newlines
example (i : Nat) := C73_TextBox sampleTextBox i
theorem C73_LocalLabel (o : LocalLabel) (i : Nat) : o.toSexpr i true = o.toSexpr i false ++ ['\n'] := by
  unfold LocalLabel.toSexpr
  newlines
example (i : Nat) := C73_LocalLabel sampleLocalLabel i
theorem C73_GlobalLabel (o : GlobalLabel) (i : Nat) : o.toSexpr i true = o.toSexpr i false ++ ['\n'] := by
  unfold GlobalLabel.toSexpr
  newlines
example (i : Nat) := C73_GlobalLabel sampleGlobalLabel i
theorem C73_HierarchicalLabel (o : HierarchicalLabel) (i : Nat) : o.toSexpr i true = o.toSexpr i false ++ ['\n'] := by
  unfold HierarchicalLabel.toSexpr
  newlines
example (i : Nat) := C73_HierarchicalLabel sampleHierarchicalLabel i
theorem C73_SymbolProjectPath (o : SymbolProjectPath) (i : Nat) : o.toSexpr i true = o.toSexpr i false ++ ['\n'] := by
  unfold SymbolProjectPath.toSexpr
  newlines
example (i : Nat) := C73_SymbolProjectPath sampleSymbolProjectPath i
theorem C73_SymbolProjectInstance (o : SymbolProjectInstance) (i : Nat) : o.toSexpr i true = o.toSexpr i false ++ ['\n'] := by
  unfold SymbolProjectInstance.toSexpr
  newlines
example (i : Nat) := C73_SymbolProjectInstance sampleSymbolProjectInstance i
theorem C73_SchematicSymbol (o : SchematicSymbol) (i : Nat) : o.toSexpr i true = o.toSexpr i false ++ ['\n'] := by
  unfold SchematicSymbol.toSexpr
  newlines
example (i : Nat) := C73_SchematicSymbol sampleSchematicSymbol i
theorem C73_HierarchicalPin (o : HierarchicalPin) (i : Nat) : o.toSexpr i true = o.toSexpr i false ++ ['\n'] := by
  unfold HierarchicalPin.toSexpr
  newlines
example (i : Nat) := C73_HierarchicalPin sampleHierarchicalPin i
theorem C73_HierarchicalSheetProjectPath (o : HierarchicalSheetProjectPath) (i : Nat) : o.toSexpr i true = o.toSexpr i false ++ ['\n'] := by
  unfold HierarchicalSheetProjectPath.toSexpr
  newlines
example (i : Nat) := C73_HierarchicalSheetProjectPath sampleHierarchicalSheetProjectPath i
theorem C73_HierarchicalSheetProjectInstance (o : HierarchicalSheetProjectInstance) (i : Nat) : o.toSexpr i true = o.toSexpr i false ++ ['\n'] := by
  unfold HierarchicalSheetProjectInstance.toSexpr
  newlines
example (i : Nat) := C73_HierarchicalSheetProjectInstance sampleHierarchicalSheetProjectInstance i
theorem C73_HierarchicalSheet (o : HierarchicalSheet) (i : Nat) : o.toSexpr i true = (o.toSexpr i false).map (· ++ ['\n']) := by
  unfold HierarchicalSheet.toSexpr
  newlines
example (i : Nat) := C73_HierarchicalSheet sampleHierarchicalSheet i
theorem C73_HierarchicalSheetInstance (o : HierarchicalSheetInstance) (i : Nat) : o.toSexpr i true = o.toSexpr i false ++ ['\n'] := by
  unfold HierarchicalSheetInstance.toSexpr
  newlines
example (i : Nat) := C73_HierarchicalSheetInstance sampleHierarchicalSheetInstance i
theorem C73_SymbolInstance (o : SymbolInstance) (i : Nat) : o.toSexpr i true = o.toSexpr i false ++ ['\n'] := by
  unfold SymbolInstance.toSexpr
  newlines
example (i : Nat) := C73_SymbolInstance sampleSymbolInstance i
theorem C73_Rectangle (o : Rectangle) (i : Nat) : o.toSexpr i true = o.toSexpr i false ++ ['\n'] := by
  unfold Rectangle.toSexpr
  newlines
example (i : Nat) := C73_Rectangle sampleRectangle i
theorem C73_Arc (o : Arc) (i : Nat) : o.toSexpr i true = o.toSexpr i false ++ ['\n'] := by
  unfold Arc.toSexpr
  newlines
example (i : Nat) := C73_Arc sampleArc i
theorem C73_Circle (o : Circle) (i : Nat) : o.toSexpr i true = o.toSexpr i false ++ ['\n'] := by
  unfold Circle.toSexpr
  newlines
example (i : Nat) := C73_Circle sampleCircle i
theorem C73_NetclassFlag (o : NetclassFlag) (i : Nat) : o.toSexpr i true = (o.toSexpr i false).map (· ++ ['\n']) := by
  unfold NetclassFlag.toSexpr
  newlines
example (i : Nat) := C73_NetclassFlag sampleNetclassFlag i
theorem C73_Schematic (o : Schematic) (i : Nat) : o.toSexpr i true = (o.toSexpr i false).map (· ++ ['\n']) := by
  unfold Schematic.toSexpr
  newlines
example (i : Nat) := C73_Schematic ({ sampleSchematic with junctions := [sampleJunction], sheetInstances := [], symbolInstances := [] } : Schematic) i
theorem C73_GrText (o : GrText) (i : Nat) : o.toSexpr i true = o.toSexpr i false ++ ['\n'] := by
  unfold GrText.toSexpr
  newlines
example (i : Nat) := C73_GrText ({ sampleGrText with renderCache := none } : GrText) i
theorem C73_GrTextBox (o : GrTextBox) (i : Nat) : o.toSexpr i true = (o.toSexpr i false).map (· ++ ['\n']) := by
  unfold GrTextBox.toSexpr
  newlines
example (i : Nat) := C73_GrTextBox ({ sampleGrTextBox with renderCache := none } : GrTextBox) i
theorem C73_GrLine (o : GrLine) (i : Nat) : o.toSexpr i true = o.toSexpr i false ++ ['\n'] := by
  unfold GrLine.toSexpr
  newlines
example (i : Nat) := C73_GrLine sampleGrLine i
theorem C73_GrRect (o : GrRect) (i : Nat) : o.toSexpr i true = o.toSexpr i false ++ ['\n'] := by
  unfold GrRect.toSexpr
  newlines
example (i : Nat) := C73_GrRect sampleGrRect i
theorem C73_GrCircle (o : GrCircle) (i : Nat) : o.toSexpr i true = o.toSexpr i false ++ ['\n'] := by
  unfold GrCircle.toSexpr
  newlines
example (i : Nat) := C73_GrCircle sampleGrCircle i
theorem C73_GrArc (o : GrArc) (i : Nat) : o.toSexpr i true = o.toSexpr i false ++ ['\n'] := by
  unfold GrArc.toSexpr
  newlines
example (i : Nat) := C73_GrArc sampleGrArc i
theorem C73_GrPoly (o : GrPoly) (i : Nat) (ptsNewline : Bool) : o.toSexpr i true ptsNewline = o.toSexpr i false ptsNewline ++ ['\n'] := by
  unfold GrPoly.toSexpr
  newlines
example (i : Nat) := C73_GrPoly sampleGrPoly i
theorem C73_GrCurve (o : GrCurve) (i : Nat) : o.toSexpr i true = o.toSexpr i false ++ ['\n'] := by
  unfold GrCurve.toSexpr
  newlines
example (i : Nat) := C73_GrCurve sampleGrCurve i
theorem C73_FpText (o : FpText) (i : Nat) : o.toSexpr i true = o.toSexpr i false ++ ['\n'] := by
  unfold FpText.toSexpr
  newlines
example (i : Nat) := C73_FpText ({ sampleFpText with renderCache := none } : FpText) i
theorem C73_FpLine (o : FpLine) (i : Nat) : o.toSexpr i true = o.toSexpr i false ++ ['\n'] := by
  unfold FpLine.toSexpr
  newlines
example (i : Nat) := C73_FpLine sampleFpLine i
theorem C73_FpRect (o : FpRect) (i : Nat) : o.toSexpr i true = o.toSexpr i false ++ ['\n'] := by
  unfold FpRect.toSexpr
  newlines
example (i : Nat) := C73_FpRect sampleFpRect i
theorem C73_FpTextBox (o : FpTextBox) (i : Nat) : o.toSexpr i true = (o.toSexpr i false).map (· ++ ['\n']) := by
  unfold FpTextBox.toSexpr
  newlines
example (i : Nat) := C73_FpTextBox ({ sampleFpTextBox with renderCache := none } : FpTextBox) i
theorem C73_FpCircle (o : FpCircle) (i : Nat) : o.toSexpr i true = o.toSexpr i false ++ ['\n'] := by
  unfold FpCircle.toSexpr
  newlines
example (i : Nat) := C73_FpCircle sampleFpCircle i
theorem C73_FpArc (o : FpArc) (i : Nat) : o.toSexpr i true = o.toSexpr i false ++ ['\n'] := by
  unfold FpArc.toSexpr
  newlines
example (i : Nat) := C73_FpArc sampleFpArc i
theorem C73_FpPoly (o : FpPoly) (i : Nat) : o.toSexpr i true = o.toSexpr i false ++ ['\n'] := by
  unfold FpPoly.toSexpr
  newlines
example (i : Nat) := C73_FpPoly sampleFpPoly i
theorem C73_FpCurve (o : FpCurve) (i : Nat) : o.toSexpr i true = o.toSexpr i false ++ ['\n'] := by
  unfold FpCurve.toSexpr
  newlines
example (i : Nat) := C73_FpCurve sampleFpCurve i
theorem C73_KeepoutSettings (o : KeepoutSettings) (i : Nat) : o.toSexpr i true = o.toSexpr i false ++ ['\n'] := by
  unfold KeepoutSettings.toSexpr
  newlines
example (i : Nat) := C73_KeepoutSettings sampleKeepoutSettings i
theorem C73_FillSettings (o : FillSettings) (i : Nat) : o.toSexpr i true = o.toSexpr i false ++ ['\n'] := by
  unfold FillSettings.toSexpr
  newlines
example (i : Nat) := C73_FillSettings sampleFillSettings i
theorem C73_ZonePolygon_partial (o : ZonePolygon) (i : Nat) (h : o.coordinates = []) : o.toSexpr i true = o.toSexpr i false ++ ['\n'] := by
  unfold ZonePolygon.toSexpr
  simp only [h, List.isEmpty_nil, if_true, endl, Bool.false_eq_true, if_false, List.append_nil]
example (i : Nat) := C73_ZonePolygon_partial { sampleZonePolygon with coordinates := [] } i rfl
/-- If there are points, the argument has no effect: there is always a line feed. -/
theorem C73_ZonePolygon_violated (o : ZonePolygon) (i : Nat) (h : o.coordinates ≠ []) : o.toSexpr i true = o.toSexpr i false := by
  unfold ZonePolygon.toSexpr
  rw [if_neg (by simpa using h), if_neg (by simpa using h)]
example (i : Nat) := C73_ZonePolygon_violated sampleZonePolygon i (List.cons_ne_nil _ _)
theorem C73_FilledPolygon_partial (o : FilledPolygon) (i : Nat) (h : o.coordinates = []) : o.toSexpr i true = o.toSexpr i false ++ ['\n'] := by
  unfold FilledPolygon.toSexpr
  simp only [h, List.isEmpty_nil, if_true, endl, Bool.false_eq_true, if_false, List.append_nil]
example (i : Nat) := C73_FilledPolygon_partial { sampleFilledPolygon with coordinates := [] } i rfl
/-- If there are points, the argument has no effect: there is always a line feed. -/
theorem C73_FilledPolygon_violated (o : FilledPolygon) (i : Nat) (h : o.coordinates ≠ []) : o.toSexpr i true = o.toSexpr i false := by
  unfold FilledPolygon.toSexpr
  rw [if_neg (by simpa using h), if_neg (by simpa using h)]
example (i : Nat) := C73_FilledPolygon_violated sampleFilledPolygon i (List.cons_ne_nil _ _)
theorem C73_FillSegments_partial (o : FillSegments) (i : Nat) (h : o.coordinates = []) : o.toSexpr i true = o.toSexpr i false ++ ['\n'] := by
  unfold FillSegments.toSexpr
  simp only [h, List.isEmpty_nil, if_true, endl, Bool.false_eq_true, if_false, List.append_nil]
example (i : Nat) := C73_FillSegments_partial { sampleFillSegments with coordinates := [] } i rfl
/-- If there are points, the argument has no effect: there is always a line feed. -/
theorem C73_FillSegments_violated (o : FillSegments) (i : Nat) (h : o.coordinates ≠ []) : o.toSexpr i true = o.toSexpr i false := by
  unfold FillSegments.toSexpr
  rw [if_neg (by simpa using h), if_neg (by simpa using h)]
example (i : Nat) := C73_FillSegments_violated sampleFillSegments i (List.cons_ne_nil _ _)
theorem C73_Zone (o : Zone) (i : Nat) : o.toSexpr i true = (o.toSexpr i false).map (· ++ ['\n']) := by
  unfold Zone.toSexpr
  newlines
example (i : Nat) := C73_Zone ({ sampleZone with fillSegments := none } : Zone) i
theorem C73_Attributes_partial (o : Attributes) (i : Nat)
    (h : ¬ (o.type = none ∧ o.boardOnly = false ∧ o.excludeFromPosFiles = false ∧ o.excludeFromBom = false ∧ o.allowMissingCourtyard = false)) :
    o.toSexpr i true = o.toSexpr i false ++ ['\n'] := by
  have hc : o.isDefault = false := by
    obtain ⟨a, b, c, d, e⟩ := o
    cases a <;> cases b <;> cases c <;> cases d <;> cases e <;> first | rfl | exact absurd ⟨rfl, rfl, rfl, rfl, rfl⟩ h
  unfold Attributes.toSexpr
  simp only [hc, if_false, Bool.false_eq_true, endl, if_true, List.append_nil, List.append_assoc, List.cons_append, List.nil_append]
example (i : Nat) := C73_Attributes_partial sampleAttributes i nofun
/-- Nothing is written for default attributes, not even a line feed. -/
theorem C73_Attributes_violated (o : Attributes) (i : Nat) (nl : Bool)
    (h : o.type = none ∧ o.boardOnly = false ∧ o.excludeFromPosFiles = false ∧ o.excludeFromBom = false ∧ o.allowMissingCourtyard = false) : o.toSexpr i nl = [] := by
  obtain ⟨a, b, c, d, e⟩ := o
  obtain ⟨rfl, rfl, rfl, rfl, rfl⟩ := h
  rfl
example (i : Nat) := C73_Attributes_violated {} i true ⟨rfl, rfl, rfl, rfl, rfl⟩
theorem C73_Model (o : Model) (i : Nat) : o.toSexpr i true = o.toSexpr i false ++ ['\n'] := by
  unfold Model.toSexpr
  newlines
example (i : Nat) := C73_Model sampleModel i
theorem C73_DrillDefinition (o : DrillDefinition) (i : Nat) : o.toSexpr i true = o.toSexpr i false ++ ['\n'] := by
  unfold DrillDefinition.toSexpr
  newlines
example (i : Nat) := C73_DrillDefinition sampleDrillDefinition i
theorem C73_PadOptions (o : PadOptions) (i : Nat) : o.toSexpr i true = o.toSexpr i false ++ ['\n'] := by
  unfold PadOptions.toSexpr
  newlines
example (i : Nat) := C73_PadOptions samplePadOptions i
theorem C73_Pad (o : Pad) (i : Nat) : o.toSexpr i true = (o.toSexpr i false).map (· ++ ['\n']) := by
  unfold Pad.toSexpr
  newlines
example (i : Nat) := C73_Pad ({ samplePad with customPadPrimitives := [.line sampleGrLine] } : Pad) i
theorem C73_Footprint (o : Footprint) (i : Nat) (layerInFirstLine : Bool) : o.toSexpr i true layerInFirstLine = (o.toSexpr i false layerInFirstLine).map (· ++ ['\n']) := by
  unfold Footprint.toSexpr
  newlines
example (i : Nat) := C73_Footprint ({ sampleFootprint with graphicItems := [.line sampleFpLine], pads := [], zones := [] } : Footprint) i true
theorem C73_GeneralSettings (o : GeneralSettings) (i : Nat) : o.toSexpr i true = o.toSexpr i false ++ ['\n'] := by
  unfold GeneralSettings.toSexpr
  newlines
example (i : Nat) := C73_GeneralSettings sampleGeneralSettings i
theorem C73_LayerToken (o : LayerToken) (i : Nat) : o.toSexpr i true = o.toSexpr i false ++ ['\n'] := by
  unfold LayerToken.toSexpr
  newlines
example (i : Nat) := C73_LayerToken sampleLayerToken i
theorem C73_StackupSubLayer (o : StackupSubLayer) (i : Nat) : o.toSexpr i true = o.toSexpr i false ++ ['\n'] := by
  unfold StackupSubLayer.toSexpr
  newlines
example (i : Nat) := C73_StackupSubLayer sampleStackupSubLayer i
theorem C73_StackupLayer (o : StackupLayer) (i : Nat) : o.toSexpr i true = o.toSexpr i false ++ ['\n'] := by
  unfold StackupLayer.toSexpr
  newlines
example (i : Nat) := C73_StackupLayer sampleStackupLayer i
theorem C73_Stackup (o : Stackup) (i : Nat) : o.toSexpr i true = o.toSexpr i false ++ ['\n'] := by
  unfold Stackup.toSexpr
  newlines
example (i : Nat) := C73_Stackup sampleStackup i
set_option maxRecDepth 4000 in
theorem C73_PlotSettings (o : PlotSettings) (i : Nat) : o.toSexpr i true = (o.toSexpr i false).map (· ++ ['\n']) := by
  unfold PlotSettings.toSexpr
  newlines
example (i : Nat) := C73_PlotSettings samplePlotSettings i
theorem C73_SetupData (o : SetupData) (i : Nat) : o.toSexpr i true = (o.toSexpr i false).map (· ++ ['\n']) := by
  unfold SetupData.toSexpr
  newlines
example (i : Nat) := C73_SetupData sampleSetupData i
theorem C73_Segment (o : Segment) (i : Nat) : o.toSexpr i true = o.toSexpr i false ++ ['\n'] := by
  unfold Segment.toSexpr
  newlines
example (i : Nat) := C73_Segment sampleSegment i
theorem C73_Via (o : Via) (i : Nat) : o.toSexpr i true = o.toSexpr i false ++ ['\n'] := by
  unfold Via.toSexpr
  newlines
example (i : Nat) := C73_Via sampleVia i
theorem C73_TraceArc (o : TraceArc) (i : Nat) : o.toSexpr i true = o.toSexpr i false ++ ['\n'] := by
  unfold TraceArc.toSexpr
  newlines
example (i : Nat) := C73_TraceArc sampleTraceArc i
theorem C73_Target (o : Target) (i : Nat) : o.toSexpr i true = o.toSexpr i false ++ ['\n'] := by
  unfold Target.toSexpr
  newlines
example (i : Nat) := C73_Target sampleTarget i
theorem C73_DimensionFormat (o : DimensionFormat) (i : Nat) : o.toSexpr i true = o.toSexpr i false ++ ['\n'] := by
  unfold DimensionFormat.toSexpr
  newlines
example (i : Nat) := C73_DimensionFormat sampleDimensionFormat i
theorem C73_DimensionStyle (o : DimensionStyle) (i : Nat) : o.toSexpr i true = o.toSexpr i false ++ ['\n'] := by
  unfold DimensionStyle.toSexpr
  newlines
example (i : Nat) := C73_DimensionStyle sampleDimensionStyle i
theorem C73_Dimension (o : Dimension) (i : Nat) : o.toSexpr i true = (o.toSexpr i false).map (· ++ ['\n']) := by
  unfold Dimension.toSexpr
  newlines
example (i : Nat) := C73_Dimension ({ sampleDimension with grText := none } : Dimension) i
theorem C73_Board (o : Board) (i : Nat) : o.toSexpr i true = (o.toSexpr i false).map (· ++ ['\n']) := by
  unfold Board.toSexpr
  newlines
example (i : Nat) := C73_Board ({ sampleBoard with footprints := [], graphicItems := [.line sampleGrLine], dimensions := [], zones := [], properties := [] } : Board) i
theorem C73_SyCurve (o : SyCurve) (i : Nat) : o.toSexpr i true = o.toSexpr i false ++ ['\n'] := by
  unfold SyCurve.toSexpr
  newlines
example (i : Nat) := C73_SyCurve { points := [samplePositionXY, samplePositionXY] } i
theorem C73_WksShape (head : Str) (o : WksShape) (i : Nat) : o.toSexpr head i true = o.toSexpr head i false ++ ['\n'] := by
  unfold WksShape.toSexpr
  newlines
example (i : Nat) := C73_WksShape k!"line" sampleWksShape i

end Kiutils
