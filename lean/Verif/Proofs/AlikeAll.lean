import Verif.Proofs.AlikeSteps
/-!
# Lemmas for C76: all kinds together
-/
namespace Kiutils

theorem ExpKind.Same.refl (k : ExpKind) (v : Val) : k.Same v v := by
  cases k with
  | Board => exact fun _ _ => Iff.rfl
  | GeneralSettings => exact fun _ => Iff.rfl
  | Stackup => exact fun _ => Iff.rfl
  | PlotSettings => exact fun _ => Iff.rfl
  | SetupData => exact fun _ => Iff.rfl
  | Segment => exact fun _ => Iff.rfl
  | Via => exact fun _ => Iff.rfl
  | TraceArc => exact fun _ => Iff.rfl
  | Target => exact fun _ => Iff.rfl
  | Stroke => exact fun _ => Iff.rfl
  | Font => exact fun _ => Iff.rfl
  | Effects => exact fun _ => Iff.rfl
  | Group => exact fun _ => Iff.rfl
  | TitleBlock => exact fun _ => Iff.rfl
  | Property => exact fun _ => Iff.rfl
  | RenderCachePolygon => exact fun _ => Iff.rfl
  | RenderCache => exact fun _ => Iff.rfl
  | Fill => exact fun _ => Iff.rfl
  | Image => exact fun _ => Iff.rfl
  | DimensionFormat => exact fun _ => Iff.rfl
  | DimensionStyle => exact fun _ => Iff.rfl
  | Dimension => exact fun _ => Iff.rfl
  | Constraint => exact fun _ => Iff.rfl
  | Rule => exact fun _ => Iff.rfl
  | DesignRules => exact fun _ => Iff.rfl
  | Model => exact fun _ => Iff.rfl
  | DrillDefinition => exact fun _ => Iff.rfl
  | PadOptions => exact fun _ => Iff.rfl
  | Pad => exact fun _ => Iff.rfl
  | Footprint => exact fun _ _ => Iff.rfl
  | FpText => exact fun _ => Iff.rfl
  | FpLine => exact fun _ => Iff.rfl
  | FpRect => exact fun _ => Iff.rfl
  | FpTextBox => exact fun _ => Iff.rfl
  | FpCircle => exact fun _ => Iff.rfl
  | FpArc => exact fun _ => Iff.rfl
  | FpPoly => exact fun _ => Iff.rfl
  | FpCurve => exact fun _ => Iff.rfl
  | GrText => exact fun _ => Iff.rfl
  | GrTextBox => exact fun _ => Iff.rfl
  | GrLine => exact fun _ => Iff.rfl
  | GrRect => exact fun _ => Iff.rfl
  | GrCircle => exact fun _ => Iff.rfl
  | GrArc => exact fun _ => Iff.rfl
  | GrPoly => exact fun _ => Iff.rfl
  | GrCurve => exact fun _ => Iff.rfl
  | Library => exact fun _ => Iff.rfl
  | LibTable => exact fun _ => Iff.rfl
  | Junction => exact fun _ => Iff.rfl
  | NoConnect => exact fun _ => Iff.rfl
  | BusEntry => exact fun _ => Iff.rfl
  | Connection => exact fun _ => Iff.rfl
  | PolyLine => exact fun _ => Iff.rfl
  | Text => exact fun _ => Iff.rfl
  | TextBox => exact fun _ => Iff.rfl
  | LocalLabel => exact fun _ => Iff.rfl
  | GlobalLabel => exact fun _ => Iff.rfl
  | HierarchicalLabel => exact fun _ => Iff.rfl
  | SymbolProjectPath => exact fun _ => Iff.rfl
  | SymbolProjectInstance => exact fun _ => Iff.rfl
  | SchematicSymbol => exact fun _ => Iff.rfl
  | HierarchicalPin => exact fun _ => Iff.rfl
  | HierarchicalSheetProjectPath => exact fun _ => Iff.rfl
  | HierarchicalSheetProjectInstance => exact fun _ => Iff.rfl
  | HierarchicalSheet => exact fun _ => Iff.rfl
  | HierarchicalSheetInstance => exact fun _ => Iff.rfl
  | SymbolInstance => exact fun _ => Iff.rfl
  | Rectangle => exact fun _ => Iff.rfl
  | Arc => exact fun _ => Iff.rfl
  | Circle => exact fun _ => Iff.rfl
  | NetclassFlag => exact fun _ => Iff.rfl
  | Schematic => exact fun _ => Iff.rfl
  | SyArc => exact fun _ => Iff.rfl
  | SyCircle => exact fun _ => Iff.rfl
  | SyCurve => exact fun _ => Iff.rfl
  | SyPolyLine => exact fun _ => Iff.rfl
  | SyRect => exact fun _ => Iff.rfl
  | SyText => exact fun _ => Iff.rfl
  | SyTextBox => exact fun _ => Iff.rfl
  | SymbolPin => exact fun _ => Iff.rfl
  | SymbolLib => exact fun _ => Iff.rfl
  | Symbol => exact fun _ => Iff.rfl
  | WksFont => exact fun _ => Iff.rfl
  | Bitmap => exact fun _ => Iff.rfl
  | TbText => exact fun _ => Iff.rfl
  | Setup => exact fun _ => Iff.rfl
  | WorkSheet => exact fun _ => Iff.rfl
  | KeepoutSettings => exact fun _ => Iff.rfl
  | FillSettings => exact fun _ => Iff.rfl
  | ZonePolygon => exact fun _ => Iff.rfl
  | FilledPolygon => exact fun _ => Iff.rfl
  | FillSegments => exact fun _ => Iff.rfl
  | Zone => exact fun _ => Iff.rfl
  | WksLine => exact fun _ => Iff.rfl
  | WksRect => exact fun _ => Iff.rfl
  | Primitives => exact fun _ _ => Iff.rfl

theorem ExpKind.Same.symm {k : ExpKind} {v w : Val} (h : k.Same v w) : k.Same w v := by
  cases k with
  | Board => exact fun a o => (h a o).symm
  | GeneralSettings => exact fun o => (h o).symm
  | Stackup => exact fun o => (h o).symm
  | PlotSettings => exact fun o => (h o).symm
  | SetupData => exact fun o => (h o).symm
  | Segment => exact fun o => (h o).symm
  | Via => exact fun o => (h o).symm
  | TraceArc => exact fun o => (h o).symm
  | Target => exact fun o => (h o).symm
  | Stroke => exact fun o => (h o).symm
  | Font => exact fun o => (h o).symm
  | Effects => exact fun o => (h o).symm
  | Group => exact fun o => (h o).symm
  | TitleBlock => exact fun o => (h o).symm
  | Property => exact fun o => (h o).symm
  | RenderCachePolygon => exact fun o => (h o).symm
  | RenderCache => exact fun o => (h o).symm
  | Fill => exact fun o => (h o).symm
  | Image => exact fun o => (h o).symm
  | DimensionFormat => exact fun o => (h o).symm
  | DimensionStyle => exact fun o => (h o).symm
  | Dimension => exact fun o => (h o).symm
  | Constraint => exact fun o => (h o).symm
  | Rule => exact fun o => (h o).symm
  | DesignRules => exact fun o => (h o).symm
  | Model => exact fun o => (h o).symm
  | DrillDefinition => exact fun o => (h o).symm
  | PadOptions => exact fun o => (h o).symm
  | Pad => exact fun o => (h o).symm
  | Footprint => exact fun a o => (h a o).symm
  | FpText => exact fun o => (h o).symm
  | FpLine => exact fun o => (h o).symm
  | FpRect => exact fun o => (h o).symm
  | FpTextBox => exact fun o => (h o).symm
  | FpCircle => exact fun o => (h o).symm
  | FpArc => exact fun o => (h o).symm
  | FpPoly => exact fun o => (h o).symm
  | FpCurve => exact fun o => (h o).symm
  | GrText => exact fun o => (h o).symm
  | GrTextBox => exact fun o => (h o).symm
  | GrLine => exact fun o => (h o).symm
  | GrRect => exact fun o => (h o).symm
  | GrCircle => exact fun o => (h o).symm
  | GrArc => exact fun o => (h o).symm
  | GrPoly => exact fun o => (h o).symm
  | GrCurve => exact fun o => (h o).symm
  | Library => exact fun o => (h o).symm
  | LibTable => exact fun o => (h o).symm
  | Junction => exact fun o => (h o).symm
  | NoConnect => exact fun o => (h o).symm
  | BusEntry => exact fun o => (h o).symm
  | Connection => exact fun o => (h o).symm
  | PolyLine => exact fun o => (h o).symm
  | Text => exact fun o => (h o).symm
  | TextBox => exact fun o => (h o).symm
  | LocalLabel => exact fun o => (h o).symm
  | GlobalLabel => exact fun o => (h o).symm
  | HierarchicalLabel => exact fun o => (h o).symm
  | SymbolProjectPath => exact fun o => (h o).symm
  | SymbolProjectInstance => exact fun o => (h o).symm
  | SchematicSymbol => exact fun o => (h o).symm
  | HierarchicalPin => exact fun o => (h o).symm
  | HierarchicalSheetProjectPath => exact fun o => (h o).symm
  | HierarchicalSheetProjectInstance => exact fun o => (h o).symm
  | HierarchicalSheet => exact fun o => (h o).symm
  | HierarchicalSheetInstance => exact fun o => (h o).symm
  | SymbolInstance => exact fun o => (h o).symm
  | Rectangle => exact fun o => (h o).symm
  | Arc => exact fun o => (h o).symm
  | Circle => exact fun o => (h o).symm
  | NetclassFlag => exact fun o => (h o).symm
  | Schematic => exact fun o => (h o).symm
  | SyArc => exact fun o => (h o).symm
  | SyCircle => exact fun o => (h o).symm
  | SyCurve => exact fun o => (h o).symm
  | SyPolyLine => exact fun o => (h o).symm
  | SyRect => exact fun o => (h o).symm
  | SyText => exact fun o => (h o).symm
  | SyTextBox => exact fun o => (h o).symm
  | SymbolPin => exact fun o => (h o).symm
  | SymbolLib => exact fun o => (h o).symm
  | Symbol => exact fun o => (h o).symm
  | WksFont => exact fun o => (h o).symm
  | Bitmap => exact fun o => (h o).symm
  | TbText => exact fun o => (h o).symm
  | Setup => exact fun o => (h o).symm
  | WorkSheet => exact fun o => (h o).symm
  | KeepoutSettings => exact fun o => (h o).symm
  | FillSettings => exact fun o => (h o).symm
  | ZonePolygon => exact fun o => (h o).symm
  | FilledPolygon => exact fun o => (h o).symm
  | FillSegments => exact fun o => (h o).symm
  | Zone => exact fun o => (h o).symm
  | WksLine => exact fun o => (h o).symm
  | WksRect => exact fun o => (h o).symm
  | Primitives => exact fun a o => (h a o).symm

theorem ExpKind.Same.trans {k : ExpKind} {u v w : Val} (h : k.Same u v) (h' : k.Same v w) : k.Same u w := by
  cases k with
  | Board => exact fun a o => (h a o).trans (h' a o)
  | GeneralSettings => exact fun o => (h o).trans (h' o)
  | Stackup => exact fun o => (h o).trans (h' o)
  | PlotSettings => exact fun o => (h o).trans (h' o)
  | SetupData => exact fun o => (h o).trans (h' o)
  | Segment => exact fun o => (h o).trans (h' o)
  | Via => exact fun o => (h o).trans (h' o)
  | TraceArc => exact fun o => (h o).trans (h' o)
  | Target => exact fun o => (h o).trans (h' o)
  | Stroke => exact fun o => (h o).trans (h' o)
  | Font => exact fun o => (h o).trans (h' o)
  | Effects => exact fun o => (h o).trans (h' o)
  | Group => exact fun o => (h o).trans (h' o)
  | TitleBlock => exact fun o => (h o).trans (h' o)
  | Property => exact fun o => (h o).trans (h' o)
  | RenderCachePolygon => exact fun o => (h o).trans (h' o)
  | RenderCache => exact fun o => (h o).trans (h' o)
  | Fill => exact fun o => (h o).trans (h' o)
  | Image => exact fun o => (h o).trans (h' o)
  | DimensionFormat => exact fun o => (h o).trans (h' o)
  | DimensionStyle => exact fun o => (h o).trans (h' o)
  | Dimension => exact fun o => (h o).trans (h' o)
  | Constraint => exact fun o => (h o).trans (h' o)
  | Rule => exact fun o => (h o).trans (h' o)
  | DesignRules => exact fun o => (h o).trans (h' o)
  | Model => exact fun o => (h o).trans (h' o)
  | DrillDefinition => exact fun o => (h o).trans (h' o)
  | PadOptions => exact fun o => (h o).trans (h' o)
  | Pad => exact fun o => (h o).trans (h' o)
  | Footprint => exact fun a o => (h a o).trans (h' a o)
  | FpText => exact fun o => (h o).trans (h' o)
  | FpLine => exact fun o => (h o).trans (h' o)
  | FpRect => exact fun o => (h o).trans (h' o)
  | FpTextBox => exact fun o => (h o).trans (h' o)
  | FpCircle => exact fun o => (h o).trans (h' o)
  | FpArc => exact fun o => (h o).trans (h' o)
  | FpPoly => exact fun o => (h o).trans (h' o)
  | FpCurve => exact fun o => (h o).trans (h' o)
  | GrText => exact fun o => (h o).trans (h' o)
  | GrTextBox => exact fun o => (h o).trans (h' o)
  | GrLine => exact fun o => (h o).trans (h' o)
  | GrRect => exact fun o => (h o).trans (h' o)
  | GrCircle => exact fun o => (h o).trans (h' o)
  | GrArc => exact fun o => (h o).trans (h' o)
  | GrPoly => exact fun o => (h o).trans (h' o)
  | GrCurve => exact fun o => (h o).trans (h' o)
  | Library => exact fun o => (h o).trans (h' o)
  | LibTable => exact fun o => (h o).trans (h' o)
  | Junction => exact fun o => (h o).trans (h' o)
  | NoConnect => exact fun o => (h o).trans (h' o)
  | BusEntry => exact fun o => (h o).trans (h' o)
  | Connection => exact fun o => (h o).trans (h' o)
  | PolyLine => exact fun o => (h o).trans (h' o)
  | Text => exact fun o => (h o).trans (h' o)
  | TextBox => exact fun o => (h o).trans (h' o)
  | LocalLabel => exact fun o => (h o).trans (h' o)
  | GlobalLabel => exact fun o => (h o).trans (h' o)
  | HierarchicalLabel => exact fun o => (h o).trans (h' o)
  | SymbolProjectPath => exact fun o => (h o).trans (h' o)
  | SymbolProjectInstance => exact fun o => (h o).trans (h' o)
  | SchematicSymbol => exact fun o => (h o).trans (h' o)
  | HierarchicalPin => exact fun o => (h o).trans (h' o)
  | HierarchicalSheetProjectPath => exact fun o => (h o).trans (h' o)
  | HierarchicalSheetProjectInstance => exact fun o => (h o).trans (h' o)
  | HierarchicalSheet => exact fun o => (h o).trans (h' o)
  | HierarchicalSheetInstance => exact fun o => (h o).trans (h' o)
  | SymbolInstance => exact fun o => (h o).trans (h' o)
  | Rectangle => exact fun o => (h o).trans (h' o)
  | Arc => exact fun o => (h o).trans (h' o)
  | Circle => exact fun o => (h o).trans (h' o)
  | NetclassFlag => exact fun o => (h o).trans (h' o)
  | Schematic => exact fun o => (h o).trans (h' o)
  | SyArc => exact fun o => (h o).trans (h' o)
  | SyCircle => exact fun o => (h o).trans (h' o)
  | SyCurve => exact fun o => (h o).trans (h' o)
  | SyPolyLine => exact fun o => (h o).trans (h' o)
  | SyRect => exact fun o => (h o).trans (h' o)
  | SyText => exact fun o => (h o).trans (h' o)
  | SyTextBox => exact fun o => (h o).trans (h' o)
  | SymbolPin => exact fun o => (h o).trans (h' o)
  | SymbolLib => exact fun o => (h o).trans (h' o)
  | Symbol => exact fun o => (h o).trans (h' o)
  | WksFont => exact fun o => (h o).trans (h' o)
  | Bitmap => exact fun o => (h o).trans (h' o)
  | TbText => exact fun o => (h o).trans (h' o)
  | Setup => exact fun o => (h o).trans (h' o)
  | WorkSheet => exact fun o => (h o).trans (h' o)
  | KeepoutSettings => exact fun o => (h o).trans (h' o)
  | FillSettings => exact fun o => (h o).trans (h' o)
  | ZonePolygon => exact fun o => (h o).trans (h' o)
  | FilledPolygon => exact fun o => (h o).trans (h' o)
  | FillSegments => exact fun o => (h o).trans (h' o)
  | Zone => exact fun o => (h o).trans (h' o)
  | WksLine => exact fun o => (h o).trans (h' o)
  | WksRect => exact fun o => (h o).trans (h' o)
  | Primitives => exact fun a o => (h a o).trans (h' a o)

theorem SaysSame.unknown_same {k : ExpKind} {s : List Val} (hs : k.Start s) (xs ys : List Val) {u : Val} {r : List Val} (hu : ∀ w ∈ k.known, u ≠ .str w) :
    k.Same (.list (s ++ (xs ++ .list (u :: r) :: ys))) (.list (s ++ (xs ++ ys))) := by
  cases k with
  | Board => exact SaysSame.Board_unknown hs xs ys hu
  | GeneralSettings => exact SaysSame.GeneralSettings_unknown hs xs ys hu
  | Stackup => exact SaysSame.Stackup_unknown hs xs ys hu
  | PlotSettings => exact SaysSame.PlotSettings_unknown hs xs ys hu
  | SetupData => exact SaysSame.SetupData_unknown hs xs ys hu
  | Segment => exact SaysSame.Segment_unknown hs xs ys hu
  | Via => exact SaysSame.Via_unknown hs xs ys hu
  | TraceArc => exact SaysSame.TraceArc_unknown hs xs ys hu
  | Target => exact SaysSame.Target_unknown hs xs ys hu
  | Stroke => exact SaysSame.Stroke_unknown hs xs ys hu
  | Font => exact SaysSame.Font_unknown hs xs ys hu
  | Effects => exact SaysSame.Effects_unknown hs xs ys hu
  | Group => exact SaysSame.Group_unknown hs xs ys hu
  | TitleBlock => exact SaysSame.TitleBlock_unknown hs xs ys hu
  | Property => exact SaysSame.Property_unknown hs xs ys hu
  | RenderCachePolygon => exact SaysSame.RenderCachePolygon_unknown hs xs ys hu
  | RenderCache => exact SaysSame.RenderCache_unknown hs xs ys hu
  | Fill => exact SaysSame.Fill_unknown hs xs ys hu
  | Image => exact SaysSame.Image_unknown hs xs ys hu
  | DimensionFormat => exact SaysSame.DimensionFormat_unknown hs xs ys hu
  | DimensionStyle => exact SaysSame.DimensionStyle_unknown hs xs ys hu
  | Dimension => exact SaysSame.Dimension_unknown hs xs ys hu
  | Constraint => exact SaysSame.Constraint_unknown hs xs ys hu
  | Rule => exact SaysSame.Rule_unknown hs xs ys hu
  | DesignRules => exact SaysSame.DesignRules_unknown hs xs ys hu
  | Model => exact SaysSame.Model_unknown hs xs ys hu
  | DrillDefinition => exact SaysSame.DrillDefinition_unknown hs xs ys hu
  | PadOptions => exact SaysSame.PadOptions_unknown hs xs ys hu
  | Pad => exact SaysSame.Pad_unknown hs xs ys hu
  | Footprint => exact SaysSame.Footprint_unknown hs xs ys hu
  | FpText => exact SaysSame.FpText_unknown hs xs ys hu
  | FpLine => exact SaysSame.FpLine_unknown hs xs ys hu
  | FpRect => exact SaysSame.FpRect_unknown hs xs ys hu
  | FpTextBox => exact SaysSame.FpTextBox_unknown hs xs ys hu
  | FpCircle => exact SaysSame.FpCircle_unknown hs xs ys hu
  | FpArc => exact SaysSame.FpArc_unknown hs xs ys hu
  | FpPoly => exact SaysSame.FpPoly_unknown hs xs ys hu
  | FpCurve => exact SaysSame.FpCurve_unknown hs xs ys hu
  | GrText => exact SaysSame.GrText_unknown hs xs ys hu
  | GrTextBox => exact SaysSame.GrTextBox_unknown hs xs ys hu
  | GrLine => exact SaysSame.GrLine_unknown hs xs ys hu
  | GrRect => exact SaysSame.GrRect_unknown hs xs ys hu
  | GrCircle => exact SaysSame.GrCircle_unknown hs xs ys hu
  | GrArc => exact SaysSame.GrArc_unknown hs xs ys hu
  | GrPoly => exact SaysSame.GrPoly_unknown hs xs ys hu
  | GrCurve => exact SaysSame.GrCurve_unknown hs xs ys hu
  | Library => exact SaysSame.Library_unknown hs xs ys hu
  | LibTable => exact SaysSame.LibTable_unknown hs xs ys hu
  | Junction => exact SaysSame.Junction_unknown hs xs ys hu
  | NoConnect => exact SaysSame.NoConnect_unknown hs xs ys hu
  | BusEntry => exact SaysSame.BusEntry_unknown hs xs ys hu
  | Connection => exact SaysSame.Connection_unknown hs xs ys hu
  | PolyLine => exact SaysSame.PolyLine_unknown hs xs ys hu
  | Text => exact SaysSame.Text_unknown hs xs ys hu
  | TextBox => exact SaysSame.TextBox_unknown hs xs ys hu
  | LocalLabel => exact SaysSame.LocalLabel_unknown hs xs ys hu
  | GlobalLabel => exact SaysSame.GlobalLabel_unknown hs xs ys hu
  | HierarchicalLabel => exact SaysSame.HierarchicalLabel_unknown hs xs ys hu
  | SymbolProjectPath => exact SaysSame.SymbolProjectPath_unknown hs xs ys hu
  | SymbolProjectInstance => exact SaysSame.SymbolProjectInstance_unknown hs xs ys hu
  | SchematicSymbol => exact SaysSame.SchematicSymbol_unknown hs xs ys hu
  | HierarchicalPin => exact SaysSame.HierarchicalPin_unknown hs xs ys hu
  | HierarchicalSheetProjectPath => exact SaysSame.HierarchicalSheetProjectPath_unknown hs xs ys hu
  | HierarchicalSheetProjectInstance => exact SaysSame.HierarchicalSheetProjectInstance_unknown hs xs ys hu
  | HierarchicalSheet => exact SaysSame.HierarchicalSheet_unknown hs xs ys hu
  | HierarchicalSheetInstance => exact SaysSame.HierarchicalSheetInstance_unknown hs xs ys hu
  | SymbolInstance => exact SaysSame.SymbolInstance_unknown hs xs ys hu
  | Rectangle => exact SaysSame.Rectangle_unknown hs xs ys hu
  | Arc => exact SaysSame.Arc_unknown hs xs ys hu
  | Circle => exact SaysSame.Circle_unknown hs xs ys hu
  | NetclassFlag => exact SaysSame.NetclassFlag_unknown hs xs ys hu
  | Schematic => exact SaysSame.Schematic_unknown hs xs ys hu
  | SyArc => exact SaysSame.SyArc_unknown hs xs ys hu
  | SyCircle => exact SaysSame.SyCircle_unknown hs xs ys hu
  | SyCurve => exact SaysSame.SyCurve_unknown hs xs ys hu
  | SyPolyLine => exact SaysSame.SyPolyLine_unknown hs xs ys hu
  | SyRect => exact SaysSame.SyRect_unknown hs xs ys hu
  | SyText => exact SaysSame.SyText_unknown hs xs ys hu
  | SyTextBox => exact SaysSame.SyTextBox_unknown hs xs ys hu
  | SymbolPin => exact SaysSame.SymbolPin_unknown hs xs ys hu
  | SymbolLib => exact SaysSame.SymbolLib_unknown hs xs ys hu
  | Symbol => exact SaysSame.Symbol_unknown hs xs ys hu
  | WksFont => exact SaysSame.WksFont_unknown hs xs ys hu
  | Bitmap => exact SaysSame.Bitmap_unknown hs xs ys hu
  | TbText => exact SaysSame.TbText_unknown hs xs ys hu
  | Setup => exact SaysSame.Setup_unknown hs xs ys hu
  | WorkSheet => exact SaysSame.WorkSheet_unknown hs xs ys hu
  | KeepoutSettings => exact SaysSame.KeepoutSettings_unknown hs xs ys hu
  | FillSettings => exact SaysSame.FillSettings_unknown hs xs ys hu
  | ZonePolygon => exact SaysSame.ZonePolygon_unknown hs xs ys hu
  | FilledPolygon => exact SaysSame.FilledPolygon_unknown hs xs ys hu
  | FillSegments => exact SaysSame.FillSegments_unknown hs xs ys hu
  | Zone => exact SaysSame.Zone_unknown hs xs ys hu
  | WksLine => exact SaysSame.WksLine_unknown hs xs ys hu
  | WksRect => exact SaysSame.WksRect_unknown hs xs ys hu
  | Primitives => exact SaysSame.Primitives_unknown hs xs ys hu

theorem SaysSame.order_same {k : ExpKind} {s : List Val} (hs : k.Start s) (hm : k ≠ .Model) (hp : k ≠ .Primitives) {xs ys : List Val} (hr : Reordered k.together xs ys) :
    k.Same (.list (s ++ xs)) (.list (s ++ ys)) := by
  cases k with
  | Board => exact SaysSame.Board_order hs hr
  | GeneralSettings => exact SaysSame.GeneralSettings_order hs hr
  | Stackup => exact SaysSame.Stackup_order hs hr
  | PlotSettings => exact SaysSame.PlotSettings_order hs hr
  | SetupData => exact SaysSame.SetupData_order hs hr
  | Segment => exact SaysSame.Segment_order hs hr
  | Via => exact SaysSame.Via_order hs hr
  | TraceArc => exact SaysSame.TraceArc_order hs hr
  | Target => exact SaysSame.Target_order hs hr
  | Stroke => exact SaysSame.Stroke_order hs hr
  | Font => exact SaysSame.Font_order hs hr
  | Effects => exact SaysSame.Effects_order hs hr
  | Group => exact SaysSame.Group_order hs hr
  | TitleBlock => exact SaysSame.TitleBlock_order hs hr
  | Property => exact SaysSame.Property_order hs hr
  | RenderCachePolygon => exact SaysSame.RenderCachePolygon_order hs hr
  | RenderCache => exact SaysSame.RenderCache_order hs hr
  | Fill => exact SaysSame.Fill_order hs hr
  | Image => exact SaysSame.Image_order hs hr
  | DimensionFormat => exact SaysSame.DimensionFormat_order hs hr
  | DimensionStyle => exact SaysSame.DimensionStyle_order hs hr
  | Dimension => exact SaysSame.Dimension_order hs hr
  | Constraint => exact SaysSame.Constraint_order hs hr
  | Rule => exact SaysSame.Rule_order hs hr
  | DesignRules => exact SaysSame.DesignRules_order hs hr
  | Model => exact absurd rfl hm
  | DrillDefinition => exact SaysSame.DrillDefinition_order hs hr
  | PadOptions => exact SaysSame.PadOptions_order hs hr
  | Pad => exact SaysSame.Pad_order hs hr
  | Footprint => exact SaysSame.Footprint_order hs hr
  | FpText => exact SaysSame.FpText_order hs hr
  | FpLine => exact SaysSame.FpLine_order hs hr
  | FpRect => exact SaysSame.FpRect_order hs hr
  | FpTextBox => exact SaysSame.FpTextBox_order hs hr
  | FpCircle => exact SaysSame.FpCircle_order hs hr
  | FpArc => exact SaysSame.FpArc_order hs hr
  | FpPoly => exact SaysSame.FpPoly_order hs hr
  | FpCurve => exact SaysSame.FpCurve_order hs hr
  | GrText => exact SaysSame.GrText_order hs hr
  | GrTextBox => exact SaysSame.GrTextBox_order hs hr
  | GrLine => exact SaysSame.GrLine_order hs hr
  | GrRect => exact SaysSame.GrRect_order hs hr
  | GrCircle => exact SaysSame.GrCircle_order hs hr
  | GrArc => exact SaysSame.GrArc_order hs hr
  | GrPoly => exact SaysSame.GrPoly_order hs hr
  | GrCurve => exact SaysSame.GrCurve_order hs hr
  | Library => exact SaysSame.Library_order hs hr
  | LibTable => exact SaysSame.LibTable_order hs hr
  | Junction => exact SaysSame.Junction_order hs hr
  | NoConnect => exact SaysSame.NoConnect_order hs hr
  | BusEntry => exact SaysSame.BusEntry_order hs hr
  | Connection => exact SaysSame.Connection_order hs hr
  | PolyLine => exact SaysSame.PolyLine_order hs hr
  | Text => exact SaysSame.Text_order hs hr
  | TextBox => exact SaysSame.TextBox_order hs hr
  | LocalLabel => exact SaysSame.LocalLabel_order hs hr
  | GlobalLabel => exact SaysSame.GlobalLabel_order hs hr
  | HierarchicalLabel => exact SaysSame.HierarchicalLabel_order hs hr
  | SymbolProjectPath => exact SaysSame.SymbolProjectPath_order hs hr
  | SymbolProjectInstance => exact SaysSame.SymbolProjectInstance_order hs hr
  | SchematicSymbol => exact SaysSame.SchematicSymbol_order hs hr
  | HierarchicalPin => exact SaysSame.HierarchicalPin_order hs hr
  | HierarchicalSheetProjectPath => exact SaysSame.HierarchicalSheetProjectPath_order hs hr
  | HierarchicalSheetProjectInstance => exact SaysSame.HierarchicalSheetProjectInstance_order hs hr
  | HierarchicalSheet => exact SaysSame.HierarchicalSheet_order hs hr
  | HierarchicalSheetInstance => exact SaysSame.HierarchicalSheetInstance_order hs hr
  | SymbolInstance => exact SaysSame.SymbolInstance_order hs hr
  | Rectangle => exact SaysSame.Rectangle_order hs hr
  | Arc => exact SaysSame.Arc_order hs hr
  | Circle => exact SaysSame.Circle_order hs hr
  | NetclassFlag => exact SaysSame.NetclassFlag_order hs hr
  | Schematic => exact SaysSame.Schematic_order hs hr
  | SyArc => exact SaysSame.SyArc_order hs hr
  | SyCircle => exact SaysSame.SyCircle_order hs hr
  | SyCurve => exact SaysSame.SyCurve_order hs hr
  | SyPolyLine => exact SaysSame.SyPolyLine_order hs hr
  | SyRect => exact SaysSame.SyRect_order hs hr
  | SyText => exact SaysSame.SyText_order hs hr
  | SyTextBox => exact SaysSame.SyTextBox_order hs hr
  | SymbolPin => exact SaysSame.SymbolPin_order hs hr
  | SymbolLib => exact SaysSame.SymbolLib_order hs hr
  | Symbol => exact SaysSame.Symbol_order hs hr
  | WksFont => exact SaysSame.WksFont_order hs hr
  | Bitmap => exact SaysSame.Bitmap_order hs hr
  | TbText => exact SaysSame.TbText_order hs hr
  | Setup => exact SaysSame.Setup_order hs hr
  | WorkSheet => exact SaysSame.WorkSheet_order hs hr
  | KeepoutSettings => exact SaysSame.KeepoutSettings_order hs hr
  | FillSettings => exact SaysSame.FillSettings_order hs hr
  | ZonePolygon => exact SaysSame.ZonePolygon_order hs hr
  | FilledPolygon => exact SaysSame.FilledPolygon_order hs hr
  | FillSegments => exact SaysSame.FillSegments_order hs hr
  | Zone => exact SaysSame.Zone_order hs hr
  | WksLine => exact SaysSame.WksLine_order hs hr
  | WksRect => exact SaysSame.WksRect_order hs hr
  | Primitives => exact absurd rfl hp

theorem SaysSame.child_same {k k' : ExpKind} {w : Str} (hk : k.Holds w k') {s : List Val} (hs : k.Start s) (xs ys : List Val) {r r' : List Val}
    (h : k'.Same (.list (.str w :: r)) (.list (.str w :: r'))) :
    k.Same (.list (s ++ (xs ++ .list (.str w :: r) :: ys))) (.list (s ++ (xs ++ .list (.str w :: r') :: ys))) := by
  cases hk with
  | Effects_font => exact SaysSame.Effects_font hs xs ys h
  | Property_effects => exact SaysSame.Property_effects hs xs ys h
  | RenderCache_polygon => exact SaysSame.RenderCache_polygon hs xs ys h
  | LibTable_lib => exact SaysSame.LibTable_lib hs xs ys h
  | Rule_constraint => exact SaysSame.Rule_constraint hs xs ys h
  | DesignRules_rule => exact SaysSame.DesignRules_rule hs xs ys h
  | TbText_font => exact SaysSame.TbText_font hs xs ys h
  | WorkSheet_setup => exact SaysSame.WorkSheet_setup hs xs ys h
  | WorkSheet_tbtext => exact SaysSame.WorkSheet_tbtext hs xs ys h
  | WorkSheet_bitmap => exact SaysSame.WorkSheet_bitmap hs xs ys h
  | SyArc_stroke => exact SaysSame.SyArc_stroke hs xs ys h
  | SyArc_fill => exact SaysSame.SyArc_fill hs xs ys h
  | SyCircle_stroke => exact SaysSame.SyCircle_stroke hs xs ys h
  | SyCircle_fill => exact SaysSame.SyCircle_fill hs xs ys h
  | SyCurve_stroke => exact SaysSame.SyCurve_stroke hs xs ys h
  | SyCurve_fill => exact SaysSame.SyCurve_fill hs xs ys h
  | SyPolyLine_stroke => exact SaysSame.SyPolyLine_stroke hs xs ys h
  | SyPolyLine_fill => exact SaysSame.SyPolyLine_fill hs xs ys h
  | SyRect_stroke => exact SaysSame.SyRect_stroke hs xs ys h
  | SyRect_fill => exact SaysSame.SyRect_fill hs xs ys h
  | SyText_effects => exact SaysSame.SyText_effects hs xs ys h
  | SyTextBox_effects => exact SaysSame.SyTextBox_effects hs xs ys h
  | SyTextBox_stroke => exact SaysSame.SyTextBox_stroke hs xs ys h
  | SyTextBox_fill => exact SaysSame.SyTextBox_fill hs xs ys h
  | SymbolLib_symbol => exact SaysSame.SymbolLib_symbol hs xs ys h
  | BusEntry_stroke => exact SaysSame.BusEntry_stroke hs xs ys h
  | Connection_stroke => exact SaysSame.Connection_stroke hs xs ys h
  | PolyLine_stroke => exact SaysSame.PolyLine_stroke hs xs ys h
  | Text_effects => exact SaysSame.Text_effects hs xs ys h
  | TextBox_effects => exact SaysSame.TextBox_effects hs xs ys h
  | TextBox_stroke => exact SaysSame.TextBox_stroke hs xs ys h
  | TextBox_fill => exact SaysSame.TextBox_fill hs xs ys h
  | LocalLabel_effects => exact SaysSame.LocalLabel_effects hs xs ys h
  | GlobalLabel_effects => exact SaysSame.GlobalLabel_effects hs xs ys h
  | GlobalLabel_property => exact SaysSame.GlobalLabel_property hs xs ys h
  | HierarchicalLabel_effects => exact SaysSame.HierarchicalLabel_effects hs xs ys h
  | SymbolProjectInstance_path => exact SaysSame.SymbolProjectInstance_path hs xs ys h
  | SchematicSymbol_property => exact SaysSame.SchematicSymbol_property hs xs ys h
  | HierarchicalPin_effects => exact SaysSame.HierarchicalPin_effects hs xs ys h
  | HierarchicalSheetProjectInstance_path => exact SaysSame.HierarchicalSheetProjectInstance_path hs xs ys h
  | HierarchicalSheet_stroke => exact SaysSame.HierarchicalSheet_stroke hs xs ys h
  | HierarchicalSheet_pin => exact SaysSame.HierarchicalSheet_pin hs xs ys h
  | Rectangle_stroke => exact SaysSame.Rectangle_stroke hs xs ys h
  | Rectangle_fill => exact SaysSame.Rectangle_fill hs xs ys h
  | Arc_stroke => exact SaysSame.Arc_stroke hs xs ys h
  | Arc_fill => exact SaysSame.Arc_fill hs xs ys h
  | Circle_stroke => exact SaysSame.Circle_stroke hs xs ys h
  | Circle_fill => exact SaysSame.Circle_fill hs xs ys h
  | NetclassFlag_effects => exact SaysSame.NetclassFlag_effects hs xs ys h
  | NetclassFlag_property => exact SaysSame.NetclassFlag_property hs xs ys h
  | Schematic_title_block => exact SaysSame.Schematic_title_block hs xs ys h
  | Schematic_junction => exact SaysSame.Schematic_junction hs xs ys h
  | Schematic_no_connect => exact SaysSame.Schematic_no_connect hs xs ys h
  | Schematic_bus_entry => exact SaysSame.Schematic_bus_entry hs xs ys h
  | Schematic_polyline => exact SaysSame.Schematic_polyline hs xs ys h
  | Schematic_arc => exact SaysSame.Schematic_arc hs xs ys h
  | Schematic_circle => exact SaysSame.Schematic_circle hs xs ys h
  | Schematic_rectangle => exact SaysSame.Schematic_rectangle hs xs ys h
  | Schematic_image => exact SaysSame.Schematic_image hs xs ys h
  | Schematic_text => exact SaysSame.Schematic_text hs xs ys h
  | Schematic_text_box => exact SaysSame.Schematic_text_box hs xs ys h
  | Schematic_label => exact SaysSame.Schematic_label hs xs ys h
  | Schematic_global_label => exact SaysSame.Schematic_global_label hs xs ys h
  | Schematic_hierarchical_label => exact SaysSame.Schematic_hierarchical_label hs xs ys h
  | Schematic_netclass_flag => exact SaysSame.Schematic_netclass_flag hs xs ys h
  | Schematic_symbol => exact SaysSame.Schematic_symbol hs xs ys h
  | Schematic_sheet => exact SaysSame.Schematic_sheet hs xs ys h
  | GrText_effects => exact SaysSame.GrText_effects hs xs ys h
  | GrText_render_cache => exact SaysSame.GrText_render_cache hs xs ys h
  | GrTextBox_effects => exact SaysSame.GrTextBox_effects hs xs ys h
  | GrTextBox_stroke => exact SaysSame.GrTextBox_stroke hs xs ys h
  | GrTextBox_render_cache => exact SaysSame.GrTextBox_render_cache hs xs ys h
  | FpText_effects => exact SaysSame.FpText_effects hs xs ys h
  | FpText_render_cache => exact SaysSame.FpText_render_cache hs xs ys h
  | FpLine_stroke => exact SaysSame.FpLine_stroke hs xs ys h
  | FpRect_stroke => exact SaysSame.FpRect_stroke hs xs ys h
  | FpTextBox_effects => exact SaysSame.FpTextBox_effects hs xs ys h
  | FpTextBox_stroke => exact SaysSame.FpTextBox_stroke hs xs ys h
  | FpTextBox_render_cache => exact SaysSame.FpTextBox_render_cache hs xs ys h
  | FpCircle_stroke => exact SaysSame.FpCircle_stroke hs xs ys h
  | FpArc_stroke => exact SaysSame.FpArc_stroke hs xs ys h
  | FpPoly_stroke => exact SaysSame.FpPoly_stroke hs xs ys h
  | FpCurve_stroke => exact SaysSame.FpCurve_stroke hs xs ys h
  | Zone_keepout => exact SaysSame.Zone_keepout hs xs ys h
  | Zone_fill => exact SaysSame.Zone_fill hs xs ys h
  | Zone_polygon => exact SaysSame.Zone_polygon hs xs ys h
  | Zone_filled_polygon => exact SaysSame.Zone_filled_polygon hs xs ys h
  | Zone_fill_segments => exact SaysSame.Zone_fill_segments hs xs ys h
  | Pad_drill => exact SaysSame.Pad_drill hs xs ys h
  | Pad_options => exact SaysSame.Pad_options hs xs ys h
  | Footprint_model => exact SaysSame.Footprint_model hs xs ys h
  | Footprint_fp_text => exact SaysSame.Footprint_fp_text hs xs ys h
  | Footprint_fp_text_box => exact SaysSame.Footprint_fp_text_box hs xs ys h
  | Footprint_fp_line => exact SaysSame.Footprint_fp_line hs xs ys h
  | Footprint_fp_rect => exact SaysSame.Footprint_fp_rect hs xs ys h
  | Footprint_fp_circle => exact SaysSame.Footprint_fp_circle hs xs ys h
  | Footprint_fp_arc => exact SaysSame.Footprint_fp_arc hs xs ys h
  | Footprint_fp_poly => exact SaysSame.Footprint_fp_poly hs xs ys h
  | Footprint_fp_curve => exact SaysSame.Footprint_fp_curve hs xs ys h
  | Footprint_image => exact SaysSame.Footprint_image hs xs ys h
  | Footprint_pad => exact SaysSame.Footprint_pad hs xs ys h
  | Footprint_zone => exact SaysSame.Footprint_zone hs xs ys h
  | Footprint_group => exact SaysSame.Footprint_group hs xs ys h
  | SetupData_stackup => exact SaysSame.SetupData_stackup hs xs ys h
  | SetupData_pcbplotparams => exact SaysSame.SetupData_pcbplotparams hs xs ys h
  | Dimension_gr_text => exact SaysSame.Dimension_gr_text hs xs ys h
  | Dimension_format => exact SaysSame.Dimension_format hs xs ys h
  | Dimension_style => exact SaysSame.Dimension_style hs xs ys h
  | Symbol_symbol => exact SaysSame.Symbol_symbol hs xs ys h
  | Symbol_property => exact SaysSame.Symbol_property hs xs ys h
  | Symbol_pin => exact SaysSame.Symbol_pin hs xs ys h
  | Symbol_arc => exact SaysSame.Symbol_arc hs xs ys h
  | Symbol_circle => exact SaysSame.Symbol_circle hs xs ys h
  | Symbol_curve => exact SaysSame.Symbol_curve hs xs ys h
  | Symbol_polyline => exact SaysSame.Symbol_polyline hs xs ys h
  | Symbol_rectangle => exact SaysSame.Symbol_rectangle hs xs ys h
  | Symbol_text => exact SaysSame.Symbol_text hs xs ys h
  | Symbol_text_box => exact SaysSame.Symbol_text_box hs xs ys h
  | Board_general => exact SaysSame.Board_general hs xs ys h
  | Board_title_block => exact SaysSame.Board_title_block hs xs ys h
  | Board_setup => exact SaysSame.Board_setup hs xs ys h
  | Board_footprint => exact SaysSame.Board_footprint hs xs ys h
  | Board_gr_text => exact SaysSame.Board_gr_text hs xs ys h
  | Board_gr_text_box => exact SaysSame.Board_gr_text_box hs xs ys h
  | Board_gr_line => exact SaysSame.Board_gr_line hs xs ys h
  | Board_gr_rect => exact SaysSame.Board_gr_rect hs xs ys h
  | Board_gr_circle => exact SaysSame.Board_gr_circle hs xs ys h
  | Board_gr_arc => exact SaysSame.Board_gr_arc hs xs ys h
  | Board_gr_poly => exact SaysSame.Board_gr_poly hs xs ys h
  | Board_gr_curve => exact SaysSame.Board_gr_curve hs xs ys h
  | Board_image => exact SaysSame.Board_image hs xs ys h
  | Board_dimension => exact SaysSame.Board_dimension hs xs ys h
  | Board_target => exact SaysSame.Board_target hs xs ys h
  | Board_segment => exact SaysSame.Board_segment hs xs ys h
  | Board_arc => exact SaysSame.Board_arc hs xs ys h
  | Board_via => exact SaysSame.Board_via hs xs ys h
  | Board_zone => exact SaysSame.Board_zone hs xs ys h
  | Board_group => exact SaysSame.Board_group hs xs ys h
  | Schematic_wire => exact SaysSame.Schematic_wire hs xs ys h
  | Schematic_bus => exact SaysSame.Schematic_bus hs xs ys h
  | WorkSheet_line => exact SaysSame.WorkSheet_line hs xs ys h
  | WorkSheet_rect => exact SaysSame.WorkSheet_rect hs xs ys h
  | HierarchicalSheet_property => exact SaysSame.HierarchicalSheet_property hs xs ys h
  | Pad_primitives => exact SaysSame.Pad_primitives hs xs ys h
  | Primitives_gr_text => exact SaysSame.Primitives_gr_text hs xs ys h
  | Primitives_gr_text_box => exact SaysSame.Primitives_gr_text_box hs xs ys h
  | Primitives_gr_line => exact SaysSame.Primitives_gr_line hs xs ys h
  | Primitives_gr_rect => exact SaysSame.Primitives_gr_rect hs xs ys h
  | Primitives_gr_circle => exact SaysSame.Primitives_gr_circle hs xs ys h
  | Primitives_gr_arc => exact SaysSame.Primitives_gr_arc hs xs ys h
  | Primitives_gr_poly => exact SaysSame.Primitives_gr_poly hs xs ys h
  | Primitives_gr_curve => exact SaysSame.Primitives_gr_curve hs xs ys h

theorem SaysSame.grandchild_same {k k' : ExpKind} {w : Str} (hk : k.HoldsAll w k') {s : List Val} (hs : k.Start s) (xs ys as bs : List Val) {v v' : Val}
    (h : k'.Same v v') :
    k.Same (.list (s ++ (xs ++ .list (.str w :: (as ++ v :: bs)) :: ys))) (.list (s ++ (xs ++ .list (.str w :: (as ++ v' :: bs)) :: ys))) := by
  cases hk with
  | SchematicSymbol_instances => exact SaysSame.SchematicSymbol_instances hs xs ys as bs h
  | HierarchicalSheet_instances => exact SaysSame.HierarchicalSheet_instances hs xs ys as bs h
  | Schematic_lib_symbols => exact SaysSame.Schematic_lib_symbols hs xs ys as bs h
  | Schematic_sheet_instances => exact SaysSame.Schematic_sheet_instances hs xs ys as bs h
  | Schematic_symbol_instances => exact SaysSame.Schematic_symbol_instances hs xs ys as bs h

/-- Expressions that say the same are loaded as the same object, or both are rejected (94 kinds of expressions). -/
theorem SaysSame.same {k : ExpKind} {v w : Val} (h : SaysSame k v w) : k.Same v w := by
  induction h with
  | refl v => exact .refl _ v
  | symm _ ih => exact ih.symm
  | trans _ _ ih ih' => exact ih.trans ih'
  | unknown hs xs ys hu => exact SaysSame.unknown_same hs xs ys hu
  | order hs hm hp hr => exact SaysSame.order_same hs hm hp hr
  | child hk hs xs ys _ ih => exact SaysSame.child_same hk hs xs ys ih
  | grandchild hk hs xs ys as bs _ ih => exact SaysSame.grandchild_same hk hs xs ys as bs ih

end Kiutils
