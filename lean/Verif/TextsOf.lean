import Verif.Texts
import Verif.Model.Board
import Verif.Model.Schematic
import Verif.Model.Symbol
import Verif.Model.Dru
import Verif.Model.Wks
import Verif.Model.Libraries
/-!
# The strings of the objects of each class

Part of the specification of C62 and C63: `texts o` for every class, all attributes but the path of the file.
-/
namespace Kiutils

/-! ## Model/Common.lean -/

derive_texts Position

derive_texts Coordinate

derive_texts ColorRGBA

derive_texts Stroke

derive_texts Font

derive_texts Justify

derive_texts Effects

derive_texts Net

derive_texts Group

derive_texts PageSettings

derive_texts TitleBlock

derive_texts Property

derive_texts RenderCachePolygon

derive_texts RenderCache

derive_texts Fill

derive_texts Image

/-! ## Model/Libraries.lean -/

derive_texts Library

derive_texts LibTable

/-! ## Model/Dru.lean -/

derive_texts Constraint

derive_texts Rule

derive_texts DesignRules

/-! ## Model/Wks.lean -/

derive_texts WksFontSize

derive_texts WksFont

derive_texts WksPosition

derive_texts WksShape

derive_texts Bitmap

derive_texts TbText

derive_texts TextSize

derive_texts Setup

instance : Texts WksItem := ⟨fun
  | .line a => texts a
  | .rect a => texts a
  | .polygon => []
  | .bitmap a => texts a
  | .tbtext a => texts a⟩

theorem WksItem.line_case {Q : Str → Prop} {a} (h : Only Q (WksItem.line a)) : Only Q a := h
theorem WksItem.rect_case {Q : Str → Prop} {a} (h : Only Q (WksItem.rect a)) : Only Q a := h
theorem WksItem.bitmap_case {Q : Str → Prop} {a} (h : Only Q (WksItem.bitmap a)) : Only Q a := h
theorem WksItem.tbtext_case {Q : Str → Prop} {a} (h : Only Q (WksItem.tbtext a)) : Only Q a := h
theorem WksItem.line_of {Q : Str → Prop} {a} (h : Only Q a) : Only Q (WksItem.line a) := h
theorem WksItem.rect_of {Q : Str → Prop} {a} (h : Only Q a) : Only Q (WksItem.rect a) := h
theorem WksItem.polygon_of {Q : Str → Prop} : Only Q WksItem.polygon := fun _ h => nomatch h
theorem WksItem.bitmap_of {Q : Str → Prop} {a} (h : Only Q a) : Only Q (WksItem.bitmap a) := h
theorem WksItem.tbtext_of {Q : Str → Prop} {a} (h : Only Q a) : Only Q (WksItem.tbtext a) := h

derive_texts WorkSheet

/-! ## Model/SyItems.lean -/

derive_texts SyArc

derive_texts SyCircle

derive_texts SyCurve

derive_texts SyPolyLine

derive_texts SyRect

derive_texts SyText

derive_texts SyTextBox

instance : Texts SyItem := ⟨fun
  | .arc a => texts a
  | .circle a => texts a
  | .curve a => texts a
  | .polyline a => texts a
  | .rect a => texts a
  | .text a => texts a
  | .textBox a => texts a⟩

theorem SyItem.arc_case {Q : Str → Prop} {a} (h : Only Q (SyItem.arc a)) : Only Q a := h
theorem SyItem.circle_case {Q : Str → Prop} {a} (h : Only Q (SyItem.circle a)) : Only Q a := h
theorem SyItem.curve_case {Q : Str → Prop} {a} (h : Only Q (SyItem.curve a)) : Only Q a := h
theorem SyItem.polyline_case {Q : Str → Prop} {a} (h : Only Q (SyItem.polyline a)) : Only Q a := h
theorem SyItem.rect_case {Q : Str → Prop} {a} (h : Only Q (SyItem.rect a)) : Only Q a := h
theorem SyItem.text_case {Q : Str → Prop} {a} (h : Only Q (SyItem.text a)) : Only Q a := h
theorem SyItem.textBox_case {Q : Str → Prop} {a} (h : Only Q (SyItem.textBox a)) : Only Q a := h
theorem SyItem.arc_of {Q : Str → Prop} {a} (h : Only Q a) : Only Q (SyItem.arc a) := h
theorem SyItem.circle_of {Q : Str → Prop} {a} (h : Only Q a) : Only Q (SyItem.circle a) := h
theorem SyItem.curve_of {Q : Str → Prop} {a} (h : Only Q a) : Only Q (SyItem.curve a) := h
theorem SyItem.polyline_of {Q : Str → Prop} {a} (h : Only Q a) : Only Q (SyItem.polyline a) := h
theorem SyItem.rect_of {Q : Str → Prop} {a} (h : Only Q a) : Only Q (SyItem.rect a) := h
theorem SyItem.text_of {Q : Str → Prop} {a} (h : Only Q a) : Only Q (SyItem.text a) := h
theorem SyItem.textBox_of {Q : Str → Prop} {a} (h : Only Q a) : Only Q (SyItem.textBox a) := h

/-! ## Model/Symbol.lean -/

derive_texts SymbolAlternativePin

derive_texts SymbolPin

mutual
/-- The strings in a symbol; symbols contain symbols. -/
def Symbol.strings : Symbol → List Str
  | ⟨a, b, c, d, e, f, g, h, i, j, k, l, m, n, p, us⟩ =>
    texts a ++ (texts b ++ (texts c ++ (texts d ++ (texts e ++ (texts f ++ (texts g ++ (texts h ++ (texts i ++ (texts j ++ (texts k ++ (texts l ++ (texts m ++ (texts n ++ (texts p ++ Symbol.stringsL us))))))))))))))
/-- The strings in a list of symbols. -/
def Symbol.stringsL : List Symbol → List Str
  | [] => []
  | u :: r => u.strings ++ Symbol.stringsL r
end
instance : Texts Symbol := ⟨Symbol.strings⟩
theorem Symbol.stringsL_eq (l : List Symbol) : Symbol.stringsL l = texts l := by
  induction l with
  | nil => rfl
  | cons u r ih => rw [Symbol.stringsL, ih]; rfl
theorem Symbol.libraryNickname_only {Q : Str → Prop} {o : Symbol} (h : Only Q o) : Only Q o.libraryNickname := by
  cases o
  exact fun s hs => h s (by show s ∈ Symbol.strings _; rw [Symbol.strings]; exact List.mem_append_left _ hs)
theorem Symbol.entryName_only {Q : Str → Prop} {o : Symbol} (h : Only Q o) : Only Q o.entryName := by
  cases o
  exact fun s hs => h s (by show s ∈ Symbol.strings _; rw [Symbol.strings]; exact List.mem_append_right _ (List.mem_append_left _ hs))
theorem Symbol.unitId_only {Q : Str → Prop} {o : Symbol} (h : Only Q o) : Only Q o.unitId := by
  cases o
  exact fun s hs => h s (by show s ∈ Symbol.strings _; rw [Symbol.strings]; exact List.mem_append_right _ (List.mem_append_right _ (List.mem_append_left _ hs)))
theorem Symbol.styleId_only {Q : Str → Prop} {o : Symbol} (h : Only Q o) : Only Q o.styleId := by
  cases o
  exact fun s hs => h s (by show s ∈ Symbol.strings _; rw [Symbol.strings]; exact List.mem_append_right _ (List.mem_append_right _ (List.mem_append_right _ (List.mem_append_left _ hs))))
theorem Symbol.extends__only {Q : Str → Prop} {o : Symbol} (h : Only Q o) : Only Q o.extends_ := by
  cases o
  exact fun s hs => h s (by show s ∈ Symbol.strings _; rw [Symbol.strings]; exact List.mem_append_right _ (List.mem_append_right _ (List.mem_append_right _ (List.mem_append_right _ (List.mem_append_left _ hs)))))
theorem Symbol.hidePinNumbers_only {Q : Str → Prop} {o : Symbol} (h : Only Q o) : Only Q o.hidePinNumbers := by
  cases o
  exact fun s hs => h s (by show s ∈ Symbol.strings _; rw [Symbol.strings]; exact List.mem_append_right _ (List.mem_append_right _ (List.mem_append_right _ (List.mem_append_right _ (List.mem_append_right _ (List.mem_append_left _ hs))))))
theorem Symbol.pinNames_only {Q : Str → Prop} {o : Symbol} (h : Only Q o) : Only Q o.pinNames := by
  cases o
  exact fun s hs => h s (by show s ∈ Symbol.strings _; rw [Symbol.strings]; exact List.mem_append_right _ (List.mem_append_right _ (List.mem_append_right _ (List.mem_append_right _ (List.mem_append_right _ (List.mem_append_right _ (List.mem_append_left _ hs)))))))
theorem Symbol.pinNamesHide_only {Q : Str → Prop} {o : Symbol} (h : Only Q o) : Only Q o.pinNamesHide := by
  cases o
  exact fun s hs => h s (by show s ∈ Symbol.strings _; rw [Symbol.strings]; exact List.mem_append_right _ (List.mem_append_right _ (List.mem_append_right _ (List.mem_append_right _ (List.mem_append_right _ (List.mem_append_right _ (List.mem_append_right _ (List.mem_append_left _ hs))))))))
theorem Symbol.pinNamesOffset_only {Q : Str → Prop} {o : Symbol} (h : Only Q o) : Only Q o.pinNamesOffset := by
  cases o
  exact fun s hs => h s (by show s ∈ Symbol.strings _; rw [Symbol.strings]; exact List.mem_append_right _ (List.mem_append_right _ (List.mem_append_right _ (List.mem_append_right _ (List.mem_append_right _ (List.mem_append_right _ (List.mem_append_right _ (List.mem_append_right _ (List.mem_append_left _ hs)))))))))
theorem Symbol.inBom_only {Q : Str → Prop} {o : Symbol} (h : Only Q o) : Only Q o.inBom := by
  cases o
  exact fun s hs => h s (by show s ∈ Symbol.strings _; rw [Symbol.strings]; exact List.mem_append_right _ (List.mem_append_right _ (List.mem_append_right _ (List.mem_append_right _ (List.mem_append_right _ (List.mem_append_right _ (List.mem_append_right _ (List.mem_append_right _ (List.mem_append_right _ (List.mem_append_left _ hs))))))))))
theorem Symbol.onBoard_only {Q : Str → Prop} {o : Symbol} (h : Only Q o) : Only Q o.onBoard := by
  cases o
  exact fun s hs => h s (by show s ∈ Symbol.strings _; rw [Symbol.strings]; exact List.mem_append_right _ (List.mem_append_right _ (List.mem_append_right _ (List.mem_append_right _ (List.mem_append_right _ (List.mem_append_right _ (List.mem_append_right _ (List.mem_append_right _ (List.mem_append_right _ (List.mem_append_right _ (List.mem_append_left _ hs)))))))))))
theorem Symbol.isPower_only {Q : Str → Prop} {o : Symbol} (h : Only Q o) : Only Q o.isPower := by
  cases o
  exact fun s hs => h s (by show s ∈ Symbol.strings _; rw [Symbol.strings]; exact List.mem_append_right _ (List.mem_append_right _ (List.mem_append_right _ (List.mem_append_right _ (List.mem_append_right _ (List.mem_append_right _ (List.mem_append_right _ (List.mem_append_right _ (List.mem_append_right _ (List.mem_append_right _ (List.mem_append_right _ (List.mem_append_left _ hs))))))))))))
theorem Symbol.properties_only {Q : Str → Prop} {o : Symbol} (h : Only Q o) : Only Q o.properties := by
  cases o
  exact fun s hs => h s (by show s ∈ Symbol.strings _; rw [Symbol.strings]; exact List.mem_append_right _ (List.mem_append_right _ (List.mem_append_right _ (List.mem_append_right _ (List.mem_append_right _ (List.mem_append_right _ (List.mem_append_right _ (List.mem_append_right _ (List.mem_append_right _ (List.mem_append_right _ (List.mem_append_right _ (List.mem_append_right _ (List.mem_append_left _ hs)))))))))))))
theorem Symbol.graphicItems_only {Q : Str → Prop} {o : Symbol} (h : Only Q o) : Only Q o.graphicItems := by
  cases o
  exact fun s hs => h s (by show s ∈ Symbol.strings _; rw [Symbol.strings]; exact List.mem_append_right _ (List.mem_append_right _ (List.mem_append_right _ (List.mem_append_right _ (List.mem_append_right _ (List.mem_append_right _ (List.mem_append_right _ (List.mem_append_right _ (List.mem_append_right _ (List.mem_append_right _ (List.mem_append_right _ (List.mem_append_right _ (List.mem_append_right _ (List.mem_append_left _ hs))))))))))))))
theorem Symbol.pins_only {Q : Str → Prop} {o : Symbol} (h : Only Q o) : Only Q o.pins := by
  cases o
  exact fun s hs => h s (by show s ∈ Symbol.strings _; rw [Symbol.strings]; exact List.mem_append_right _ (List.mem_append_right _ (List.mem_append_right _ (List.mem_append_right _ (List.mem_append_right _ (List.mem_append_right _ (List.mem_append_right _ (List.mem_append_right _ (List.mem_append_right _ (List.mem_append_right _ (List.mem_append_right _ (List.mem_append_right _ (List.mem_append_right _ (List.mem_append_right _ (List.mem_append_left _ hs)))))))))))))))
theorem Symbol.units_only {Q : Str → Prop} {o : Symbol} (h : Only Q o) : Only Q o.units := by
  cases o
  exact fun s hs => h s (by show s ∈ Symbol.strings _; rw [Symbol.strings, Symbol.stringsL_eq]; exact List.mem_append_right _ (List.mem_append_right _ (List.mem_append_right _ (List.mem_append_right _ (List.mem_append_right _ (List.mem_append_right _ (List.mem_append_right _ (List.mem_append_right _ (List.mem_append_right _ (List.mem_append_right _ (List.mem_append_right _ (List.mem_append_right _ (List.mem_append_right _ (List.mem_append_right _ (List.mem_append_right _ (hs))))))))))))))))
theorem Symbol.of_only {Q : Str → Prop} {o : Symbol} (h0 : Only Q o.libraryNickname) (h1 : Only Q o.entryName) (h2 : Only Q o.unitId) (h3 : Only Q o.styleId) (h4 : Only Q o.extends_) (h5 : Only Q o.hidePinNumbers) (h6 : Only Q o.pinNames) (h7 : Only Q o.pinNamesHide) (h8 : Only Q o.pinNamesOffset) (h9 : Only Q o.inBom) (h10 : Only Q o.onBoard) (h11 : Only Q o.isPower) (h12 : Only Q o.properties) (h13 : Only Q o.graphicItems) (h14 : Only Q o.pins) (h15 : Only Q o.units) : Only Q o := by
  cases o
  intro s hs
  replace hs : s ∈ Symbol.strings _ := hs
  rw [Symbol.strings, Symbol.stringsL_eq] at hs
  exact (List.mem_append.1 hs).elim (h0 s) fun hs => (List.mem_append.1 hs).elim (h1 s) fun hs => (List.mem_append.1 hs).elim (h2 s) fun hs => (List.mem_append.1 hs).elim (h3 s) fun hs => (List.mem_append.1 hs).elim (h4 s) fun hs => (List.mem_append.1 hs).elim (h5 s) fun hs => (List.mem_append.1 hs).elim (h6 s) fun hs => (List.mem_append.1 hs).elim (h7 s) fun hs => (List.mem_append.1 hs).elim (h8 s) fun hs => (List.mem_append.1 hs).elim (h9 s) fun hs => (List.mem_append.1 hs).elim (h10 s) fun hs => (List.mem_append.1 hs).elim (h11 s) fun hs => (List.mem_append.1 hs).elim (h12 s) fun hs => (List.mem_append.1 hs).elim (h13 s) fun hs => (List.mem_append.1 hs).elim (h14 s) fun hs => h15 s hs

derive_texts SymbolLib

/-! ## Model/SchItems.lean -/

instance : Texts JunctionColor := ⟨fun
  | .rgba a => texts a
  | .raw a => texts a⟩

theorem JunctionColor.rgba_case {Q : Str → Prop} {a} (h : Only Q (JunctionColor.rgba a)) : Only Q a := h
theorem JunctionColor.raw_case {Q : Str → Prop} {a} (h : Only Q (JunctionColor.raw a)) : Only Q a := h
theorem JunctionColor.rgba_of {Q : Str → Prop} {a} (h : Only Q a) : Only Q (JunctionColor.rgba a) := h
theorem JunctionColor.raw_of {Q : Str → Prop} {a} (h : Only Q a) : Only Q (JunctionColor.raw a) := h

derive_texts Junction

derive_texts NoConnect

derive_texts BusEntry

derive_texts BusAlias

derive_texts Connection

derive_texts PolyLine

derive_texts Text

derive_texts TextBox

derive_texts LocalLabel

derive_texts GlobalLabel

derive_texts HierarchicalLabel

derive_texts SymbolProjectPath

derive_texts SymbolProjectInstance

derive_texts SchematicSymbol

derive_texts HierarchicalPin

derive_texts HierarchicalSheetProjectPath

derive_texts HierarchicalSheetProjectInstance

derive_texts HierarchicalSheet

derive_texts HierarchicalSheetInstance

derive_texts SymbolInstance

derive_texts Rectangle

derive_texts Arc

derive_texts Circle

derive_texts NetclassFlag

/-! ## Model/Schematic.lean -/

instance : Texts SchGraphic := ⟨fun
  | .connection a => texts a
  | .polyline a => texts a⟩

theorem SchGraphic.connection_case {Q : Str → Prop} {a} (h : Only Q (SchGraphic.connection a)) : Only Q a := h
theorem SchGraphic.polyline_case {Q : Str → Prop} {a} (h : Only Q (SchGraphic.polyline a)) : Only Q a := h
theorem SchGraphic.connection_of {Q : Str → Prop} {a} (h : Only Q a) : Only Q (SchGraphic.connection a) := h
theorem SchGraphic.polyline_of {Q : Str → Prop} {a} (h : Only Q a) : Only Q (SchGraphic.polyline a) := h

instance : Texts SchShape := ⟨fun
  | .arc a => texts a
  | .circle a => texts a
  | .rectangle a => texts a⟩

theorem SchShape.arc_case {Q : Str → Prop} {a} (h : Only Q (SchShape.arc a)) : Only Q a := h
theorem SchShape.circle_case {Q : Str → Prop} {a} (h : Only Q (SchShape.circle a)) : Only Q a := h
theorem SchShape.rectangle_case {Q : Str → Prop} {a} (h : Only Q (SchShape.rectangle a)) : Only Q a := h
theorem SchShape.arc_of {Q : Str → Prop} {a} (h : Only Q a) : Only Q (SchShape.arc a) := h
theorem SchShape.circle_of {Q : Str → Prop} {a} (h : Only Q a) : Only Q (SchShape.circle a) := h
theorem SchShape.rectangle_of {Q : Str → Prop} {a} (h : Only Q a) : Only Q (SchShape.rectangle a) := h

set_option maxHeartbeats 1000000 in
derive_texts Schematic

/-! ## Model/GrItems.lean -/

derive_texts GrText

derive_texts GrTextBox

derive_texts GrLine

derive_texts GrRect

derive_texts GrCircle

derive_texts GrArc

derive_texts GrPoly

derive_texts GrCurve

instance : Texts GrItem := ⟨fun
  | .text a => texts a
  | .textBox a => texts a
  | .line a => texts a
  | .rect a => texts a
  | .circle a => texts a
  | .arc a => texts a
  | .poly a => texts a
  | .curve a => texts a
  | .image a => texts a⟩

theorem GrItem.text_case {Q : Str → Prop} {a} (h : Only Q (GrItem.text a)) : Only Q a := h
theorem GrItem.textBox_case {Q : Str → Prop} {a} (h : Only Q (GrItem.textBox a)) : Only Q a := h
theorem GrItem.line_case {Q : Str → Prop} {a} (h : Only Q (GrItem.line a)) : Only Q a := h
theorem GrItem.rect_case {Q : Str → Prop} {a} (h : Only Q (GrItem.rect a)) : Only Q a := h
theorem GrItem.circle_case {Q : Str → Prop} {a} (h : Only Q (GrItem.circle a)) : Only Q a := h
theorem GrItem.arc_case {Q : Str → Prop} {a} (h : Only Q (GrItem.arc a)) : Only Q a := h
theorem GrItem.poly_case {Q : Str → Prop} {a} (h : Only Q (GrItem.poly a)) : Only Q a := h
theorem GrItem.curve_case {Q : Str → Prop} {a} (h : Only Q (GrItem.curve a)) : Only Q a := h
theorem GrItem.image_case {Q : Str → Prop} {a} (h : Only Q (GrItem.image a)) : Only Q a := h
theorem GrItem.text_of {Q : Str → Prop} {a} (h : Only Q a) : Only Q (GrItem.text a) := h
theorem GrItem.textBox_of {Q : Str → Prop} {a} (h : Only Q a) : Only Q (GrItem.textBox a) := h
theorem GrItem.line_of {Q : Str → Prop} {a} (h : Only Q a) : Only Q (GrItem.line a) := h
theorem GrItem.rect_of {Q : Str → Prop} {a} (h : Only Q a) : Only Q (GrItem.rect a) := h
theorem GrItem.circle_of {Q : Str → Prop} {a} (h : Only Q a) : Only Q (GrItem.circle a) := h
theorem GrItem.arc_of {Q : Str → Prop} {a} (h : Only Q a) : Only Q (GrItem.arc a) := h
theorem GrItem.poly_of {Q : Str → Prop} {a} (h : Only Q a) : Only Q (GrItem.poly a) := h
theorem GrItem.curve_of {Q : Str → Prop} {a} (h : Only Q a) : Only Q (GrItem.curve a) := h
theorem GrItem.image_of {Q : Str → Prop} {a} (h : Only Q a) : Only Q (GrItem.image a) := h

/-! ## Model/FpItems.lean -/

derive_texts FpText

derive_texts FpLine

derive_texts FpRect

derive_texts FpTextBox

derive_texts FpCircle

derive_texts FpArc

derive_texts FpPoly

derive_texts FpCurve

instance : Texts FpItem := ⟨fun
  | .text a => texts a
  | .textBox a => texts a
  | .line a => texts a
  | .rect a => texts a
  | .circle a => texts a
  | .arc a => texts a
  | .poly a => texts a
  | .curve a => texts a
  | .image a => texts a⟩

theorem FpItem.text_case {Q : Str → Prop} {a} (h : Only Q (FpItem.text a)) : Only Q a := h
theorem FpItem.textBox_case {Q : Str → Prop} {a} (h : Only Q (FpItem.textBox a)) : Only Q a := h
theorem FpItem.line_case {Q : Str → Prop} {a} (h : Only Q (FpItem.line a)) : Only Q a := h
theorem FpItem.rect_case {Q : Str → Prop} {a} (h : Only Q (FpItem.rect a)) : Only Q a := h
theorem FpItem.circle_case {Q : Str → Prop} {a} (h : Only Q (FpItem.circle a)) : Only Q a := h
theorem FpItem.arc_case {Q : Str → Prop} {a} (h : Only Q (FpItem.arc a)) : Only Q a := h
theorem FpItem.poly_case {Q : Str → Prop} {a} (h : Only Q (FpItem.poly a)) : Only Q a := h
theorem FpItem.curve_case {Q : Str → Prop} {a} (h : Only Q (FpItem.curve a)) : Only Q a := h
theorem FpItem.image_case {Q : Str → Prop} {a} (h : Only Q (FpItem.image a)) : Only Q a := h
theorem FpItem.text_of {Q : Str → Prop} {a} (h : Only Q a) : Only Q (FpItem.text a) := h
theorem FpItem.textBox_of {Q : Str → Prop} {a} (h : Only Q a) : Only Q (FpItem.textBox a) := h
theorem FpItem.line_of {Q : Str → Prop} {a} (h : Only Q a) : Only Q (FpItem.line a) := h
theorem FpItem.rect_of {Q : Str → Prop} {a} (h : Only Q a) : Only Q (FpItem.rect a) := h
theorem FpItem.circle_of {Q : Str → Prop} {a} (h : Only Q a) : Only Q (FpItem.circle a) := h
theorem FpItem.arc_of {Q : Str → Prop} {a} (h : Only Q a) : Only Q (FpItem.arc a) := h
theorem FpItem.poly_of {Q : Str → Prop} {a} (h : Only Q a) : Only Q (FpItem.poly a) := h
theorem FpItem.curve_of {Q : Str → Prop} {a} (h : Only Q a) : Only Q (FpItem.curve a) := h
theorem FpItem.image_of {Q : Str → Prop} {a} (h : Only Q a) : Only Q (FpItem.image a) := h

/-! ## Model/Zones.lean -/

derive_texts KeepoutSettings

derive_texts FillSettings

derive_texts ZonePolygon

derive_texts FilledPolygon

derive_texts FillSegments

derive_texts Hatch

set_option maxHeartbeats 1000000 in
derive_texts Zone

/-! ## Model/Footprint.lean -/

derive_texts Attributes

derive_texts Model

derive_texts DrillDefinition

derive_texts PadOptions

set_option maxHeartbeats 1000000 in
derive_texts Pad

set_option maxHeartbeats 1000000 in
derive_texts Footprint

/-! ## Model/BrdItems.lean -/

derive_texts GeneralSettings

derive_texts LayerToken

derive_texts StackupSubLayer

derive_texts StackupLayer

derive_texts StackupLayer.State

derive_texts Stackup

set_option maxHeartbeats 1000000 in
derive_texts PlotSettings

derive_texts SetupData

derive_texts Segment

derive_texts Via

derive_texts TraceArc

derive_texts Target

/-! ## Model/Dimensions.lean -/

derive_texts DimensionFormat

derive_texts DimensionStyle

derive_texts Dimension

/-! ## Model/Board.lean -/

instance : Texts TraceItem := ⟨fun
  | .segment a => texts a
  | .arc a => texts a
  | .via a => texts a⟩

theorem TraceItem.segment_case {Q : Str → Prop} {a} (h : Only Q (TraceItem.segment a)) : Only Q a := h
theorem TraceItem.arc_case {Q : Str → Prop} {a} (h : Only Q (TraceItem.arc a)) : Only Q a := h
theorem TraceItem.via_case {Q : Str → Prop} {a} (h : Only Q (TraceItem.via a)) : Only Q a := h
theorem TraceItem.segment_of {Q : Str → Prop} {a} (h : Only Q a) : Only Q (TraceItem.segment a) := h
theorem TraceItem.arc_of {Q : Str → Prop} {a} (h : Only Q a) : Only Q (TraceItem.arc a) := h
theorem TraceItem.via_of {Q : Str → Prop} {a} (h : Only Q a) : Only Q (TraceItem.via a) := h

set_option maxHeartbeats 1000000 in
derive_texts Board

end Kiutils
