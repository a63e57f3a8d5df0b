import Verif.Proofs.ShiftAll
import Verif.Props.Samples
/-!
# C72: the argument `indent`

For every class: the text that `to_sexpr` returns for a larger `indent` is the text for a smaller one, with the difference put in front
of every line (`Shifted`, `Verif/Indent.lean`), if no string of the object contains a line feed. For the classes with a `Movable` in
`Verif/Indent.lean` this is so only for some objects: `_partial` is what holds, `_violated` shows an object that does not move as a
whole. `Props/IndentExact.lean` proves that no object outside of `_partial` does.
-/
namespace Kiutils

/-- Decides whether lines are moved. -/
def movedB (k : Nat) : List Str → List Str → Bool
  | [], [] => true
  | l :: r, l' :: r' => (l' == indents k ++ l || l.all (· == ' ') && l'.all (· == ' ')) && movedB k r r'
  | _, _ => false
theorem movedB_of {k : Nat} {r r' : List Str} (h : MovedLines k r r') : movedB k r r' = true := by
  induction h with
  | nil => rfl
  | moved _ ih => rw [movedB, ih]; simp
  | blank hl hl' _ ih =>
    rw [movedB, ih, List.all_eq_true.2 fun c hc => beq_iff_eq.2 (hl c hc), List.all_eq_true.2 fun c hc => beq_iff_eq.2 (hl' c hc)]
    simp
theorem not_shifted {k : Nat} {s s' : Str} (h : movedB k (lines s) (lines s') = false) : ¬ Shifted k s s' := fun hs =>
  absurd (movedB_of hs) (h ▸ Bool.false_ne_true)
def movedM (k : Nat) : PyM Str → PyM Str → Bool
  | .ok s, .ok s' => movedB k (lines s) (lines s')
  | _, _ => true
theorem not_shiftedM {k : Nat} {m m' : PyM Str} (h : movedM k m m' = false) : ¬ ShiftedM k m m' := fun hs => by
  match m, m', h, hs with
  | .ok _, .ok _, h, hs => exact not_shifted h hs
theorem oneLine_of {α : Type} [Texts α] {o : α} (h : (texts o).all (fun s => s.all (· != '\n')) = true) : Only OneLine o := fun s hs hc => by
  have := List.all_eq_true.1 (List.all_eq_true.1 h s hs) _ hc
  exact absurd this (by decide)

/-- A blank at the start of a line, then a text, then an empty line. -/
example : Shifted 2 k!" a\n\n(b)" k!"   a\n\n  (b)" := .moved (.blank nofun nofun (.moved .nil))
example : ¬ Shifted 2 k!" a\n(b)" k!"   a\n(b)" := not_shifted (by decide)
example : ¬ Shifted 2 k!"a b" k!"a   b" := not_shifted (by decide)

theorem single {α : Type} {P : α → Prop} {a : α} (h : P a) : ∀ p ∈ [a], P p := fun _ hp => List.mem_singleton.1 hp ▸ h

theorem noItem {α : Type} {P : α → Prop} : ∀ p ∈ ([] : List α), P p := nofun
theorem noCache {α : Type} {P : α → Prop} : ∀ p, (none : Option α) = some p → P p := nofun

def twoPoints : RenderCachePolygon := { pts := [samplePositionXY, samplePositionXY] }
def twoPointsCache : RenderCache := { sampleRenderCache with polygons := [twoPoints] }

theorem C72_Coordinate (o : Coordinate) (i k : Nat) (nl : Bool) (ho : Only OneLine o) : Shifted k (o.toSexpr i nl) (o.toSexpr (i + k) nl) :=
  (Coordinate.toSexpr_shift (k := k) ho rfl).shifted
example (i k : Nat) := C72_Coordinate sampleCoordinate i k true (oneLine_of (by decide +kernel))
theorem C72_ColorRGBA (o : ColorRGBA) (i k : Nat) (nl : Bool) (ho : Only OneLine o) : Shifted k (o.toSexpr i nl) (o.toSexpr (i + k) nl) :=
  (ColorRGBA.toSexpr_shift (k := k) ho rfl).shifted
example (i k : Nat) := C72_ColorRGBA sampleColorRGBA i k true (oneLine_of (by decide +kernel))
theorem C72_ColorRGBA_M (o : ColorRGBA) (i k : Nat) (nl : Bool) (ho : Only OneLine o) : ShiftedM k (o.toSexprM i nl) (o.toSexprM (i + k) nl) :=
  (ColorRGBA.toSexprM_shift (k := k) ho rfl).shifted
example (i k : Nat) := C72_ColorRGBA_M sampleColorRGBA i k true (oneLine_of (by decide +kernel))
theorem C72_Stroke (o : Stroke) (i k : Nat) (nl : Bool) (ho : Only OneLine o) : Shifted k (o.toSexpr i nl) (o.toSexpr (i + k) nl) :=
  (Stroke.toSexpr_shift (k := k) ho rfl).shifted
example (i k : Nat) := C72_Stroke sampleStroke i k true (oneLine_of (by decide +kernel))
theorem C72_Font (o : Font) (i k : Nat) (nl : Bool) (ho : Only OneLine o) : Shifted k (o.toSexpr i nl) (o.toSexpr (i + k) nl) :=
  (Font.toSexpr_shift (k := k) ho rfl).shifted
example (i k : Nat) := C72_Font sampleFont i k true (oneLine_of (by decide +kernel))
theorem C72_Justify (o : Justify) (i k : Nat) (nl : Bool) (ho : Only OneLine o) : Shifted k (o.toSexpr i nl) (o.toSexpr (i + k) nl) :=
  (Justify.toSexpr_shift (k := k) ho rfl).shifted
example (i k : Nat) := C72_Justify sampleJustify i k true (oneLine_of (by decide +kernel))
theorem C72_Effects (o : Effects) (i k : Nat) (nl : Bool) (ho : Only OneLine o) : Shifted k (o.toSexpr i nl) (o.toSexpr (i + k) nl) :=
  (Effects.toSexpr_shift (k := k) ho rfl).shifted
example (i k : Nat) := C72_Effects sampleEffects i k true (oneLine_of (by decide +kernel))
theorem C72_Net (o : Net) (i k : Nat) (nl : Bool) (ho : Only OneLine o) : Shifted k (o.toSexpr i nl) (o.toSexpr (i + k) nl) :=
  (Net.toSexpr_shift (k := k) ho rfl).shifted
example (i k : Nat) := C72_Net sampleNet i k true (oneLine_of (by decide +kernel))
theorem C72_Group (o : Group) (i k : Nat) (nl : Bool) (ho : Only OneLine o) : Shifted k (o.toSexpr i nl) (o.toSexpr (i + k) nl) :=
  (Group.toSexpr_shift (k := k) ho rfl).shifted
example (i k : Nat) := C72_Group sampleGroup i k true (oneLine_of (by decide +kernel))
theorem C72_PageSettings (o : PageSettings) (i k : Nat) (nl : Bool) (ho : Only OneLine o) : ShiftedM k (o.toSexpr i nl) (o.toSexpr (i + k) nl) :=
  (PageSettings.toSexpr_shift (k := k) ho rfl).shifted
example (i k : Nat) := C72_PageSettings samplePageSettings i k true (oneLine_of (by decide +kernel))
theorem C72_TitleBlock (o : TitleBlock) (i k : Nat) (nl : Bool) (ho : Only OneLine o) : Shifted k (o.toSexpr i nl) (o.toSexpr (i + k) nl) :=
  (TitleBlock.toSexpr_shift (k := k) ho rfl).shifted
example (i k : Nat) := C72_TitleBlock sampleTitleBlock i k true (oneLine_of (by decide +kernel))
theorem C72_Property (o : Property) (i k : Nat) (nl : Bool) (ho : Only OneLine o) : Shifted k (o.toSexpr i nl) (o.toSexpr (i + k) nl) :=
  (Property.toSexpr_shift (k := k) ho rfl).shifted
example (i k : Nat) := C72_Property sampleProperty i k true (oneLine_of (by decide +kernel))
theorem C72_RenderCachePolygon_partial (o : RenderCachePolygon) (i k : Nat) (nl : Bool) (ho : Only OneLine o) (hm : o.Movable) : Shifted k (o.toSexpr i nl) (o.toSexpr (i + k) nl) :=
  (RenderCachePolygon.toSexpr_shift (k := k) ho hm rfl).shifted
example (i k : Nat) := C72_RenderCachePolygon_partial sampleRenderCachePolygon i k true (oneLine_of (by decide +kernel)) (by decide : 1 ≤ 1)
theorem C72_RenderCachePolygon_violated : ∃ o : RenderCachePolygon, Only OneLine o ∧ ¬ Shifted 2 (o.toSexpr 0 true) (o.toSexpr 2 true) :=
  ⟨twoPoints, oneLine_of (by decide +kernel), not_shifted (by decide +kernel)⟩
theorem C72_RenderCache_partial (o : RenderCache) (i k : Nat) (nl : Bool) (ho : Only OneLine o) (hm : o.Movable) : Shifted k (o.toSexpr i nl) (o.toSexpr (i + k) nl) :=
  (RenderCache.toSexpr_shift (k := k) ho hm rfl).shifted
example (i k : Nat) := C72_RenderCache_partial sampleRenderCache i k true (oneLine_of (by decide +kernel)) (single (by decide : 1 ≤ 1))
theorem C72_RenderCache_violated : ∃ o : RenderCache, Only OneLine o ∧ ¬ Shifted 2 (o.toSexpr 0 true) (o.toSexpr 2 true) :=
  ⟨twoPointsCache, oneLine_of (by decide +kernel), not_shifted (by decide +kernel)⟩
theorem C72_Fill (o : Fill) (i k : Nat) (nl : Bool) (ho : Only OneLine o) : Shifted k (o.toSexpr i nl) (o.toSexpr (i + k) nl) :=
  (Fill.toSexpr_shift (k := k) ho rfl).shifted
example (i k : Nat) := C72_Fill sampleFill i k true (oneLine_of (by decide +kernel))
theorem C72_Image (o : Image) (i k : Nat) (nl : Bool) (ho : Only OneLine o) : Shifted k (o.toSexpr i nl) (o.toSexpr (i + k) nl) :=
  (Image.toSexpr_shift (k := k) ho rfl).shifted
example (i k : Nat) := C72_Image sampleImage i k true (oneLine_of (by decide +kernel))
theorem C72_Library (o : Library) (i k : Nat) (nl : Bool) (ho : Only OneLine o) : Shifted k (o.toSexpr i nl) (o.toSexpr (i + k) nl) :=
  (Library.toSexpr_shift (k := k) ho rfl).shifted
example (i k : Nat) := C72_Library sampleLibrary i k true (oneLine_of (by decide +kernel))
theorem C72_LibTable_partial (o : LibTable) (i k : Nat) (nl : Bool) (ho : Only OneLine o) (hm : o.Movable) : Shifted k (o.toSexpr i nl) (o.toSexpr (i + k) nl) :=
  (LibTable.toSexpr_shift (k := k) ho hm rfl).shifted
example (i k : Nat) := C72_LibTable_partial ({ sampleLibTable with libs := [] } : LibTable) i k true (oneLine_of (by decide +kernel)) rfl
theorem C72_LibTable_violated : ∃ o : LibTable, Only OneLine o ∧ ¬ Shifted 2 (o.toSexpr 0 true) (o.toSexpr 2 true) :=
  ⟨sampleLibTable, oneLine_of (by decide +kernel), not_shifted (by decide +kernel)⟩
theorem C72_Constraint (o : Constraint) (i k : Nat) (nl : Bool) (ho : Only OneLine o) : ShiftedM k (o.toSexpr i nl) (o.toSexpr (i + k) nl) :=
  (Constraint.toSexpr_shift (k := k) ho rfl).shifted
example (i k : Nat) := C72_Constraint sampleConstraint i k true (oneLine_of (by decide +kernel))
theorem C72_Rule_partial (o : Rule) (i k : Nat) (ho : Only OneLine o) (hm : o.Movable) : ShiftedM k (o.toSexpr i) (o.toSexpr (i + k)) :=
  (Rule.toSexpr_shift (k := k) ho hm rfl).shifted
example (i k : Nat) := C72_Rule_partial ({ sampleRule with constraints := [] } : Rule) i k (oneLine_of (by decide +kernel)) rfl
theorem C72_Rule_violated : ∃ o : Rule, Only OneLine o ∧ ¬ ShiftedM 2 (o.toSexpr 0) (o.toSexpr 2) :=
  ⟨sampleRule, oneLine_of (by decide +kernel), not_shiftedM (by decide +kernel)⟩
theorem C72_DesignRules_partial (o : DesignRules) (i k : Nat) (nl : Bool) (ho : Only OneLine o) (hm : o.Movable) : ShiftedM k (o.toSexpr i nl) (o.toSexpr (i + k) nl) :=
  (DesignRules.toSexpr_shift (k := k) ho hm rfl).shifted (d := true)
example (i k : Nat) := C72_DesignRules_partial ({ sampleDesignRules with rules := [] } : DesignRules) i k true (oneLine_of (by decide +kernel)) rfl
theorem C72_DesignRules_violated : ∃ o : DesignRules, Only OneLine o ∧ ¬ ShiftedM 2 (o.toSexpr 0 true) (o.toSexpr 2 true) :=
  ⟨sampleDesignRules, oneLine_of (by decide +kernel), not_shiftedM (by decide +kernel)⟩
theorem C72_WksFontSize (o : WksFontSize) (i k : Nat) (nl : Bool) (ho : Only OneLine o) : Shifted k (o.toSexpr i nl) (o.toSexpr (i + k) nl) :=
  (WksFontSize.toSexpr_shift (k := k) ho rfl).shifted
example (i k : Nat) := C72_WksFontSize sampleWksFontSize i k true (oneLine_of (by decide +kernel))
theorem C72_WksFont (o : WksFont) (i k : Nat) (nl : Bool) (ho : Only OneLine o) : Shifted k (o.toSexpr i nl) (o.toSexpr (i + k) nl) := by
  cases nl
  · unfold WksFont.toSexpr
    split
    · exact Sh.shifted (d := true) (by shifts)
    · exact Sh.shifted (d := false) (by shifts)
  · exact (WksFont.toSexpr_shift (k := k) ho rfl).shifted (d := true)
example (i k : Nat) := C72_WksFont sampleWksFont i k true (oneLine_of (by decide +kernel))
theorem C72_Bitmap_partial (o : Bitmap) (i k : Nat) (nl : Bool) (ho : Only OneLine o) (hm : o.Movable) : Shifted k (o.toSexpr i nl) (o.toSexpr (i + k) nl) :=
  (Bitmap.toSexpr_shift (k := k) ho hm rfl).shifted
example (i k : Nat) := C72_Bitmap_partial ({ sampleBitmap with comment := none } : Bitmap) i k true (oneLine_of (by decide +kernel)) rfl
theorem C72_Bitmap_violated : ∃ o : Bitmap, Only OneLine o ∧ ¬ Shifted 2 (o.toSexpr 0 true) (o.toSexpr 2 true) :=
  ⟨sampleBitmap, oneLine_of (by decide +kernel), not_shifted (by decide +kernel)⟩
theorem C72_TbText_partial (o : TbText) (i k : Nat) (nl : Bool) (ho : Only OneLine o) (hm : o.Movable) : Shifted k (o.toSexpr i nl) (o.toSexpr (i + k) nl) :=
  (TbText.toSexpr_shift (k := k) ho hm rfl).shifted
example (i k : Nat) := C72_TbText_partial ({ sampleTbText with comment := none } : TbText) i k true (oneLine_of (by decide +kernel)) rfl
theorem C72_TbText_violated : ∃ o : TbText, Only OneLine o ∧ ¬ Shifted 2 (o.toSexpr 0 true) (o.toSexpr 2 true) :=
  ⟨sampleTbText, oneLine_of (by decide +kernel), not_shifted (by decide +kernel)⟩
theorem C72_TextSize (o : TextSize) (i k : Nat) (nl : Bool) (ho : Only OneLine o) : Shifted k (o.toSexpr i nl) (o.toSexpr (i + k) nl) :=
  (TextSize.toSexpr_shift (k := k) ho rfl).shifted
example (i k : Nat) := C72_TextSize sampleTextSize i k true (oneLine_of (by decide +kernel))
theorem C72_Setup (o : Setup) (i k : Nat) (nl : Bool) (ho : Only OneLine o) : Shifted k (o.toSexpr i nl) (o.toSexpr (i + k) nl) :=
  (Setup.toSexpr_shift (k := k) ho rfl).shifted
example (i k : Nat) := C72_Setup sampleSetup i k true (oneLine_of (by decide +kernel))
theorem C72_WorkSheet_partial (o : WorkSheet) (i k : Nat) (nl : Bool) (ho : Only OneLine o) (hm : o.Movable) : ShiftedM k (o.toSexpr i nl) (o.toSexpr (i + k) nl) :=
  (WorkSheet.toSexpr_shift (k := k) ho hm rfl).shifted
example (i k : Nat) := C72_WorkSheet_partial ({ sampleWorkSheet with drawingObjects := [.line { sampleWksShape with comment := none }] } : WorkSheet) i k true (oneLine_of (by decide +kernel)) (single (P := WksItem.Movable) rfl)
theorem C72_WorkSheet_violated : ∃ o : WorkSheet, Only OneLine o ∧ ¬ ShiftedM 2 (o.toSexpr 0 true) (o.toSexpr 2 true) :=
  ⟨{ sampleWorkSheet with drawingObjects := [.line sampleWksShape] }, oneLine_of (by decide +kernel), not_shiftedM (by decide +kernel)⟩
theorem C72_SyArc (o : SyArc) (i k : Nat) (nl : Bool) (ho : Only OneLine o) : Shifted k (o.toSexpr i nl) (o.toSexpr (i + k) nl) :=
  (SyArc.toSexpr_shift (k := k) ho rfl).shifted
example (i k : Nat) := C72_SyArc sampleSyArc i k true (oneLine_of (by decide +kernel))
theorem C72_SyCircle (o : SyCircle) (i k : Nat) (nl : Bool) (ho : Only OneLine o) : Shifted k (o.toSexpr i nl) (o.toSexpr (i + k) nl) :=
  (SyCircle.toSexpr_shift (k := k) ho rfl).shifted
example (i k : Nat) := C72_SyCircle sampleSyCircle i k true (oneLine_of (by decide +kernel))
theorem C72_SyPolyLine (o : SyPolyLine) (i k : Nat) (nl : Bool) (ho : Only OneLine o) : Shifted k (o.toSexpr i nl) (o.toSexpr (i + k) nl) :=
  (SyPolyLine.toSexpr_shift (k := k) ho rfl).shifted
example (i k : Nat) := C72_SyPolyLine sampleSyPolyLine i k true (oneLine_of (by decide +kernel))
theorem C72_SyRect (o : SyRect) (i k : Nat) (nl : Bool) (ho : Only OneLine o) : Shifted k (o.toSexpr i nl) (o.toSexpr (i + k) nl) :=
  (SyRect.toSexpr_shift (k := k) ho rfl).shifted
example (i k : Nat) := C72_SyRect sampleSyRect i k true (oneLine_of (by decide +kernel))
theorem C72_SyText (o : SyText) (i k : Nat) (nl : Bool) (ho : Only OneLine o) : Shifted k (o.toSexpr i nl) (o.toSexpr (i + k) nl) :=
  (SyText.toSexpr_shift (k := k) ho rfl).shifted
example (i k : Nat) := C72_SyText sampleSyText i k true (oneLine_of (by decide +kernel))
theorem C72_SyTextBox (o : SyTextBox) (i k : Nat) (nl : Bool) (ho : Only OneLine o) : Shifted k (o.toSexpr i nl) (o.toSexpr (i + k) nl) :=
  (SyTextBox.toSexpr_shift (k := k) ho rfl).shifted
example (i k : Nat) := C72_SyTextBox sampleSyTextBox i k true (oneLine_of (by decide +kernel))
theorem C72_SymbolAlternativePin (o : SymbolAlternativePin) (i k : Nat) (nl : Bool) (ho : Only OneLine o) : Shifted k (o.toSexpr i nl) (o.toSexpr (i + k) nl) :=
  (SymbolAlternativePin.toSexpr_shift (k := k) ho rfl).shifted
example (i k : Nat) := C72_SymbolAlternativePin sampleSymbolAlternativePin i k true (oneLine_of (by decide +kernel))
theorem C72_SymbolPin (o : SymbolPin) (i k : Nat) (nl : Bool) (ho : Only OneLine o) : Shifted k (o.toSexpr i nl) (o.toSexpr (i + k) nl) :=
  (SymbolPin.toSexpr_shift (k := k) ho rfl).shifted
example (i k : Nat) := C72_SymbolPin sampleSymbolPin i k true (oneLine_of (by decide +kernel))
theorem C72_Symbol (o : Symbol) (i k : Nat) (nl : Bool) (ho : Only OneLine o) : Shifted k (o.toSexpr i nl) (o.toSexpr (i + k) nl) :=
  (Symbol.toSexpr_shift (k := k) ho rfl).shifted
example (i k : Nat) := C72_Symbol sampleSymbol i k true (oneLine_of (by decide +kernel))
theorem C72_SymbolLib_partial (o : SymbolLib) (i k : Nat) (nl : Bool) (ho : Only OneLine o) (hm : o.Movable) : Shifted k (o.toSexpr i nl) (o.toSexpr (i + k) nl) :=
  (SymbolLib.toSexpr_shift (k := k) ho hm rfl).shifted
example (i k : Nat) := C72_SymbolLib_partial ({ sampleSymbolLib with symbols := [] } : SymbolLib) i k true (oneLine_of (by decide +kernel)) rfl
theorem C72_SymbolLib_violated : ∃ o : SymbolLib, Only OneLine o ∧ ¬ Shifted 2 (o.toSexpr 0 true) (o.toSexpr 2 true) :=
  ⟨sampleSymbolLib, oneLine_of (by decide +kernel), not_shifted (by decide +kernel)⟩
theorem C72_Junction_partial (o : Junction) (i k : Nat) (nl : Bool) (ho : Only OneLine o) (hm : o.Movable) : ShiftedM k (o.toSexpr i nl) (o.toSexpr (i + k) nl) :=
  (Junction.toSexpr_shift (k := k) ho hm rfl).shifted
example (i k : Nat) := C72_Junction_partial sampleJunction i k true (oneLine_of (by decide +kernel)) (Option.some_ne_none _)
theorem C72_Junction_violated : ∃ o : Junction, Only OneLine o ∧ ¬ ShiftedM 2 (o.toSexpr 0 true) (o.toSexpr 2 true) :=
  ⟨{ sampleJunction with uuid := none }, oneLine_of (by decide +kernel), not_shiftedM (by decide +kernel)⟩
theorem C72_NoConnect (o : NoConnect) (i k : Nat) (nl : Bool) (ho : Only OneLine o) : Shifted k (o.toSexpr i nl) (o.toSexpr (i + k) nl) :=
  (NoConnect.toSexpr_shift (k := k) ho rfl).shifted
example (i k : Nat) := C72_NoConnect sampleNoConnect i k true (oneLine_of (by decide +kernel))
theorem C72_BusEntry (o : BusEntry) (i k : Nat) (nl : Bool) (ho : Only OneLine o) : Shifted k (o.toSexpr i nl) (o.toSexpr (i + k) nl) :=
  (BusEntry.toSexpr_shift (k := k) ho rfl).shifted
example (i k : Nat) := C72_BusEntry sampleBusEntry i k true (oneLine_of (by decide +kernel))
theorem C72_BusAlias (o : BusAlias) (i k : Nat) (nl : Bool) (ho : Only OneLine o) : Shifted k (o.toSexpr i nl) (o.toSexpr (i + k) nl) :=
  (BusAlias.toSexpr_shift (k := k) ho rfl).shifted
example (i k : Nat) := C72_BusAlias sampleBusAlias i k true (oneLine_of (by decide +kernel))
theorem C72_Connection (o : Connection) (i k : Nat) (nl : Bool) (ho : Only OneLine o) : Shifted k (o.toSexpr i nl) (o.toSexpr (i + k) nl) :=
  (Connection.toSexpr_shift (k := k) ho rfl).shifted
example (i k : Nat) := C72_Connection sampleConnection i k true (oneLine_of (by decide +kernel))
theorem C72_PolyLine (o : PolyLine) (i k : Nat) (nl : Bool) (ho : Only OneLine o) : Shifted k (o.toSexpr i nl) (o.toSexpr (i + k) nl) :=
  (PolyLine.toSexpr_shift (k := k) ho rfl).shifted
example (i k : Nat) := C72_PolyLine samplePolyLine i k true (oneLine_of (by decide +kernel))
theorem C72_Text (o : Text) (i k : Nat) (nl : Bool) (ho : Only OneLine o) : ShiftedM k (o.toSexpr i nl) (o.toSexpr (i + k) nl) :=
  (Text.toSexpr_shift (k := k) ho rfl).shifted
example (i k : Nat) := C72_Text sampleText i k true (oneLine_of (by decide +kernel))
theorem C72_TextBox (o : TextBox) (i k : Nat) (nl : Bool) (ho : Only OneLine o) : Shifted k (o.toSexpr i nl) (o.toSexpr (i + k) nl) :=
  (TextBox.toSexpr_shift (k := k) ho rfl).shifted
example (i k : Nat) := C72_TextBox sampleTextBox i k true (oneLine_of (by decide +kernel))
theorem C72_LocalLabel (o : LocalLabel) (i k : Nat) (nl : Bool) (ho : Only OneLine o) : Shifted k (o.toSexpr i nl) (o.toSexpr (i + k) nl) :=
  (LocalLabel.toSexpr_shift (k := k) ho rfl).shifted
example (i k : Nat) := C72_LocalLabel sampleLocalLabel i k true (oneLine_of (by decide +kernel))
theorem C72_GlobalLabel (o : GlobalLabel) (i k : Nat) (nl : Bool) (ho : Only OneLine o) : Shifted k (o.toSexpr i nl) (o.toSexpr (i + k) nl) :=
  (GlobalLabel.toSexpr_shift (k := k) ho rfl).shifted
example (i k : Nat) := C72_GlobalLabel sampleGlobalLabel i k true (oneLine_of (by decide +kernel))
theorem C72_HierarchicalLabel (o : HierarchicalLabel) (i k : Nat) (nl : Bool) (ho : Only OneLine o) : Shifted k (o.toSexpr i nl) (o.toSexpr (i + k) nl) :=
  (HierarchicalLabel.toSexpr_shift (k := k) ho rfl).shifted
example (i k : Nat) := C72_HierarchicalLabel sampleHierarchicalLabel i k true (oneLine_of (by decide +kernel))
theorem C72_SymbolProjectPath (o : SymbolProjectPath) (i k : Nat) (nl : Bool) (ho : Only OneLine o) : Shifted k (o.toSexpr i nl) (o.toSexpr (i + k) nl) :=
  (SymbolProjectPath.toSexpr_shift (k := k) ho rfl).shifted
example (i k : Nat) := C72_SymbolProjectPath sampleSymbolProjectPath i k true (oneLine_of (by decide +kernel))
theorem C72_SymbolProjectInstance (o : SymbolProjectInstance) (i k : Nat) (nl : Bool) (ho : Only OneLine o) : Shifted k (o.toSexpr i nl) (o.toSexpr (i + k) nl) :=
  (SymbolProjectInstance.toSexpr_shift (k := k) ho rfl).shifted
example (i k : Nat) := C72_SymbolProjectInstance sampleSymbolProjectInstance i k true (oneLine_of (by decide +kernel))
theorem C72_SchematicSymbol (o : SchematicSymbol) (i k : Nat) (nl : Bool) (ho : Only OneLine o) : Shifted k (o.toSexpr i nl) (o.toSexpr (i + k) nl) :=
  (SchematicSymbol.toSexpr_shift (k := k) ho rfl).shifted
example (i k : Nat) := C72_SchematicSymbol sampleSchematicSymbol i k true (oneLine_of (by decide +kernel))
theorem C72_HierarchicalPin (o : HierarchicalPin) (i k : Nat) (nl : Bool) (ho : Only OneLine o) : Shifted k (o.toSexpr i nl) (o.toSexpr (i + k) nl) :=
  (HierarchicalPin.toSexpr_shift (k := k) ho rfl).shifted
example (i k : Nat) := C72_HierarchicalPin sampleHierarchicalPin i k true (oneLine_of (by decide +kernel))
theorem C72_HierarchicalSheetProjectPath (o : HierarchicalSheetProjectPath) (i k : Nat) (nl : Bool) (ho : Only OneLine o) : Shifted k (o.toSexpr i nl) (o.toSexpr (i + k) nl) :=
  (HierarchicalSheetProjectPath.toSexpr_shift (k := k) ho rfl).shifted
example (i k : Nat) := C72_HierarchicalSheetProjectPath sampleHierarchicalSheetProjectPath i k true (oneLine_of (by decide +kernel))
theorem C72_HierarchicalSheetProjectInstance (o : HierarchicalSheetProjectInstance) (i k : Nat) (nl : Bool) (ho : Only OneLine o) : Shifted k (o.toSexpr i nl) (o.toSexpr (i + k) nl) :=
  (HierarchicalSheetProjectInstance.toSexpr_shift (k := k) ho rfl).shifted
example (i k : Nat) := C72_HierarchicalSheetProjectInstance sampleHierarchicalSheetProjectInstance i k true (oneLine_of (by decide +kernel))
theorem C72_HierarchicalSheet (o : HierarchicalSheet) (i k : Nat) (nl : Bool) (ho : Only OneLine o) : ShiftedM k (o.toSexpr i nl) (o.toSexpr (i + k) nl) :=
  (HierarchicalSheet.toSexpr_shift (k := k) ho rfl).shifted
example (i k : Nat) := C72_HierarchicalSheet sampleHierarchicalSheet i k true (oneLine_of (by decide +kernel))
theorem C72_HierarchicalSheetInstance (o : HierarchicalSheetInstance) (i k : Nat) (nl : Bool) (ho : Only OneLine o) : Shifted k (o.toSexpr i nl) (o.toSexpr (i + k) nl) :=
  (HierarchicalSheetInstance.toSexpr_shift (k := k) ho rfl).shifted
example (i k : Nat) := C72_HierarchicalSheetInstance sampleHierarchicalSheetInstance i k true (oneLine_of (by decide +kernel))
theorem C72_SymbolInstance (o : SymbolInstance) (i k : Nat) (nl : Bool) (ho : Only OneLine o) : Shifted k (o.toSexpr i nl) (o.toSexpr (i + k) nl) :=
  (SymbolInstance.toSexpr_shift (k := k) ho rfl).shifted
example (i k : Nat) := C72_SymbolInstance sampleSymbolInstance i k true (oneLine_of (by decide +kernel))
theorem C72_Rectangle (o : Rectangle) (i k : Nat) (nl : Bool) (ho : Only OneLine o) : Shifted k (o.toSexpr i nl) (o.toSexpr (i + k) nl) :=
  (Rectangle.toSexpr_shift (k := k) ho rfl).shifted
example (i k : Nat) := C72_Rectangle sampleRectangle i k true (oneLine_of (by decide +kernel))
theorem C72_Arc (o : Arc) (i k : Nat) (nl : Bool) (ho : Only OneLine o) : Shifted k (o.toSexpr i nl) (o.toSexpr (i + k) nl) :=
  (Arc.toSexpr_shift (k := k) ho rfl).shifted
example (i k : Nat) := C72_Arc sampleArc i k true (oneLine_of (by decide +kernel))
theorem C72_Circle (o : Circle) (i k : Nat) (nl : Bool) (ho : Only OneLine o) : Shifted k (o.toSexpr i nl) (o.toSexpr (i + k) nl) :=
  (Circle.toSexpr_shift (k := k) ho rfl).shifted
example (i k : Nat) := C72_Circle sampleCircle i k true (oneLine_of (by decide +kernel))
theorem C72_NetclassFlag (o : NetclassFlag) (i k : Nat) (nl : Bool) (ho : Only OneLine o) : ShiftedM k (o.toSexpr i nl) (o.toSexpr (i + k) nl) :=
  (NetclassFlag.toSexpr_shift (k := k) ho rfl).shifted
example (i k : Nat) := C72_NetclassFlag sampleNetclassFlag i k true (oneLine_of (by decide +kernel))
theorem C72_Schematic_partial (o : Schematic) (i k : Nat) (nl : Bool) (ho : Only OneLine o) (hm : o.Movable) : ShiftedM k (o.toSexpr i nl) (o.toSexpr (i + k) nl) :=
  (Schematic.toSexpr_shift (k := k) ho hm rfl).shifted
example (i k : Nat) := C72_Schematic_partial ({ sampleSchematic with junctions := [sampleJunction], sheetInstances := [], symbolInstances := [] } : Schematic) i k true (oneLine_of (by decide +kernel)) ⟨single (P := Junction.Movable) (Option.some_ne_none _), rfl, rfl⟩
set_option maxRecDepth 100000 in
theorem C72_Schematic_violated : ∃ o : Schematic, Only OneLine o ∧ ¬ ShiftedM 2 (o.toSexpr 0 true) (o.toSexpr 2 true) :=
  ⟨{ sheetInstances := [sampleHierarchicalSheetInstance] }, oneLine_of (by decide +kernel), not_shiftedM (by decide +kernel)⟩
theorem C72_GrText_partial (o : GrText) (i k : Nat) (nl : Bool) (ho : Only OneLine o) (hm : o.Movable) : Shifted k (o.toSexpr i nl) (o.toSexpr (i + k) nl) :=
  (GrText.toSexpr_shift (k := k) ho hm rfl).shifted
example (i k : Nat) := C72_GrText_partial ({ sampleGrText with renderCache := none } : GrText) i k true (oneLine_of (by decide +kernel)) noCache
theorem C72_GrText_violated : ∃ o : GrText, Only OneLine o ∧ ¬ Shifted 2 (o.toSexpr 0 true) (o.toSexpr 2 true) :=
  ⟨{ sampleGrText with renderCache := some twoPointsCache }, oneLine_of (by decide +kernel), not_shifted (by decide +kernel)⟩
theorem C72_GrTextBox_partial (o : GrTextBox) (i k : Nat) (nl : Bool) (ho : Only OneLine o) (hm : o.Movable) : ShiftedM k (o.toSexpr i nl) (o.toSexpr (i + k) nl) :=
  (GrTextBox.toSexpr_shift (k := k) ho hm rfl).shifted
example (i k : Nat) := C72_GrTextBox_partial ({ sampleGrTextBox with renderCache := none } : GrTextBox) i k true (oneLine_of (by decide +kernel)) noCache
theorem C72_GrTextBox_violated : ∃ o : GrTextBox, Only OneLine o ∧ ¬ ShiftedM 2 (o.toSexpr 0 true) (o.toSexpr 2 true) :=
  ⟨{ sampleGrTextBox with renderCache := some twoPointsCache }, oneLine_of (by decide +kernel), not_shiftedM (by decide +kernel)⟩
theorem C72_GrLine (o : GrLine) (i k : Nat) (nl : Bool) (ho : Only OneLine o) : Shifted k (o.toSexpr i nl) (o.toSexpr (i + k) nl) :=
  (GrLine.toSexpr_shift (k := k) ho rfl).shifted
example (i k : Nat) := C72_GrLine sampleGrLine i k true (oneLine_of (by decide +kernel))
theorem C72_GrRect (o : GrRect) (i k : Nat) (nl : Bool) (ho : Only OneLine o) : Shifted k (o.toSexpr i nl) (o.toSexpr (i + k) nl) :=
  (GrRect.toSexpr_shift (k := k) ho rfl).shifted
example (i k : Nat) := C72_GrRect sampleGrRect i k true (oneLine_of (by decide +kernel))
theorem C72_GrCircle (o : GrCircle) (i k : Nat) (nl : Bool) (ho : Only OneLine o) : Shifted k (o.toSexpr i nl) (o.toSexpr (i + k) nl) :=
  (GrCircle.toSexpr_shift (k := k) ho rfl).shifted
example (i k : Nat) := C72_GrCircle sampleGrCircle i k true (oneLine_of (by decide +kernel))
theorem C72_GrArc (o : GrArc) (i k : Nat) (nl : Bool) (ho : Only OneLine o) : Shifted k (o.toSexpr i nl) (o.toSexpr (i + k) nl) :=
  (GrArc.toSexpr_shift (k := k) ho rfl).shifted
example (i k : Nat) := C72_GrArc sampleGrArc i k true (oneLine_of (by decide +kernel))
theorem C72_GrPoly (o : GrPoly) (i k : Nat) (nl : Bool) (ptsNewline : Bool) (ho : Only OneLine o) : Shifted k (o.toSexpr i nl ptsNewline) (o.toSexpr (i + k) nl ptsNewline) :=
  (GrPoly.toSexpr_shift (k := k) ho rfl).shifted
example (i k : Nat) := C72_GrPoly sampleGrPoly i k true true (oneLine_of (by decide +kernel))
theorem C72_GrCurve (o : GrCurve) (i k : Nat) (nl : Bool) (ho : Only OneLine o) : Shifted k (o.toSexpr i nl) (o.toSexpr (i + k) nl) :=
  (GrCurve.toSexpr_shift (k := k) ho rfl).shifted
example (i k : Nat) := C72_GrCurve sampleGrCurve i k true (oneLine_of (by decide +kernel))
theorem C72_FpText_partial (o : FpText) (i k : Nat) (nl : Bool) (ho : Only OneLine o) (hm : o.Movable) : Shifted k (o.toSexpr i nl) (o.toSexpr (i + k) nl) :=
  (FpText.toSexpr_shift (k := k) ho hm rfl).shifted
example (i k : Nat) := C72_FpText_partial ({ sampleFpText with renderCache := none } : FpText) i k true (oneLine_of (by decide +kernel)) noCache
theorem C72_FpText_violated : ∃ o : FpText, Only OneLine o ∧ ¬ Shifted 2 (o.toSexpr 0 true) (o.toSexpr 2 true) :=
  ⟨{ sampleFpText with renderCache := some twoPointsCache }, oneLine_of (by decide +kernel), not_shifted (by decide +kernel)⟩
theorem C72_FpLine (o : FpLine) (i k : Nat) (nl : Bool) (ho : Only OneLine o) : Shifted k (o.toSexpr i nl) (o.toSexpr (i + k) nl) :=
  (FpLine.toSexpr_shift (k := k) ho rfl).shifted
example (i k : Nat) := C72_FpLine sampleFpLine i k true (oneLine_of (by decide +kernel))
theorem C72_FpRect (o : FpRect) (i k : Nat) (nl : Bool) (ho : Only OneLine o) : Shifted k (o.toSexpr i nl) (o.toSexpr (i + k) nl) :=
  (FpRect.toSexpr_shift (k := k) ho rfl).shifted
example (i k : Nat) := C72_FpRect sampleFpRect i k true (oneLine_of (by decide +kernel))
theorem C72_FpTextBox_partial (o : FpTextBox) (i k : Nat) (nl : Bool) (ho : Only OneLine o) (hm : o.Movable) : ShiftedM k (o.toSexpr i nl) (o.toSexpr (i + k) nl) :=
  (FpTextBox.toSexpr_shift (k := k) ho hm rfl).shifted
example (i k : Nat) := C72_FpTextBox_partial ({ sampleFpTextBox with renderCache := none } : FpTextBox) i k true (oneLine_of (by decide +kernel)) noCache
theorem C72_FpTextBox_violated : ∃ o : FpTextBox, Only OneLine o ∧ ¬ ShiftedM 2 (o.toSexpr 0 true) (o.toSexpr 2 true) :=
  ⟨{ sampleFpTextBox with renderCache := some twoPointsCache }, oneLine_of (by decide +kernel), not_shiftedM (by decide +kernel)⟩
theorem C72_FpCircle (o : FpCircle) (i k : Nat) (nl : Bool) (ho : Only OneLine o) : Shifted k (o.toSexpr i nl) (o.toSexpr (i + k) nl) :=
  (FpCircle.toSexpr_shift (k := k) ho rfl).shifted
example (i k : Nat) := C72_FpCircle sampleFpCircle i k true (oneLine_of (by decide +kernel))
theorem C72_FpArc (o : FpArc) (i k : Nat) (nl : Bool) (ho : Only OneLine o) : Shifted k (o.toSexpr i nl) (o.toSexpr (i + k) nl) :=
  (FpArc.toSexpr_shift (k := k) ho rfl).shifted
example (i k : Nat) := C72_FpArc sampleFpArc i k true (oneLine_of (by decide +kernel))
theorem C72_FpPoly (o : FpPoly) (i k : Nat) (nl : Bool) (ho : Only OneLine o) : Shifted k (o.toSexpr i nl) (o.toSexpr (i + k) nl) :=
  (FpPoly.toSexpr_shift (k := k) ho rfl).shifted
example (i k : Nat) := C72_FpPoly sampleFpPoly i k true (oneLine_of (by decide +kernel))
theorem C72_FpCurve (o : FpCurve) (i k : Nat) (nl : Bool) (ho : Only OneLine o) : Shifted k (o.toSexpr i nl) (o.toSexpr (i + k) nl) :=
  (FpCurve.toSexpr_shift (k := k) ho rfl).shifted
example (i k : Nat) := C72_FpCurve sampleFpCurve i k true (oneLine_of (by decide +kernel))
theorem C72_KeepoutSettings (o : KeepoutSettings) (i k : Nat) (nl : Bool) (ho : Only OneLine o) : Shifted k (o.toSexpr i nl) (o.toSexpr (i + k) nl) :=
  (KeepoutSettings.toSexpr_shift (k := k) ho rfl).shifted
example (i k : Nat) := C72_KeepoutSettings sampleKeepoutSettings i k true (oneLine_of (by decide +kernel))
theorem C72_FillSettings (o : FillSettings) (i k : Nat) (nl : Bool) (ho : Only OneLine o) : Shifted k (o.toSexpr i nl) (o.toSexpr (i + k) nl) :=
  (FillSettings.toSexpr_shift (k := k) ho rfl).shifted
example (i k : Nat) := C72_FillSettings sampleFillSettings i k true (oneLine_of (by decide +kernel))
theorem C72_ZonePolygon (o : ZonePolygon) (i k : Nat) (nl : Bool) (ho : Only OneLine o) : Shifted k (o.toSexpr i nl) (o.toSexpr (i + k) nl) := by
  cases nl
  · unfold ZonePolygon.toSexpr
    split
    · exact Sh.shifted (d := false) (by shifts)
    · exact Sh.shifted (d := true) (by shifts)
  · exact (ZonePolygon.toSexpr_shift (k := k) ho rfl).shifted (d := true)
example (i k : Nat) := C72_ZonePolygon sampleZonePolygon i k true (oneLine_of (by decide +kernel))
theorem C72_FilledPolygon (o : FilledPolygon) (i k : Nat) (nl : Bool) (ho : Only OneLine o) : Shifted k (o.toSexpr i nl) (o.toSexpr (i + k) nl) := by
  cases nl
  · unfold FilledPolygon.toSexpr
    split
    · exact Sh.shifted (d := false) (by shifts)
    · exact Sh.shifted (d := true) (by shifts)
  · exact (FilledPolygon.toSexpr_shift (k := k) ho rfl).shifted (d := true)
example (i k : Nat) := C72_FilledPolygon sampleFilledPolygon i k true (oneLine_of (by decide +kernel))
theorem C72_FillSegments (o : FillSegments) (i k : Nat) (nl : Bool) (ho : Only OneLine o) : Shifted k (o.toSexpr i nl) (o.toSexpr (i + k) nl) := by
  cases nl
  · unfold FillSegments.toSexpr
    split
    · exact Sh.shifted (d := false) (by shifts)
    · exact Sh.shifted (d := true) (by shifts)
  · exact (FillSegments.toSexpr_shift (k := k) ho rfl).shifted (d := true)
example (i k : Nat) := C72_FillSegments sampleFillSegments i k true (oneLine_of (by decide +kernel))
theorem C72_Zone_partial (o : Zone) (i k : Nat) (nl : Bool) (ho : Only OneLine o) (hm : o.Movable) : ShiftedM k (o.toSexpr i nl) (o.toSexpr (i + k) nl) :=
  (Zone.toSexpr_shift (k := k) ho hm rfl).shifted
example (i k : Nat) := C72_Zone_partial ({ sampleZone with fillSegments := some {} } : Zone) i k true (oneLine_of (by decide +kernel)) (fun _ h => by cases h; rfl)
theorem C72_Zone_violated : ∃ o : Zone, Only OneLine o ∧ ¬ ShiftedM 2 (o.toSexpr 0 true) (o.toSexpr 2 true) :=
  ⟨{ sampleZone with fillSegments := some sampleFillSegments }, oneLine_of (by decide +kernel), not_shiftedM (by decide +kernel)⟩
theorem C72_Attributes (o : Attributes) (i k : Nat) (nl : Bool) (ho : Only OneLine o) : Shifted k (o.toSexpr i nl) (o.toSexpr (i + k) nl) := by
  cases nl
  · unfold Attributes.toSexpr
    split
    · exact Sh.shifted (d := true) (by shifts)
    · exact Sh.shifted (d := false) (by shifts)
  · exact (Attributes.toSexpr_shift (k := k) ho rfl).shifted (d := true)
example (i k : Nat) := C72_Attributes sampleAttributes i k true (oneLine_of (by decide +kernel))
theorem C72_Model (o : Model) (i k : Nat) (nl : Bool) (ho : Only OneLine o) : Shifted k (o.toSexpr i nl) (o.toSexpr (i + k) nl) :=
  (Model.toSexpr_shift (k := k) ho rfl).shifted
example (i k : Nat) := C72_Model sampleModel i k true (oneLine_of (by decide +kernel))
theorem C72_DrillDefinition (o : DrillDefinition) (i k : Nat) (nl : Bool) (ho : Only OneLine o) : Shifted k (o.toSexpr i nl) (o.toSexpr (i + k) nl) :=
  (DrillDefinition.toSexpr_shift (k := k) ho rfl).shifted
example (i k : Nat) := C72_DrillDefinition sampleDrillDefinition i k true (oneLine_of (by decide +kernel))
theorem C72_PadOptions (o : PadOptions) (i k : Nat) (nl : Bool) (ho : Only OneLine o) : Shifted k (o.toSexpr i nl) (o.toSexpr (i + k) nl) :=
  (PadOptions.toSexpr_shift (k := k) ho rfl).shifted
example (i k : Nat) := C72_PadOptions samplePadOptions i k true (oneLine_of (by decide +kernel))
theorem C72_Pad_partial (o : Pad) (i k : Nat) (nl : Bool) (ho : Only OneLine o) (hm : o.Movable) : ShiftedM k (o.toSexpr i nl) (o.toSexpr (i + k) nl) :=
  (Pad.toSexpr_shift (k := k) ho hm rfl).shifted
example (i k : Nat) := C72_Pad_partial ({ samplePad with customPadPrimitives := [.line sampleGrLine] } : Pad) i k true (oneLine_of (by decide +kernel)) (single (P := GrItem.Movable) trivial)
theorem C72_Pad_violated : ∃ o : Pad, Only OneLine o ∧ ¬ ShiftedM 2 (o.toSexpr 0 true) (o.toSexpr 2 true) :=
  ⟨{ samplePad with customPadPrimitives := [.text { sampleGrText with renderCache := some twoPointsCache }] }, oneLine_of (by decide +kernel), not_shiftedM (by decide +kernel)⟩
theorem C72_Footprint_partial (o : Footprint) (i k : Nat) (nl : Bool) (layerInFirstLine : Bool) (ho : Only OneLine o) (hm : o.Movable) : ShiftedM k (o.toSexpr i nl layerInFirstLine) (o.toSexpr (i + k) nl layerInFirstLine) :=
  (Footprint.toSexpr_shift (k := k) ho hm rfl).shifted
example (i k : Nat) := C72_Footprint_partial ({ sampleFootprint with graphicItems := [.line sampleFpLine], pads := [], zones := [] } : Footprint) i k true true (oneLine_of (by decide +kernel)) ⟨single (P := FpItem.Movable) trivial, noItem, noItem⟩
set_option maxRecDepth 100000 in
theorem C72_Footprint_violated : ∃ o : Footprint, Only OneLine o ∧ ¬ ShiftedM 2 (o.toSexpr 0 true false) (o.toSexpr 2 true false) :=
  ⟨{ tedit := .str k!"1", zones := [{ layers := [.str k!"F.Cu"], fillSegments := some sampleFillSegments }] }, oneLine_of (by decide +kernel), not_shiftedM (by decide +kernel)⟩
theorem C72_GeneralSettings (o : GeneralSettings) (i k : Nat) (nl : Bool) (ho : Only OneLine o) : Shifted k (o.toSexpr i nl) (o.toSexpr (i + k) nl) :=
  (GeneralSettings.toSexpr_shift (k := k) ho rfl).shifted
example (i k : Nat) := C72_GeneralSettings sampleGeneralSettings i k true (oneLine_of (by decide +kernel))
theorem C72_LayerToken (o : LayerToken) (i k : Nat) (nl : Bool) (ho : Only OneLine o) : Shifted k (o.toSexpr i nl) (o.toSexpr (i + k) nl) :=
  (LayerToken.toSexpr_shift (k := k) ho rfl).shifted
example (i k : Nat) := C72_LayerToken sampleLayerToken i k true (oneLine_of (by decide +kernel))
theorem C72_StackupSubLayer (o : StackupSubLayer) (i k : Nat) (nl : Bool) (ho : Only OneLine o) : Shifted k (o.toSexpr i nl) (o.toSexpr (i + k) nl) :=
  (StackupSubLayer.toSexpr_shift (k := k) ho rfl).shifted
example (i k : Nat) := C72_StackupSubLayer sampleStackupSubLayer i k true (oneLine_of (by decide +kernel))
theorem C72_StackupLayer (o : StackupLayer) (i k : Nat) (nl : Bool) (ho : Only OneLine o) : Shifted k (o.toSexpr i nl) (o.toSexpr (i + k) nl) :=
  (StackupLayer.toSexpr_shift (k := k) ho rfl).shifted
example (i k : Nat) := C72_StackupLayer sampleStackupLayer i k true (oneLine_of (by decide +kernel))
theorem C72_Stackup (o : Stackup) (i k : Nat) (nl : Bool) (ho : Only OneLine o) : Shifted k (o.toSexpr i nl) (o.toSexpr (i + k) nl) :=
  (Stackup.toSexpr_shift (k := k) ho rfl).shifted
example (i k : Nat) := C72_Stackup sampleStackup i k true (oneLine_of (by decide +kernel))
theorem C72_PlotSettings (o : PlotSettings) (i k : Nat) (nl : Bool) (ho : Only OneLine o) : ShiftedM k (o.toSexpr i nl) (o.toSexpr (i + k) nl) :=
  (PlotSettings.toSexpr_shift (k := k) ho rfl).shifted
example (i k : Nat) := C72_PlotSettings samplePlotSettings i k true (oneLine_of (by decide +kernel))
theorem C72_SetupData (o : SetupData) (i k : Nat) (nl : Bool) (ho : Only OneLine o) : ShiftedM k (o.toSexpr i nl) (o.toSexpr (i + k) nl) :=
  (SetupData.toSexpr_shift (k := k) ho rfl).shifted
example (i k : Nat) := C72_SetupData sampleSetupData i k true (oneLine_of (by decide +kernel))
theorem C72_Segment (o : Segment) (i k : Nat) (nl : Bool) (ho : Only OneLine o) : Shifted k (o.toSexpr i nl) (o.toSexpr (i + k) nl) :=
  (Segment.toSexpr_shift (k := k) ho rfl).shifted
example (i k : Nat) := C72_Segment sampleSegment i k true (oneLine_of (by decide +kernel))
theorem C72_Via (o : Via) (i k : Nat) (nl : Bool) (ho : Only OneLine o) : Shifted k (o.toSexpr i nl) (o.toSexpr (i + k) nl) :=
  (Via.toSexpr_shift (k := k) ho rfl).shifted
example (i k : Nat) := C72_Via sampleVia i k true (oneLine_of (by decide +kernel))
theorem C72_TraceArc (o : TraceArc) (i k : Nat) (nl : Bool) (ho : Only OneLine o) : Shifted k (o.toSexpr i nl) (o.toSexpr (i + k) nl) :=
  (TraceArc.toSexpr_shift (k := k) ho rfl).shifted
example (i k : Nat) := C72_TraceArc sampleTraceArc i k true (oneLine_of (by decide +kernel))
theorem C72_Target (o : Target) (i k : Nat) (nl : Bool) (ho : Only OneLine o) : Shifted k (o.toSexpr i nl) (o.toSexpr (i + k) nl) :=
  (Target.toSexpr_shift (k := k) ho rfl).shifted
example (i k : Nat) := C72_Target sampleTarget i k true (oneLine_of (by decide +kernel))
theorem C72_DimensionFormat (o : DimensionFormat) (i k : Nat) (nl : Bool) (ho : Only OneLine o) : Shifted k (o.toSexpr i nl) (o.toSexpr (i + k) nl) :=
  (DimensionFormat.toSexpr_shift (k := k) ho rfl).shifted
example (i k : Nat) := C72_DimensionFormat sampleDimensionFormat i k true (oneLine_of (by decide +kernel))
theorem C72_DimensionStyle (o : DimensionStyle) (i k : Nat) (nl : Bool) (ho : Only OneLine o) : Shifted k (o.toSexpr i nl) (o.toSexpr (i + k) nl) :=
  (DimensionStyle.toSexpr_shift (k := k) ho rfl).shifted
example (i k : Nat) := C72_DimensionStyle sampleDimensionStyle i k true (oneLine_of (by decide +kernel))
theorem C72_Dimension_partial (o : Dimension) (i k : Nat) (nl : Bool) (ho : Only OneLine o) (hm : o.Movable) : ShiftedM k (o.toSexpr i nl) (o.toSexpr (i + k) nl) :=
  (Dimension.toSexpr_shift (k := k) ho hm rfl).shifted
example (i k : Nat) := C72_Dimension_partial ({ sampleDimension with grText := none } : Dimension) i k true (oneLine_of (by decide +kernel)) noCache
theorem C72_Dimension_violated : ∃ o : Dimension, Only OneLine o ∧ ¬ ShiftedM 2 (o.toSexpr 0 true) (o.toSexpr 2 true) :=
  ⟨{ sampleDimension with grText := some { sampleGrText with renderCache := some twoPointsCache } }, oneLine_of (by decide +kernel), not_shiftedM (by decide +kernel)⟩
theorem C72_Board_partial (o : Board) (i k : Nat) (nl : Bool) (ho : Only OneLine o) (hm : o.Movable) : ShiftedM k (o.toSexpr i nl) (o.toSexpr (i + k) nl) :=
  (Board.toSexpr_shift (k := k) ho hm rfl).shifted
example (i k : Nat) := C72_Board_partial ({ sampleBoard with footprints := [], graphicItems := [.line sampleGrLine], dimensions := [], zones := [], properties := [] } : Board) i k true (oneLine_of (by decide +kernel)) ⟨noItem, single (P := GrItem.Movable) trivial, noItem, noItem, rfl⟩
set_option maxRecDepth 100000 in
theorem C72_Board_violated : ∃ o : Board, Only OneLine o ∧ ¬ ShiftedM 2 (o.toSexpr 0 true) (o.toSexpr 2 true) :=
  ⟨{ properties := [(.str k!"a", .str k!"b")] }, oneLine_of (by decide +kernel), not_shiftedM (by decide +kernel)⟩
theorem C72_WksShape_partial (head : Str) (hh : head = k!"line" ∨ head = k!"rect") (o : WksShape) (i k : Nat) (nl : Bool) (ho : Only OneLine o) (hm : o.Movable) :
    Shifted k (o.toSexpr head i nl) (o.toSexpr head (i + k) nl) :=
  (WksShape.toSexpr_shift (k := k) (by rcases hh with rfl | rfl <;> exact .lit rfl) ho hm rfl).shifted
example (i k : Nat) := C72_WksShape_partial k!"line" (.inl rfl) { sampleWksShape with comment := none } i k true (oneLine_of (by decide +kernel)) rfl
theorem C72_WksShape_violated : ∃ o : WksShape, Only OneLine o ∧ ¬ Shifted 2 (o.toSexpr k!"line" 0 true) (o.toSexpr k!"line" 2 true) :=
  ⟨sampleWksShape, oneLine_of (by decide +kernel), not_shifted (by decide +kernel)⟩
theorem C72_SyCurve (o : SyCurve) (i k : Nat) (nl : Bool) (ho : Only OneLine o) : Shifted k (o.toSexpr i nl) (o.toSexpr (i + k) nl) :=
  (SyCurve.toSexpr_shift (k := k) ho rfl).shifted
example (i k : Nat) := C72_SyCurve { points := [samplePositionXY, samplePositionXY] } i k true (oneLine_of (by decide +kernel))


end Kiutils
