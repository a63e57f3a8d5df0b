import Verif.Proofs.Shift

/-!
The texts written with a larger indentation are the texts written with a smaller one, moved to the right.
-/
namespace Kiutils

section
variable {k : Nat}
set_option linter.unusedVariables false
set_option linter.unusedSectionVars false

/-! ## Model/Common.lean -/

theorem Coordinate.toSexpr_shift {o : Coordinate} {n m : Nat} {newline : Bool} (ho : Only OneLine o) (e : m = n + k) : Sh k .start (Coordinate.toSexpr o n newline) (.after newline) (Coordinate.toSexpr o m newline) := by
  unfold Coordinate.toSexpr
  shifts

theorem Coordinate.toSexpr_inline {o : Coordinate} {n : Nat} {newline : Bool} (ho : Only OneLine o) : Sh k .inside (Coordinate.toSexpr o n newline) (.after newline) (Coordinate.toSexpr o n newline) := by
  unfold Coordinate.toSexpr
  shifts

theorem ColorRGBA.toSexpr_shift {o : ColorRGBA} {n m : Nat} {newline : Bool} (ho : Only OneLine o) (e : m = n + k) : Sh k .start (ColorRGBA.toSexpr o n newline) (.after newline) (ColorRGBA.toSexpr o m newline) := by
  unfold ColorRGBA.toSexpr
  shifts

theorem ColorRGBA.toSexpr_inline {o : ColorRGBA} {n : Nat} {newline : Bool} (ho : Only OneLine o) : Sh k .inside (ColorRGBA.toSexpr o n newline) (.after newline) (ColorRGBA.toSexpr o n newline) := by
  unfold ColorRGBA.toSexpr
  shifts

theorem ColorRGBA.toSexprM_shift {o : ColorRGBA} {n m : Nat} {newline : Bool} (ho : Only OneLine o) (e : m = n + k) : ShM k .start (ColorRGBA.toSexprM o n newline) (.after newline) (ColorRGBA.toSexprM o m newline) := by
  unfold ColorRGBA.toSexprM
  shifts

theorem ColorRGBA.toSexprM_inline {o : ColorRGBA} {n : Nat} {newline : Bool} (ho : Only OneLine o) : ShM k .inside (ColorRGBA.toSexprM o n newline) (.after newline) (ColorRGBA.toSexprM o n newline) := by
  unfold ColorRGBA.toSexprM
  shifts

theorem Stroke.toSexpr_shift {o : Stroke} {n m : Nat} {newline : Bool} (ho : Only OneLine o) (e : m = n + k) : Sh k .start (Stroke.toSexpr o n newline) (.after newline) (Stroke.toSexpr o m newline) := by
  unfold Stroke.toSexpr
  shifts

theorem Stroke.toSexpr_inline {o : Stroke} {n : Nat} {newline : Bool} (ho : Only OneLine o) : Sh k .inside (Stroke.toSexpr o n newline) (.after newline) (Stroke.toSexpr o n newline) := by
  unfold Stroke.toSexpr
  shifts

theorem Font.toSexpr_shift {o : Font} {n m : Nat} {newline : Bool} (ho : Only OneLine o) (e : m = n + k) : Sh k .start (Font.toSexpr o n newline) (.after newline) (Font.toSexpr o m newline) := by
  unfold Font.toSexpr
  shifts

theorem Font.toSexpr_inline {o : Font} {n : Nat} {newline : Bool} (ho : Only OneLine o) : Sh k .inside (Font.toSexpr o n newline) (.after newline) (Font.toSexpr o n newline) := by
  unfold Font.toSexpr
  shifts

theorem Justify.toSexpr_shift {o : Justify} {n m : Nat} {newline : Bool} (ho : Only OneLine o) (e : m = n + k) : Sh k .start (Justify.toSexpr o n newline) (.after newline) (Justify.toSexpr o m newline) := by
  unfold Justify.toSexpr
  shifts

theorem Justify.toSexpr_inline {o : Justify} {n : Nat} {newline : Bool} (ho : Only OneLine o) : Sh k .inside (Justify.toSexpr o n newline) (.after newline) (Justify.toSexpr o n newline) := by
  unfold Justify.toSexpr
  shifts

theorem Effects.toSexpr_shift {o : Effects} {n m : Nat} {newline : Bool} (ho : Only OneLine o) (e : m = n + k) : Sh k .start (Effects.toSexpr o n newline) (.after newline) (Effects.toSexpr o m newline) := by
  unfold Effects.toSexpr
  shifts

theorem Effects.toSexpr_inline {o : Effects} {n : Nat} {newline : Bool} (ho : Only OneLine o) : Sh k .inside (Effects.toSexpr o n newline) (.after newline) (Effects.toSexpr o n newline) := by
  unfold Effects.toSexpr
  shifts

theorem Net.toSexpr_shift {o : Net} {n m : Nat} {newline : Bool} (ho : Only OneLine o) (e : m = n + k) : Sh k .start (Net.toSexpr o n newline) (.after newline) (Net.toSexpr o m newline) := by
  unfold Net.toSexpr
  shifts

theorem Net.toSexpr_inline {o : Net} {n : Nat} {newline : Bool} (ho : Only OneLine o) : Sh k .inside (Net.toSexpr o n newline) (.after newline) (Net.toSexpr o n newline) := by
  unfold Net.toSexpr
  shifts

theorem Group.toSexpr_shift {o : Group} {n m : Nat} {newline : Bool} (ho : Only OneLine o) (e : m = n + k) : Sh k .start (Group.toSexpr o n newline) (.after newline) (Group.toSexpr o m newline) := by
  unfold Group.toSexpr
  shifts

theorem PageSettings.toSexpr_shift {o : PageSettings} {n m : Nat} {newline : Bool} (ho : Only OneLine o) (e : m = n + k) : ShM k .start (PageSettings.toSexpr o n newline) (.after newline) (PageSettings.toSexpr o m newline) := by
  unfold PageSettings.toSexpr
  shifts

theorem PageSettings.toSexpr_inline {o : PageSettings} {n : Nat} {newline : Bool} (ho : Only OneLine o) : ShM k .inside (PageSettings.toSexpr o n newline) (.after newline) (PageSettings.toSexpr o n newline) := by
  unfold PageSettings.toSexpr
  shifts

theorem TitleBlock.toSexpr_shift {o : TitleBlock} {n m : Nat} {newline : Bool} (ho : Only OneLine o) (e : m = n + k) : Sh k .start (TitleBlock.toSexpr o n newline) (.after newline) (TitleBlock.toSexpr o m newline) := by
  unfold TitleBlock.toSexpr
  shifts

theorem Property.toSexpr_shift {o : Property} {n m : Nat} {newline : Bool} (ho : Only OneLine o) (e : m = n + k) : Sh k .start (Property.toSexpr o n newline) (.after newline) (Property.toSexpr o m newline) := by
  unfold Property.toSexpr
  shifts

theorem RenderCachePolygon.toSexpr_shift {o : RenderCachePolygon} {n m : Nat} {newline : Bool} (ho : Only OneLine o) (hm : o.Movable) (e : m = n + k) : Sh k .start (RenderCachePolygon.toSexpr o n newline) (.after newline) (RenderCachePolygon.toSexpr o m newline) := by
  obtain ⟨pts⟩ := o
  have hp := RenderCachePolygon.pts_only ho
  unfold RenderCachePolygon.toSexpr
  match pts, hm, hp with
  | [], _, _ => simp only [List.zipIdx_nil, forS_nil]; shifts
  | [p], _, hp =>
    have hp : Only OneLine p := hp.head
    simp only [List.zipIdx_cons, List.zipIdx_nil, forS, List.flatMap_cons, List.flatMap_nil, ifS, Nat.zero_mod, beq_self_eq_true, if_true]
    shifts

theorem RenderCache.toSexpr_shift {o : RenderCache} {n m : Nat} {newline : Bool} (ho : Only OneLine o) (hm : o.Movable) (e : m = n + k) : Sh k .start (RenderCache.toSexpr o n newline) (.after newline) (RenderCache.toSexpr o m newline) := by
  unfold RenderCache.toSexpr
  unfold RenderCache.Movable at hm
  shifts

theorem Fill.toSexpr_shift {o : Fill} {n m : Nat} {newline : Bool} (ho : Only OneLine o) (e : m = n + k) : Sh k .start (Fill.toSexpr o n newline) (.after newline) (Fill.toSexpr o m newline) := by
  unfold Fill.toSexpr
  shifts

theorem Fill.toSexpr_inline {o : Fill} {n : Nat} {newline : Bool} (ho : Only OneLine o) : Sh k .inside (Fill.toSexpr o n newline) (.after newline) (Fill.toSexpr o n newline) := by
  unfold Fill.toSexpr
  shifts

theorem Image.toSexpr_shift {o : Image} {n m : Nat} {newline : Bool} (ho : Only OneLine o) (e : m = n + k) : Sh k .start (Image.toSexpr o n newline) (.after newline) (Image.toSexpr o m newline) := by
  unfold Image.toSexpr
  shifts

/-! ## Model/Libraries.lean -/

theorem Library.toSexpr_shift {o : Library} {n m : Nat} {newline : Bool} (ho : Only OneLine o) (e : m = n + k) : Sh k .start (Library.toSexpr o n newline) (.after newline) (Library.toSexpr o m newline) := by
  unfold Library.toSexpr
  shifts

theorem Library.toSexpr_inline {o : Library} {n : Nat} {newline : Bool} (ho : Only OneLine o) : Sh k .inside (Library.toSexpr o n newline) (.after newline) (Library.toSexpr o n newline) := by
  unfold Library.toSexpr
  shifts

theorem LibTable.toSexpr_shift {o : LibTable} {n m : Nat} {newline : Bool} (ho : Only OneLine o) (hm : o.Movable) (e : m = n + k) : Sh k .start (LibTable.toSexpr o n newline) (.after newline) (LibTable.toSexpr o m newline) := by
  unfold LibTable.toSexpr
  rw [LibTable.Movable] at hm
  simp only [hm, forS_nil]
  shifts

/-! ## Model/Dru.lean -/

theorem Constraint.toSexpr_shift {o : Constraint} {n m : Nat} {newline : Bool} (ho : Only OneLine o) (e : m = n + k) : ShM k .start (Constraint.toSexpr o n newline) (.after newline) (Constraint.toSexpr o m newline) := by
  unfold Constraint.toSexpr
  shifts

theorem Constraint.toSexpr_inline {o : Constraint} {n : Nat} {newline : Bool} (ho : Only OneLine o) : ShM k .inside (Constraint.toSexpr o n newline) (.after newline) (Constraint.toSexpr o n newline) := by
  unfold Constraint.toSexpr
  shifts

theorem Rule.toSexpr_shift {o : Rule} {n m : Nat} (ho : Only OneLine o) (hm : o.Movable) (e : m = n + k) : ShM k .start (Rule.toSexpr o n) (.after true) (Rule.toSexpr o m) := by
  unfold Rule.toSexpr
  rw [Rule.Movable] at hm
  simp only [hm, forSM_nil, bind_okS]
  shifts

theorem DesignRules.toSexpr_shift {o : DesignRules} {n m : Nat} {newline : Bool} (ho : Only OneLine o) (hm : o.Movable) (e : m = n + k) : ShM k .start (DesignRules.toSexpr o n newline) .start (DesignRules.toSexpr o m newline) := by
  unfold DesignRules.toSexpr
  rw [DesignRules.Movable] at hm
  simp only [hm, forSM_nil, bind_okS, List.isEmpty_nil, if_true]
  shifts

/-! ## Model/Wks.lean -/

theorem WksFontSize.toSexpr_shift {o : WksFontSize} {n m : Nat} {newline : Bool} (ho : Only OneLine o) (e : m = n + k) : Sh k .start (WksFontSize.toSexpr o n newline) (.after newline) (WksFontSize.toSexpr o m newline) := by
  unfold WksFontSize.toSexpr
  shifts

theorem WksFontSize.toSexpr_inline {o : WksFontSize} {n : Nat} {newline : Bool} (ho : Only OneLine o) : Sh k .inside (WksFontSize.toSexpr o n newline) (.after newline) (WksFontSize.toSexpr o n newline) := by
  unfold WksFontSize.toSexpr
  shifts

theorem WksFont.toSexpr_shift {o : WksFont} {n m : Nat} (ho : Only OneLine o) (e : m = n + k) : Sh k .start (WksFont.toSexpr o n true) .start (WksFont.toSexpr o m true) := by
  unfold WksFont.toSexpr
  shifts

theorem WksFont.toSexpr_inline {o : WksFont} {n : Nat} (ho : Only OneLine o) : Sh k .inside (WksFont.toSexpr o n) .inside (WksFont.toSexpr o n) := by
  unfold WksFont.toSexpr
  have : Sh k .inside (indents n) .inside (indents n) := .oneLine indents_oneLine
  shifts

theorem WksPosition.text_inline {p : WksPosition} (hp : Only OneLine p) : Sh k .inside (WksPosition.text p) .inside (WksPosition.text p) := by
  unfold WksPosition.text
  shifts

theorem WksShape.toSexpr_shift {head : Str} {o : WksShape} {n m : Nat} {newline : Bool} (hhead : OneLine head) (ho : Only OneLine o) (hm : o.Movable) (e : m = n + k) : Sh k .start (WksShape.toSexpr head o n newline) (.after newline) (WksShape.toSexpr head o m newline) := by
  have h : Sh k .inside (kw head) .inside (kw head) := .oneLine hhead
  unfold WksShape.toSexpr
  rw [WksShape.Movable] at hm
  simp only [hm, optS_none]
  shifts

theorem Bitmap.toSexpr_shift {o : Bitmap} {n m : Nat} {newline : Bool} (ho : Only OneLine o) (hm : o.Movable) (e : m = n + k) : Sh k .start (Bitmap.toSexpr o n newline) (.after newline) (Bitmap.toSexpr o m newline) := by
  unfold Bitmap.toSexpr
  rw [Bitmap.Movable] at hm
  simp only [hm, optS_none]
  shifts

theorem TbText.toSexpr_shift {o : TbText} {n m : Nat} {newline : Bool} (ho : Only OneLine o) (hm : o.Movable) (e : m = n + k) : Sh k .start (TbText.toSexpr o n newline) (.after newline) (TbText.toSexpr o m newline) := by
  unfold TbText.toSexpr
  rw [TbText.Movable] at hm
  simp only [hm, optS_none]
  shifts

theorem TextSize.toSexpr_shift {o : TextSize} {n m : Nat} {newline : Bool} (ho : Only OneLine o) (e : m = n + k) : Sh k .start (TextSize.toSexpr o n newline) (.after newline) (TextSize.toSexpr o m newline) := by
  unfold TextSize.toSexpr
  shifts

theorem TextSize.toSexpr_inline {o : TextSize} {n : Nat} {newline : Bool} (ho : Only OneLine o) : Sh k .inside (TextSize.toSexpr o n newline) (.after newline) (TextSize.toSexpr o n newline) := by
  unfold TextSize.toSexpr
  shifts

theorem Setup.toSexpr_shift {o : Setup} {n m : Nat} {newline : Bool} (ho : Only OneLine o) (e : m = n + k) : Sh k .start (Setup.toSexpr o n newline) (.after newline) (Setup.toSexpr o m newline) := by
  unfold Setup.toSexpr
  shifts

theorem WksItem.toSexpr_shift {o : WksItem} {n m : Nat} (ho : Only OneLine o) (hm : o.Movable) (e : m = n + k) : ShM k .start (WksItem.toSexpr o n) (.after true) (WksItem.toSexpr o m) := by
  cases o with
  | line a => have := WksItem.line_case ho; have hm : a.Movable := hm; have := WksShape.toSexpr_shift (newline := true) (.lit (s := k!"line") rfl) this hm e; unfold WksItem.toSexpr; shifts
  | rect a => have := WksItem.rect_case ho; have hm : a.Movable := hm; have := WksShape.toSexpr_shift (newline := true) (.lit (s := k!"rect") rfl) this hm e; unfold WksItem.toSexpr; shifts
  | polygon => unfold WksItem.toSexpr; shifts
  | bitmap a => have := WksItem.bitmap_case ho; have hm : a.Movable := hm; unfold WksItem.toSexpr; shifts
  | tbtext a => have := WksItem.tbtext_case ho; have hm : a.Movable := hm; unfold WksItem.toSexpr; shifts

theorem WorkSheet.toSexpr_shift {o : WorkSheet} {n m : Nat} {newline : Bool} (ho : Only OneLine o) (hm : o.Movable) (e : m = n + k) : ShM k .start (WorkSheet.toSexpr o n newline) (.after newline) (WorkSheet.toSexpr o m newline) := by
  unfold WorkSheet.toSexpr
  unfold WorkSheet.Movable at hm
  shifts

/-! ## Model/SyItems.lean -/

theorem Position.ang_inline {p : Position} (hp : Only OneLine p) : Sh k .inside (Position.ang p) .inside (Position.ang p) := by
  unfold Position.ang
  shifts

theorem SyArc.toSexpr_shift {o : SyArc} {n m : Nat} {newline : Bool} (ho : Only OneLine o) (e : m = n + k) : Sh k .start (SyArc.toSexpr o n newline) (.after newline) (SyArc.toSexpr o m newline) := by
  unfold SyArc.toSexpr
  shifts

theorem SyCircle.toSexpr_shift {o : SyCircle} {n m : Nat} {newline : Bool} (ho : Only OneLine o) (e : m = n + k) : Sh k .start (SyCircle.toSexpr o n newline) (.after newline) (SyCircle.toSexpr o m newline) := by
  unfold SyCircle.toSexpr
  shifts

theorem SyCurve.toSexpr_shift {o : SyCurve} {n m : Nat} {newline : Bool} (ho : Only OneLine o) (e : m = n + k) : Sh k .start (SyCurve.toSexpr o n newline) (.after newline) (SyCurve.toSexpr o m newline) := by
  unfold SyCurve.toSexpr
  shifts

theorem SyPolyLine.toSexpr_shift {o : SyPolyLine} {n m : Nat} {newline : Bool} (ho : Only OneLine o) (e : m = n + k) : Sh k .start (SyPolyLine.toSexpr o n newline) (.after newline) (SyPolyLine.toSexpr o m newline) := by
  unfold SyPolyLine.toSexpr
  shifts

theorem SyRect.toSexpr_shift {o : SyRect} {n m : Nat} {newline : Bool} (ho : Only OneLine o) (e : m = n + k) : Sh k .start (SyRect.toSexpr o n newline) (.after newline) (SyRect.toSexpr o m newline) := by
  unfold SyRect.toSexpr
  shifts

theorem SyText.toSexpr_shift {o : SyText} {n m : Nat} {newline : Bool} (ho : Only OneLine o) (e : m = n + k) : Sh k .start (SyText.toSexpr o n newline) (.after newline) (SyText.toSexpr o m newline) := by
  unfold SyText.toSexpr
  shifts

theorem SyTextBox.toSexpr_shift {o : SyTextBox} {n m : Nat} {newline : Bool} (ho : Only OneLine o) (e : m = n + k) : Sh k .start (SyTextBox.toSexpr o n newline) (.after newline) (SyTextBox.toSexpr o m newline) := by
  unfold SyTextBox.toSexpr
  shifts

theorem SyItem.toSexpr_shift {o : SyItem} {n m : Nat} (ho : Only OneLine o) (e : m = n + k) : Sh k .start (SyItem.toSexpr o n) (.after true) (SyItem.toSexpr o m) := by
  cases o with
  | arc a => have := SyItem.arc_case ho; unfold SyItem.toSexpr; shifts
  | circle a => have := SyItem.circle_case ho; unfold SyItem.toSexpr; shifts
  | curve a => have := SyItem.curve_case ho; unfold SyItem.toSexpr; shifts
  | polyline a => have := SyItem.polyline_case ho; unfold SyItem.toSexpr; shifts
  | rect a => have := SyItem.rect_case ho; unfold SyItem.toSexpr; shifts
  | text a => have := SyItem.text_case ho; unfold SyItem.toSexpr; shifts
  | textBox a => have := SyItem.textBox_case ho; unfold SyItem.toSexpr; shifts

/-! ## Model/Symbol.lean -/

theorem SymbolAlternativePin.toSexpr_shift {o : SymbolAlternativePin} {n m : Nat} {newline : Bool} (ho : Only OneLine o) (e : m = n + k) : Sh k .start (SymbolAlternativePin.toSexpr o n newline) (.after newline) (SymbolAlternativePin.toSexpr o m newline) := by
  unfold SymbolAlternativePin.toSexpr
  shifts

theorem SymbolAlternativePin.toSexpr_inline {o : SymbolAlternativePin} {n : Nat} {newline : Bool} (ho : Only OneLine o) : Sh k .inside (SymbolAlternativePin.toSexpr o n newline) (.after newline) (SymbolAlternativePin.toSexpr o n newline) := by
  unfold SymbolAlternativePin.toSexpr
  shifts

theorem SymbolPin.toSexpr_shift {o : SymbolPin} {n m : Nat} {newline : Bool} (ho : Only OneLine o) (e : m = n + k) : Sh k .start (SymbolPin.toSexpr o n newline) (.after newline) (SymbolPin.toSexpr o m newline) := by
  unfold SymbolPin.toSexpr
  cases h : (o.nameEffects.isSome || o.numberEffects.isSome)
  · cases h' : o.alternatePins with
    | nil => simp only [forS_nil, List.isEmpty_nil, ifS, Bool.not_true, Bool.and_false, Bool.or_false, Bool.false_eq_true, if_false]; shifts
    | cons a r =>
      have : Only OneLine (a :: r) := h' ▸ SymbolPin.alternatePins_only ho
      simp only [List.isEmpty_cons, ifS, Bool.not_false, Bool.and_true, Bool.or_true, Bool.false_eq_true, if_true, if_false]; shifts
  · simp only [ifS, Bool.not_true, Bool.false_and, Bool.true_or, if_true]; shifts

theorem Symbol.libId_inline {o : Symbol} (ho : Only OneLine o) : Sh k .inside (Symbol.libId o) .inside (Symbol.libId o) := by
  unfold Symbol.libId
  shifts

theorem Symbol.textFlat_shift {o : Symbol} {n m : Nat} (ho : Only OneLine o) (e : m = n + k) : Sh k .start (Symbol.textFlat o n) .start (Symbol.textFlat o m) := by
  unfold Symbol.textFlat
  have := libIdS_inline (k := k) ho
  shifts

mutual

theorem Symbol.toSexpr_shift {o : Symbol} {i j : Nat} {nl : Bool} (ho : Only OneLine o) (he : j = i + k) : Sh k .start (o.toSexpr i nl) (.after nl) (o.toSexpr j nl) := by
  match o, ho with
  | ⟨a, b, c, d, e, f, g, h, l, q, r, s, t, u, v, us⟩, ho =>
    have h1 := Symbol.textFlat_shift ho he
    have h2 := Symbol.textUnits_shift (l := us) (i := i + 2) (j := j + 2) (Symbol.units_only ho) (by omega)
    rw [Symbol.toSexpr, Symbol.toSexpr]
    shifts

theorem Symbol.textUnits_shift {l : List Symbol} {i j : Nat} (h : Only OneLine l) (he : j = i + k) : Sh k .start (Symbol.textUnits l i) .start (Symbol.textUnits l j) := by
  match l, h with
  | [], _ => rw [Symbol.textUnits, Symbol.textUnits]; exact .nil
  | u :: r, h =>
    rw [Symbol.textUnits, Symbol.textUnits]
    exact .append (Symbol.toSexpr_shift (nl := true) h.head he) (Symbol.textUnits_shift h.tail he)

end

theorem SymbolLib.toSexpr_shift {o : SymbolLib} {n m : Nat} {newline : Bool} (ho : Only OneLine o) (hm : o.Movable) (e : m = n + k) : Sh k .start (SymbolLib.toSexpr o n newline) (.after newline) (SymbolLib.toSexpr o m newline) := by
  unfold SymbolLib.toSexpr
  rw [SymbolLib.Movable] at hm
  simp only [hm, forS_nil]
  shifts

/-! ## Model/SchItems.lean -/

theorem JunctionColor.toSexpr_inline {o : JunctionColor} (ho : Only OneLine o) : ShM k .inside o.toSexpr .inside o.toSexpr := by
  cases o with
  | rgba c => have := JunctionColor.rgba_case ho; unfold JunctionColor.toSexpr; shifts
  | raw v => exact .error

theorem Junction.toSexpr_shift {o : Junction} {n m : Nat} {newline : Bool} (ho : Only OneLine o) (hm : o.Movable) (e : m = n + k) : ShM k .start (Junction.toSexpr o n newline) (.after newline) (Junction.toSexpr o m newline) := by
  unfold Junction.toSexpr
  rw [Junction.Movable] at hm
  obtain ⟨u, h⟩ := Option.ne_none_iff_exists'.1 hm
  have : Only OneLine u := (h ▸ Junction.uuid_only ho).some
  simp only [h, optS]
  shifts

theorem NoConnect.toSexpr_shift {o : NoConnect} {n m : Nat} {newline : Bool} (ho : Only OneLine o) (e : m = n + k) : Sh k .start (NoConnect.toSexpr o n newline) (.after newline) (NoConnect.toSexpr o m newline) := by
  unfold NoConnect.toSexpr
  shifts

theorem NoConnect.toSexpr_inline {o : NoConnect} {n : Nat} {newline : Bool} (ho : Only OneLine o) : Sh k .inside (NoConnect.toSexpr o n newline) (.after newline) (NoConnect.toSexpr o n newline) := by
  unfold NoConnect.toSexpr
  shifts

theorem BusEntry.toSexpr_shift {o : BusEntry} {n m : Nat} {newline : Bool} (ho : Only OneLine o) (e : m = n + k) : Sh k .start (BusEntry.toSexpr o n newline) (.after newline) (BusEntry.toSexpr o m newline) := by
  unfold BusEntry.toSexpr
  shifts

theorem joinQuoted_inline {l : List Val} (h : Only OneLine l) : Sh k .inside (joinQuoted l) .inside (joinQuoted l) := by
  induction l with
  | nil => rw [joinQuoted]; exact .nil
  | cons v r ih =>
    have hv := h.head
    cases r with
    | nil => rw [joinQuoted]; shifts
    | cons w r => have := ih h.tail; rw [joinQuoted]; (shifts); exact nofun

theorem BusAlias.toSexpr_shift {o : BusAlias} {n m : Nat} {newline : Bool} (ho : Only OneLine o) (e : m = n + k) : Sh k .start (BusAlias.toSexpr o n newline) (.after newline) (BusAlias.toSexpr o m newline) := by
  unfold BusAlias.toSexpr
  shifts

theorem BusAlias.toSexpr_inline {o : BusAlias} {n : Nat} {newline : Bool} (ho : Only OneLine o) : Sh k .inside (BusAlias.toSexpr o n newline) (.after newline) (BusAlias.toSexpr o n newline) := by
  unfold BusAlias.toSexpr
  shifts

theorem Connection.toSexpr_shift {o : Connection} {n m : Nat} {newline : Bool} (ho : Only OneLine o) (e : m = n + k) : Sh k .start (Connection.toSexpr o n newline) (.after newline) (Connection.toSexpr o m newline) := by
  unfold Connection.toSexpr
  shifts

theorem PolyLine.toSexpr_shift {o : PolyLine} {n m : Nat} {newline : Bool} (ho : Only OneLine o) (e : m = n + k) : Sh k .start (PolyLine.toSexpr o n newline) (.after newline) (PolyLine.toSexpr o m newline) := by
  unfold PolyLine.toSexpr
  shifts

theorem Text.toSexpr_shift {o : Text} {n m : Nat} {newline : Bool} (ho : Only OneLine o) (e : m = n + k) : ShM k .start (Text.toSexpr o n newline) (.after newline) (Text.toSexpr o m newline) := by
  unfold Text.toSexpr
  shifts

theorem TextBox.toSexpr_shift {o : TextBox} {n m : Nat} {newline : Bool} (ho : Only OneLine o) (e : m = n + k) : Sh k .start (TextBox.toSexpr o n newline) (.after newline) (TextBox.toSexpr o m newline) := by
  unfold TextBox.toSexpr
  shifts

theorem LocalLabel.toSexpr_shift {o : LocalLabel} {n m : Nat} {newline : Bool} (ho : Only OneLine o) (e : m = n + k) : Sh k .start (LocalLabel.toSexpr o n newline) (.after newline) (LocalLabel.toSexpr o m newline) := by
  unfold LocalLabel.toSexpr
  shifts

theorem GlobalLabel.toSexpr_shift {o : GlobalLabel} {n m : Nat} {newline : Bool} (ho : Only OneLine o) (e : m = n + k) : Sh k .start (GlobalLabel.toSexpr o n newline) (.after newline) (GlobalLabel.toSexpr o m newline) := by
  unfold GlobalLabel.toSexpr
  shifts

theorem HierarchicalLabel.toSexpr_shift {o : HierarchicalLabel} {n m : Nat} {newline : Bool} (ho : Only OneLine o) (e : m = n + k) : Sh k .start (HierarchicalLabel.toSexpr o n newline) (.after newline) (HierarchicalLabel.toSexpr o m newline) := by
  unfold HierarchicalLabel.toSexpr
  shifts

theorem SymbolProjectPath.toSexpr_shift {o : SymbolProjectPath} {n m : Nat} {newline : Bool} (ho : Only OneLine o) (e : m = n + k) : Sh k .start (SymbolProjectPath.toSexpr o n newline) (.after newline) (SymbolProjectPath.toSexpr o m newline) := by
  unfold SymbolProjectPath.toSexpr
  shifts

theorem SymbolProjectInstance.toSexpr_shift {o : SymbolProjectInstance} {n m : Nat} {newline : Bool} (ho : Only OneLine o) (e : m = n + k) : Sh k .start (SymbolProjectInstance.toSexpr o n newline) (.after newline) (SymbolProjectInstance.toSexpr o m newline) := by
  unfold SymbolProjectInstance.toSexpr
  shifts

theorem SchematicSymbol.libId_inline {o : SchematicSymbol} (ho : Only OneLine o) : Sh k .inside (SchematicSymbol.libId o) .inside (SchematicSymbol.libId o) := by
  unfold SchematicSymbol.libId
  shifts

theorem SchematicSymbol.toSexpr_shift {o : SchematicSymbol} {n m : Nat} {newline : Bool} (ho : Only OneLine o) (e : m = n + k) : Sh k .start (SchematicSymbol.toSexpr o n newline) (.after newline) (SchematicSymbol.toSexpr o m newline) := by
  unfold SchematicSymbol.toSexpr
  have := libIdC_inline (k := k) ho
  shifts

theorem HierarchicalPin.toSexpr_shift {o : HierarchicalPin} {n m : Nat} {newline : Bool} (ho : Only OneLine o) (e : m = n + k) : Sh k .start (HierarchicalPin.toSexpr o n newline) (.after newline) (HierarchicalPin.toSexpr o m newline) := by
  unfold HierarchicalPin.toSexpr
  shifts

theorem HierarchicalSheetProjectPath.toSexpr_shift {o : HierarchicalSheetProjectPath} {n m : Nat} {newline : Bool} (ho : Only OneLine o) (e : m = n + k) : Sh k .start (HierarchicalSheetProjectPath.toSexpr o n newline) (.after newline) (HierarchicalSheetProjectPath.toSexpr o m newline) := by
  unfold HierarchicalSheetProjectPath.toSexpr
  shifts

theorem HierarchicalSheetProjectPath.toSexpr_inline {o : HierarchicalSheetProjectPath} {n : Nat} {newline : Bool} (ho : Only OneLine o) : Sh k .inside (HierarchicalSheetProjectPath.toSexpr o n newline) (.after newline) (HierarchicalSheetProjectPath.toSexpr o n newline) := by
  unfold HierarchicalSheetProjectPath.toSexpr
  shifts

theorem HierarchicalSheetProjectInstance.toSexpr_shift {o : HierarchicalSheetProjectInstance} {n m : Nat} {newline : Bool} (ho : Only OneLine o) (e : m = n + k) : Sh k .start (HierarchicalSheetProjectInstance.toSexpr o n newline) (.after newline) (HierarchicalSheetProjectInstance.toSexpr o m newline) := by
  unfold HierarchicalSheetProjectInstance.toSexpr
  shifts

theorem HierarchicalSheet.toSexpr_shift {o : HierarchicalSheet} {n m : Nat} {newline : Bool} (ho : Only OneLine o) (e : m = n + k) : ShM k .start (HierarchicalSheet.toSexpr o n newline) (.after newline) (HierarchicalSheet.toSexpr o m newline) := by
  unfold HierarchicalSheet.toSexpr
  shifts

theorem HierarchicalSheetInstance.toSexpr_shift {o : HierarchicalSheetInstance} {n m : Nat} {newline : Bool} (ho : Only OneLine o) (e : m = n + k) : Sh k .start (HierarchicalSheetInstance.toSexpr o n newline) (.after newline) (HierarchicalSheetInstance.toSexpr o m newline) := by
  unfold HierarchicalSheetInstance.toSexpr
  shifts

theorem HierarchicalSheetInstance.toSexpr_inline {o : HierarchicalSheetInstance} {n : Nat} {newline : Bool} (ho : Only OneLine o) : Sh k .inside (HierarchicalSheetInstance.toSexpr o n newline) (.after newline) (HierarchicalSheetInstance.toSexpr o n newline) := by
  unfold HierarchicalSheetInstance.toSexpr
  shifts

theorem SymbolInstance.toSexpr_shift {o : SymbolInstance} {n m : Nat} {newline : Bool} (ho : Only OneLine o) (e : m = n + k) : Sh k .start (SymbolInstance.toSexpr o n newline) (.after newline) (SymbolInstance.toSexpr o m newline) := by
  unfold SymbolInstance.toSexpr
  shifts

theorem Rectangle.toSexpr_shift {o : Rectangle} {n m : Nat} {newline : Bool} (ho : Only OneLine o) (e : m = n + k) : Sh k .start (Rectangle.toSexpr o n newline) (.after newline) (Rectangle.toSexpr o m newline) := by
  unfold Rectangle.toSexpr
  shifts

theorem Arc.toSexpr_shift {o : Arc} {n m : Nat} {newline : Bool} (ho : Only OneLine o) (e : m = n + k) : Sh k .start (Arc.toSexpr o n newline) (.after newline) (Arc.toSexpr o m newline) := by
  unfold Arc.toSexpr
  shifts

theorem Circle.toSexpr_shift {o : Circle} {n m : Nat} {newline : Bool} (ho : Only OneLine o) (e : m = n + k) : Sh k .start (Circle.toSexpr o n newline) (.after newline) (Circle.toSexpr o m newline) := by
  unfold Circle.toSexpr
  shifts

theorem NetclassFlag.effectsText_shift {x : Option Effects} {n m : Nat} (hx : Only OneLine x) (e : m = n + k) : ShM k .start (NetclassFlag.effectsText x n) (.after true) (NetclassFlag.effectsText x m) := by
  cases x with
  | none => exact .error
  | some x => have := hx.some; unfold NetclassFlag.effectsText; shifts

theorem NetclassFlag.effectsText_inline {e : Option Effects} {n : Nat} (he : Only OneLine e) : ShM k .inside (NetclassFlag.effectsText e n) (.after true) (NetclassFlag.effectsText e n) := by
  unfold NetclassFlag.effectsText
  shifts

theorem NetclassFlag.toSexpr_shift {o : NetclassFlag} {n m : Nat} {newline : Bool} (ho : Only OneLine o) (e : m = n + k) : ShM k .start (NetclassFlag.toSexpr o n newline) (.after newline) (NetclassFlag.toSexpr o m newline) := by
  unfold NetclassFlag.toSexpr
  shifts

/-! ## Model/Schematic.lean -/

theorem SchGraphic.toSexpr_shift {o : SchGraphic} {n m : Nat} (ho : Only OneLine o) (e : m = n + k) : Sh k .start (SchGraphic.toSexpr o n) (.after true) (SchGraphic.toSexpr o m) := by
  cases o with
  | connection a => have := SchGraphic.connection_case ho; unfold SchGraphic.toSexpr; shifts
  | polyline a => have := SchGraphic.polyline_case ho; unfold SchGraphic.toSexpr; shifts

theorem SchShape.toSexpr_shift {o : SchShape} {n m : Nat} (ho : Only OneLine o) (e : m = n + k) : Sh k .start (SchShape.toSexpr o n) (.after true) (SchShape.toSexpr o m) := by
  cases o with
  | arc a => have := SchShape.arc_case ho; unfold SchShape.toSexpr; shifts
  | circle a => have := SchShape.circle_case ho; unfold SchShape.toSexpr; shifts
  | rectangle a => have := SchShape.rectangle_case ho; unfold SchShape.toSexpr; shifts

theorem Schematic.toSexpr_shift {o : Schematic} {n m : Nat} {newline : Bool} (ho : Only OneLine o) (hm : o.Movable) (e : m = n + k) : ShM k .start (Schematic.toSexpr o n newline) (.after newline) (Schematic.toSexpr o m newline) := by
  unfold Schematic.toSexpr
  obtain ⟨hj, hs, hy⟩ := hm
  have hl : Sh k .start
      (if o.libSymbols.isEmpty then py!"{indents n}  (lib_symbols)\n"
        else py!"\n{indents n}  (lib_symbols" ++ (forS o.libSymbols fun s => py!"\n{s.toSexpr (n + 4)}") ++ py!"{indents n}  )\n") .start
      (if o.libSymbols.isEmpty then py!"{indents m}  (lib_symbols)\n"
        else py!"\n{indents m}  (lib_symbols" ++ (forS o.libSymbols fun s => py!"\n{s.toSexpr (m + 4)}") ++ py!"{indents m}  )\n") := by
    cases h : o.libSymbols with
    | nil => simp only [List.isEmpty_nil, if_true]; shifts
    | cons a r =>
      have hr : Only OneLine (a :: r) := h ▸ Schematic.libSymbols_only ho
      have := Sh.forSL (k := k) (f := fun s => s.toSexpr (n + 4)) (f' := fun s => s.toSexpr (m + 4)) hr fun x hx => Symbol.toSexpr_shift (nl := true) hx (by omega)
      simp only [List.isEmpty_cons, Bool.false_eq_true, if_false]
      shifts
  simp only [hs, hy, List.isEmpty_nil, ifS, Bool.not_true, Bool.false_eq_true, if_false]
  shifts

/-! ## Model/GrItems.lean -/

theorem Position.sang_inline {p : Position} (hp : Only OneLine p) : Sh k .inside (Position.sang p) .inside (Position.sang p) := by
  unfold Position.sang
  shifts

theorem GrText.toSexpr_shift {o : GrText} {n m : Nat} {newline : Bool} (ho : Only OneLine o) (hm : o.Movable) (e : m = n + k) : Sh k .start (GrText.toSexpr o n newline) (.after newline) (GrText.toSexpr o m newline) := by
  unfold GrText.toSexpr
  unfold GrText.Movable at hm
  shifts

theorem GrTextBox.toSexpr_shift {o : GrTextBox} {n m : Nat} {newline : Bool} (ho : Only OneLine o) (hm : o.Movable) (e : m = n + k) : ShM k .start (GrTextBox.toSexpr o n newline) (.after newline) (GrTextBox.toSexpr o m newline) := by
  unfold GrTextBox.toSexpr
  unfold GrTextBox.Movable at hm
  shifts

theorem GrLine.toSexpr_shift {o : GrLine} {n m : Nat} {newline : Bool} (ho : Only OneLine o) (e : m = n + k) : Sh k .start (GrLine.toSexpr o n newline) (.after newline) (GrLine.toSexpr o m newline) := by
  unfold GrLine.toSexpr
  shifts

theorem GrLine.toSexpr_inline {o : GrLine} {n : Nat} {newline : Bool} (ho : Only OneLine o) : Sh k .inside (GrLine.toSexpr o n newline) (.after newline) (GrLine.toSexpr o n newline) := by
  unfold GrLine.toSexpr
  shifts

theorem GrRect.toSexpr_shift {o : GrRect} {n m : Nat} {newline : Bool} (ho : Only OneLine o) (e : m = n + k) : Sh k .start (GrRect.toSexpr o n newline) (.after newline) (GrRect.toSexpr o m newline) := by
  unfold GrRect.toSexpr
  shifts

theorem GrRect.toSexpr_inline {o : GrRect} {n : Nat} {newline : Bool} (ho : Only OneLine o) : Sh k .inside (GrRect.toSexpr o n newline) (.after newline) (GrRect.toSexpr o n newline) := by
  unfold GrRect.toSexpr
  shifts

theorem GrCircle.toSexpr_shift {o : GrCircle} {n m : Nat} {newline : Bool} (ho : Only OneLine o) (e : m = n + k) : Sh k .start (GrCircle.toSexpr o n newline) (.after newline) (GrCircle.toSexpr o m newline) := by
  unfold GrCircle.toSexpr
  shifts

theorem GrCircle.toSexpr_inline {o : GrCircle} {n : Nat} {newline : Bool} (ho : Only OneLine o) : Sh k .inside (GrCircle.toSexpr o n newline) (.after newline) (GrCircle.toSexpr o n newline) := by
  unfold GrCircle.toSexpr
  shifts

theorem GrArc.toSexpr_shift {o : GrArc} {n m : Nat} {newline : Bool} (ho : Only OneLine o) (e : m = n + k) : Sh k .start (GrArc.toSexpr o n newline) (.after newline) (GrArc.toSexpr o m newline) := by
  unfold GrArc.toSexpr
  shifts

theorem GrArc.toSexpr_inline {o : GrArc} {n : Nat} {newline : Bool} (ho : Only OneLine o) : Sh k .inside (GrArc.toSexpr o n newline) (.after newline) (GrArc.toSexpr o n newline) := by
  unfold GrArc.toSexpr
  shifts

theorem GrPoly.toSexpr_shift {o : GrPoly} {n m : Nat} {newline : Bool} {ptsNewline : Bool} (ho : Only OneLine o) (e : m = n + k) : Sh k .start (GrPoly.toSexpr o n newline ptsNewline) (.after newline) (GrPoly.toSexpr o m newline ptsNewline) := by
  unfold GrPoly.toSexpr
  shifts

theorem GrCurve.toSexpr_shift {o : GrCurve} {n m : Nat} {newline : Bool} (ho : Only OneLine o) (e : m = n + k) : Sh k .start (GrCurve.toSexpr o n newline) (.after newline) (GrCurve.toSexpr o m newline) := by
  unfold GrCurve.toSexpr
  shifts

theorem GrItem.toSexpr_shift {o : GrItem} {n m : Nat} {newline : Bool} {ptsNewline : Bool} (ho : Only OneLine o) (hm : o.Movable) (e : m = n + k) : ShM k .start (GrItem.toSexpr o n newline ptsNewline) (.after newline) (GrItem.toSexpr o m newline ptsNewline) := by
  cases o with
  | text a => have := GrItem.text_case ho; have hm : a.Movable := hm; unfold GrItem.toSexpr; shifts
  | textBox a => have := GrItem.textBox_case ho; have hm : a.Movable := hm; unfold GrItem.toSexpr; shifts
  | line a => have := GrItem.line_case ho; unfold GrItem.toSexpr; shifts
  | rect a => have := GrItem.rect_case ho; unfold GrItem.toSexpr; shifts
  | circle a => have := GrItem.circle_case ho; unfold GrItem.toSexpr; shifts
  | arc a => have := GrItem.arc_case ho; unfold GrItem.toSexpr; shifts
  | poly a => have := GrItem.poly_case ho; unfold GrItem.toSexpr; shifts
  | curve a => have := GrItem.curve_case ho; unfold GrItem.toSexpr; shifts
  | image a => have := GrItem.image_case ho; unfold GrItem.toSexpr; shifts

/-! ## Model/FpItems.lean -/

theorem FpText.toSexpr_shift {o : FpText} {n m : Nat} {newline : Bool} (ho : Only OneLine o) (hm : o.Movable) (e : m = n + k) : Sh k .start (FpText.toSexpr o n newline) (.after newline) (FpText.toSexpr o m newline) := by
  unfold FpText.toSexpr
  unfold FpText.Movable at hm
  shifts

theorem widthText_inline {width : Option Val} {stroke : Option Stroke} (hwidth : Only OneLine width) (hstroke : Only OneLine stroke) : Sh k .inside (widthText width stroke) .inside (widthText width stroke) := by
  unfold widthText
  shifts

theorem FpLine.toSexpr_shift {o : FpLine} {n m : Nat} {newline : Bool} (ho : Only OneLine o) (e : m = n + k) : Sh k .start (FpLine.toSexpr o n newline) (.after newline) (FpLine.toSexpr o m newline) := by
  unfold FpLine.toSexpr
  shifts

theorem FpLine.toSexpr_inline {o : FpLine} {n : Nat} {newline : Bool} (ho : Only OneLine o) : Sh k .inside (FpLine.toSexpr o n newline) (.after newline) (FpLine.toSexpr o n newline) := by
  unfold FpLine.toSexpr
  shifts

theorem FpRect.toSexpr_shift {o : FpRect} {n m : Nat} {newline : Bool} (ho : Only OneLine o) (e : m = n + k) : Sh k .start (FpRect.toSexpr o n newline) (.after newline) (FpRect.toSexpr o m newline) := by
  unfold FpRect.toSexpr
  shifts

theorem FpRect.toSexpr_inline {o : FpRect} {n : Nat} {newline : Bool} (ho : Only OneLine o) : Sh k .inside (FpRect.toSexpr o n newline) (.after newline) (FpRect.toSexpr o n newline) := by
  unfold FpRect.toSexpr
  shifts

theorem FpTextBox.toSexpr_shift {o : FpTextBox} {n m : Nat} {newline : Bool} (ho : Only OneLine o) (hm : o.Movable) (e : m = n + k) : ShM k .start (FpTextBox.toSexpr o n newline) (.after newline) (FpTextBox.toSexpr o m newline) := by
  unfold FpTextBox.toSexpr
  unfold FpTextBox.Movable at hm
  shifts

theorem FpCircle.toSexpr_shift {o : FpCircle} {n m : Nat} {newline : Bool} (ho : Only OneLine o) (e : m = n + k) : Sh k .start (FpCircle.toSexpr o n newline) (.after newline) (FpCircle.toSexpr o m newline) := by
  unfold FpCircle.toSexpr
  shifts

theorem FpCircle.toSexpr_inline {o : FpCircle} {n : Nat} {newline : Bool} (ho : Only OneLine o) : Sh k .inside (FpCircle.toSexpr o n newline) (.after newline) (FpCircle.toSexpr o n newline) := by
  unfold FpCircle.toSexpr
  shifts

theorem FpArc.toSexpr_shift {o : FpArc} {n m : Nat} {newline : Bool} (ho : Only OneLine o) (e : m = n + k) : Sh k .start (FpArc.toSexpr o n newline) (.after newline) (FpArc.toSexpr o m newline) := by
  unfold FpArc.toSexpr
  shifts

theorem FpArc.toSexpr_inline {o : FpArc} {n : Nat} {newline : Bool} (ho : Only OneLine o) : Sh k .inside (FpArc.toSexpr o n newline) (.after newline) (FpArc.toSexpr o n newline) := by
  unfold FpArc.toSexpr
  shifts

theorem FpPoly.toSexpr_shift {o : FpPoly} {n m : Nat} {newline : Bool} (ho : Only OneLine o) (e : m = n + k) : Sh k .start (FpPoly.toSexpr o n newline) (.after newline) (FpPoly.toSexpr o m newline) := by
  unfold FpPoly.toSexpr
  shifts

theorem FpCurve.toSexpr_shift {o : FpCurve} {n m : Nat} {newline : Bool} (ho : Only OneLine o) (e : m = n + k) : Sh k .start (FpCurve.toSexpr o n newline) (.after newline) (FpCurve.toSexpr o m newline) := by
  unfold FpCurve.toSexpr
  shifts

theorem FpItem.toSexpr_shift {o : FpItem} {n m : Nat} (ho : Only OneLine o) (hm : o.Movable) (e : m = n + k) : ShM k .start (FpItem.toSexpr o n) (.after true) (FpItem.toSexpr o m) := by
  cases o with
  | text a => have := FpItem.text_case ho; have hm : a.Movable := hm; unfold FpItem.toSexpr; shifts
  | textBox a => have := FpItem.textBox_case ho; have hm : a.Movable := hm; unfold FpItem.toSexpr; shifts
  | line a => have := FpItem.line_case ho; unfold FpItem.toSexpr; shifts
  | rect a => have := FpItem.rect_case ho; unfold FpItem.toSexpr; shifts
  | circle a => have := FpItem.circle_case ho; unfold FpItem.toSexpr; shifts
  | arc a => have := FpItem.arc_case ho; unfold FpItem.toSexpr; shifts
  | poly a => have := FpItem.poly_case ho; unfold FpItem.toSexpr; shifts
  | curve a => have := FpItem.curve_case ho; unfold FpItem.toSexpr; shifts
  | image a => have := FpItem.image_case ho; unfold FpItem.toSexpr; shifts

/-! ## Model/Zones.lean -/

theorem KeepoutSettings.toSexpr_shift {o : KeepoutSettings} {n m : Nat} {newline : Bool} (ho : Only OneLine o) (e : m = n + k) : Sh k .start (KeepoutSettings.toSexpr o n newline) (.after newline) (KeepoutSettings.toSexpr o m newline) := by
  unfold KeepoutSettings.toSexpr
  shifts

theorem KeepoutSettings.toSexpr_inline {o : KeepoutSettings} {n : Nat} {newline : Bool} (ho : Only OneLine o) : Sh k .inside (KeepoutSettings.toSexpr o n newline) (.after newline) (KeepoutSettings.toSexpr o n newline) := by
  unfold KeepoutSettings.toSexpr
  shifts

theorem FillSettings.toSexpr_shift {o : FillSettings} {n m : Nat} {newline : Bool} (ho : Only OneLine o) (e : m = n + k) : Sh k .start (FillSettings.toSexpr o n newline) (.after newline) (FillSettings.toSexpr o m newline) := by
  unfold FillSettings.toSexpr
  shifts

theorem ZonePolygon.toSexpr_shift {o : ZonePolygon} {n m : Nat} (ho : Only OneLine o) (e : m = n + k) : Sh k .start (ZonePolygon.toSexpr o n) .start (ZonePolygon.toSexpr o m) := by
  unfold ZonePolygon.toSexpr
  shifts

theorem FilledPolygon.toSexpr_shift {o : FilledPolygon} {n m : Nat} (ho : Only OneLine o) (e : m = n + k) : Sh k .start (FilledPolygon.toSexpr o n) .start (FilledPolygon.toSexpr o m) := by
  unfold FilledPolygon.toSexpr
  shifts

theorem FillSegments.toSexpr_shift {o : FillSegments} {n m : Nat} (ho : Only OneLine o) (e : m = n + k) : Sh k .start (FillSegments.toSexpr o n) .start (FillSegments.toSexpr o m) := by
  unfold FillSegments.toSexpr
  shifts

theorem Zone.layerToken_inline {l : List Val} (hl : Only OneLine l) : ShM k .inside (Zone.layerToken l) .inside (Zone.layerToken l) := by
  unfold Zone.layerToken
  shifts

theorem Zone.toSexpr_shift {o : Zone} {n m : Nat} {newline : Bool} (ho : Only OneLine o) (hm : o.Movable) (e : m = n + k) : ShM k .start (Zone.toSexpr o n newline) (.after newline) (Zone.toSexpr o m newline) := by
  unfold Zone.toSexpr
  rw [Zone.Movable] at hm
  have hf : Sh k .start (optS o.fillSegments fun p => p.toSexpr) .start (optS o.fillSegments fun p => p.toSexpr) := by
    cases e : o.fillSegments with
    | none => exact .nil
    | some p =>
      simp only [optS, FillSegments.toSexpr, hm p e, List.isEmpty_nil, if_true]
      exact .blankLine 4 4
  shifts

/-! ## Model/Footprint.lean -/

theorem Attributes.toSexpr_shift {o : Attributes} {n m : Nat} (ho : Only OneLine o) (e : m = n + k) : Sh k .start (Attributes.toSexpr o n true) .start (Attributes.toSexpr o m true) := by
  unfold Attributes.toSexpr
  shifts

theorem Model.toSexpr_shift {o : Model} {n m : Nat} {newline : Bool} (ho : Only OneLine o) (e : m = n + k) : Sh k .start (Model.toSexpr o n newline) (.after newline) (Model.toSexpr o m newline) := by
  unfold Model.toSexpr
  shifts

theorem DrillDefinition.toSexpr_shift {o : DrillDefinition} {n m : Nat} {newline : Bool} (ho : Only OneLine o) (e : m = n + k) : Sh k .start (DrillDefinition.toSexpr o n newline) (.after newline) (DrillDefinition.toSexpr o m newline) := by
  unfold DrillDefinition.toSexpr
  shifts

theorem DrillDefinition.toSexpr_inline {o : DrillDefinition} {n : Nat} {newline : Bool} (ho : Only OneLine o) : Sh k .inside (DrillDefinition.toSexpr o n newline) (.after newline) (DrillDefinition.toSexpr o n newline) := by
  unfold DrillDefinition.toSexpr
  shifts

theorem PadOptions.toSexpr_shift {o : PadOptions} {n m : Nat} {newline : Bool} (ho : Only OneLine o) (e : m = n + k) : Sh k .start (PadOptions.toSexpr o n newline) (.after newline) (PadOptions.toSexpr o m newline) := by
  unfold PadOptions.toSexpr
  shifts

theorem PadOptions.toSexpr_inline {o : PadOptions} {n : Nat} {newline : Bool} (ho : Only OneLine o) : Sh k .inside (PadOptions.toSexpr o n newline) (.after newline) (PadOptions.toSexpr o n newline) := by
  unfold PadOptions.toSexpr
  shifts

theorem padLayer_inline {l : Val} (hl : Only OneLine l) : ShM k .inside (padLayer l) .inside (padLayer l) := by
  unfold padLayer
  shifts

theorem Pad.toSexpr_shift {o : Pad} {n m : Nat} {newline : Bool} (ho : Only OneLine o) (hm : o.Movable) (e : m = n + k) : ShM k .start (Pad.toSexpr o n newline) (.after newline) (Pad.toSexpr o m newline) := by
  unfold Pad.toSexpr
  unfold Pad.Movable at hm
  have : ShM k .inside (forSM o.customPadPrimitives fun p => do return py!"\n{← p.toSexpr (n + 4) false false}") .inside
      (forSM o.customPadPrimitives fun p => do return py!"\n{← p.toSexpr (m + 4) false false}") :=
    .forSM (Pad.customPadPrimitives_only ho) fun a ha h => .bindS _ _ (GrItem.toSexpr_shift (newline := false) h (hm a ha) (by omega)) fun _ _ h => .pure (.nlI h)
  shifts

theorem Footprint.libId_inline {o : Footprint} (ho : Only OneLine o) : Sh k .inside (Footprint.libId o) .inside (Footprint.libId o) := by
  unfold Footprint.libId
  shifts

theorem Footprint.toSexpr_shift {o : Footprint} {n m : Nat} {newline : Bool} {layerInFirstLine : Bool} (ho : Only OneLine o) (hm : o.Movable) (e : m = n + k) : ShM k .start (Footprint.toSexpr o n newline layerInFirstLine) (.after newline) (Footprint.toSexpr o m newline layerInFirstLine) := by
  unfold Footprint.toSexpr
  have := libIdF_inline (k := k) ho
  obtain ⟨h1, h2, h3⟩ := hm
  shifts

/-! ## Model/BrdItems.lean -/

theorem GeneralSettings.toSexpr_shift {o : GeneralSettings} {n m : Nat} {newline : Bool} (ho : Only OneLine o) (e : m = n + k) : Sh k .start (GeneralSettings.toSexpr o n newline) (.after newline) (GeneralSettings.toSexpr o m newline) := by
  unfold GeneralSettings.toSexpr
  shifts

theorem LayerToken.toSexpr_shift {o : LayerToken} {n m : Nat} {newline : Bool} (ho : Only OneLine o) (e : m = n + k) : Sh k .start (LayerToken.toSexpr o n newline) (.after newline) (LayerToken.toSexpr o m newline) := by
  unfold LayerToken.toSexpr
  shifts

theorem LayerToken.toSexpr_inline {o : LayerToken} {n : Nat} {newline : Bool} (ho : Only OneLine o) : Sh k .inside (LayerToken.toSexpr o n newline) (.after newline) (LayerToken.toSexpr o n newline) := by
  unfold LayerToken.toSexpr
  shifts

theorem StackupSubLayer.toSexpr_shift {o : StackupSubLayer} {n m : Nat} {newline : Bool} (ho : Only OneLine o) (e : m = n + k) : Sh k .start (StackupSubLayer.toSexpr o n newline) (.after newline) (StackupSubLayer.toSexpr o m newline) := by
  unfold StackupSubLayer.toSexpr
  shifts

theorem StackupSubLayer.toSexpr_inline {o : StackupSubLayer} {n : Nat} {newline : Bool} (ho : Only OneLine o) : Sh k .inside (StackupSubLayer.toSexpr o n newline) (.after newline) (StackupSubLayer.toSexpr o n newline) := by
  unfold StackupSubLayer.toSexpr
  shifts

theorem StackupLayer.toSexpr_shift {o : StackupLayer} {n m : Nat} {newline : Bool} (ho : Only OneLine o) (e : m = n + k) : Sh k .start (StackupLayer.toSexpr o n newline) (.after newline) (StackupLayer.toSexpr o m newline) := by
  unfold StackupLayer.toSexpr
  shifts

theorem Stackup.toSexpr_shift {o : Stackup} {n m : Nat} {newline : Bool} (ho : Only OneLine o) (e : m = n + k) : Sh k .start (Stackup.toSexpr o n newline) (.after newline) (Stackup.toSexpr o m newline) := by
  unfold Stackup.toSexpr
  shifts

theorem PlotSettings.toSexpr_shift {o : PlotSettings} {n m : Nat} {newline : Bool} (ho : Only OneLine o) (e : m = n + k) : ShM k .start (PlotSettings.toSexpr o n newline) (.after newline) (PlotSettings.toSexpr o m newline) := by
  unfold PlotSettings.toSexpr
  shifts

theorem SetupData.toSexpr_shift {o : SetupData} {n m : Nat} {newline : Bool} (ho : Only OneLine o) (e : m = n + k) : ShM k .start (SetupData.toSexpr o n newline) (.after newline) (SetupData.toSexpr o m newline) := by
  unfold SetupData.toSexpr
  shifts

theorem Segment.toSexpr_shift {o : Segment} {n m : Nat} {newline : Bool} (ho : Only OneLine o) (e : m = n + k) : Sh k .start (Segment.toSexpr o n newline) (.after newline) (Segment.toSexpr o m newline) := by
  unfold Segment.toSexpr
  shifts

theorem Segment.toSexpr_inline {o : Segment} {n : Nat} {newline : Bool} (ho : Only OneLine o) : Sh k .inside (Segment.toSexpr o n newline) (.after newline) (Segment.toSexpr o n newline) := by
  unfold Segment.toSexpr
  shifts

theorem Via.toSexpr_shift {o : Via} {n m : Nat} {newline : Bool} (ho : Only OneLine o) (e : m = n + k) : Sh k .start (Via.toSexpr o n newline) (.after newline) (Via.toSexpr o m newline) := by
  unfold Via.toSexpr
  shifts

theorem Via.toSexpr_inline {o : Via} {n : Nat} {newline : Bool} (ho : Only OneLine o) : Sh k .inside (Via.toSexpr o n newline) (.after newline) (Via.toSexpr o n newline) := by
  unfold Via.toSexpr
  shifts

theorem TraceArc.toSexpr_shift {o : TraceArc} {n m : Nat} {newline : Bool} (ho : Only OneLine o) (e : m = n + k) : Sh k .start (TraceArc.toSexpr o n newline) (.after newline) (TraceArc.toSexpr o m newline) := by
  unfold TraceArc.toSexpr
  shifts

theorem TraceArc.toSexpr_inline {o : TraceArc} {n : Nat} {newline : Bool} (ho : Only OneLine o) : Sh k .inside (TraceArc.toSexpr o n newline) (.after newline) (TraceArc.toSexpr o n newline) := by
  unfold TraceArc.toSexpr
  shifts

theorem Target.toSexpr_shift {o : Target} {n m : Nat} {newline : Bool} (ho : Only OneLine o) (e : m = n + k) : Sh k .start (Target.toSexpr o n newline) (.after newline) (Target.toSexpr o m newline) := by
  unfold Target.toSexpr
  shifts

theorem Target.toSexpr_inline {o : Target} {n : Nat} {newline : Bool} (ho : Only OneLine o) : Sh k .inside (Target.toSexpr o n newline) (.after newline) (Target.toSexpr o n newline) := by
  unfold Target.toSexpr
  shifts

/-! ## Model/Dimensions.lean -/

theorem DimensionFormat.toSexpr_shift {o : DimensionFormat} {n m : Nat} {newline : Bool} (ho : Only OneLine o) (e : m = n + k) : Sh k .start (DimensionFormat.toSexpr o n newline) (.after newline) (DimensionFormat.toSexpr o m newline) := by
  unfold DimensionFormat.toSexpr
  shifts

theorem DimensionFormat.toSexpr_inline {o : DimensionFormat} {n : Nat} {newline : Bool} (ho : Only OneLine o) : Sh k .inside (DimensionFormat.toSexpr o n newline) (.after newline) (DimensionFormat.toSexpr o n newline) := by
  unfold DimensionFormat.toSexpr
  shifts

theorem DimensionStyle.toSexpr_shift {o : DimensionStyle} {n m : Nat} {newline : Bool} (ho : Only OneLine o) (e : m = n + k) : Sh k .start (DimensionStyle.toSexpr o n newline) (.after newline) (DimensionStyle.toSexpr o m newline) := by
  unfold DimensionStyle.toSexpr
  shifts

theorem DimensionStyle.toSexpr_inline {o : DimensionStyle} {n : Nat} {newline : Bool} (ho : Only OneLine o) : Sh k .inside (DimensionStyle.toSexpr o n newline) (.after newline) (DimensionStyle.toSexpr o n newline) := by
  unfold DimensionStyle.toSexpr
  shifts

theorem Dimension.toSexpr_shift {o : Dimension} {n m : Nat} {newline : Bool} (ho : Only OneLine o) (hm : o.Movable) (e : m = n + k) : ShM k .start (Dimension.toSexpr o n newline) (.after newline) (Dimension.toSexpr o m newline) := by
  unfold Dimension.toSexpr
  unfold Dimension.Movable at hm
  shifts

/-! ## Model/Board.lean -/

theorem TraceItem.toSexpr_shift {o : TraceItem} {n m : Nat} (ho : Only OneLine o) (e : m = n + k) : Sh k .start (TraceItem.toSexpr o n) (.after true) (TraceItem.toSexpr o m) := by
  cases o with
  | segment a => have := TraceItem.segment_case ho; unfold TraceItem.toSexpr; shifts
  | arc a => have := TraceItem.arc_case ho; unfold TraceItem.toSexpr; shifts
  | via a => have := TraceItem.via_case ho; unfold TraceItem.toSexpr; shifts

theorem TraceItem.toSexpr_inline {o : TraceItem} {n : Nat} (ho : Only OneLine o) : Sh k .inside (TraceItem.toSexpr o n) (.after true) (TraceItem.toSexpr o n) := by
  cases o with
  | segment a => have := TraceItem.segment_case ho; unfold TraceItem.toSexpr; shifts
  | arc a => have := TraceItem.arc_case ho; unfold TraceItem.toSexpr; shifts
  | via a => have := TraceItem.via_case ho; unfold TraceItem.toSexpr; shifts

theorem Board.toSexpr_shift {o : Board} {n m : Nat} {newline : Bool} (ho : Only OneLine o) (hm : o.Movable) (e : m = n + k) : ShM k .start (Board.toSexpr o n newline) (.after newline) (Board.toSexpr o m newline) := by
  unfold Board.toSexpr
  obtain ⟨h1, h2, h3, h4, h5⟩ := hm
  simp only [h5, List.isEmpty_nil, ifS, Bool.not_true, Bool.false_eq_true, if_false]
  shifts

end
end Kiutils
