import Verif.Proofs.Lines
import Verif.Props.Samples
/-!
# C57: an edit shows only in the lines of the edited items

What a user of version control relies on: editing, inserting or removing items of a list changes the lines of these items in the
saved file and no others. `LinesOnly` and `TextOnly` are defined in `Verif/Proofs/Lines.lean`. The item texts are given in the
theorems; they are the texts of the items themselves, at the indentation of the container (some with a blank line).
-/
namespace Kiutils
set_option maxRecDepth 2000
set_option linter.unusedSimpArgs false

theorem C57_LibTable_libs (o : LibTable) (i : Nat) (nl : Bool) : LinesOnly (fun l => .ok (({ o with libs := l } : LibTable).toSexpr i nl)) (fun a : Library => .ok (a.toSexpr)) := by
  apply EditOnly.lines
  unfold LibTable.toSexpr
  try dsimp only
  apply EditOnly.of_pure closed_whole
  · intro l hl
    try simp only [isEmpty_false hl, Bool.not_false, Bool.true_or, Bool.or_true, ifS_true, Bool.false_eq_true, cond_false, reduceIte, ite_cond, List.append_eq]
    show SplitAt (forS l _) _ _ _
    find_text
  · whole
  · intro a
    whole
example := C57_LibTable_libs sampleLibTable 2 true

theorem C57_SymbolLib_symbols (o : SymbolLib) (i : Nat) (nl : Bool) : LinesOnly (fun l => .ok (({ o with symbols := l } : SymbolLib).toSexpr i nl)) (fun a : Symbol => .ok (indents i ++ a.toSexpr (i + 2))) := by
  apply EditOnly.lines
  unfold SymbolLib.toSexpr
  try dsimp only
  apply EditOnly.of_pure closed_whole
  · intro l hl
    try simp only [isEmpty_false hl, Bool.not_false, Bool.true_or, Bool.or_true, ifS_true, Bool.false_eq_true, cond_false, reduceIte, ite_cond, List.append_eq]
    show SplitAt (forS l _) _ _ _
    find_text
  · whole
  · intro a
    whole
example := C57_SymbolLib_symbols sampleSymbolLib 2 true

theorem C57_Symbol_properties (o : Symbol) (i : Nat) (nl : Bool) : LinesOnly (fun l => .ok (({ o with properties := l } : Symbol).toSexpr i nl)) (fun a : Property => .ok (a.toSexpr (i + 2))) := by
  apply EditOnly.lines
  have e := funext fun l : List (Property) => congrArg (Except.ok (ε := PyErr)) (Symbol.toSexpr_eq { o with properties := l } i nl)
  rw [e]
  unfold Symbol.textFlat Symbol.libId
  dsimp only
  apply EditOnly.of_pure closed_whole
  · intro l hl
    try simp only [isEmpty_false hl, Bool.not_false, Bool.true_or, Bool.or_true, ifS_true, Bool.false_eq_true, cond_false, reduceIte, ite_cond, List.append_eq]
    show SplitAt (forS l _) _ _ _
    find_text
  · whole
  · intro a
    whole
example := C57_Symbol_properties sampleSymbol 2 true

theorem C57_Symbol_graphicItems (o : Symbol) (i : Nat) (nl : Bool) : LinesOnly (fun l => .ok (({ o with graphicItems := l } : Symbol).toSexpr i nl)) (fun a : SyItem => .ok (a.toSexpr (i + 2))) := by
  apply EditOnly.lines
  have e := funext fun l : List (SyItem) => congrArg (Except.ok (ε := PyErr)) (Symbol.toSexpr_eq { o with graphicItems := l } i nl)
  rw [e]
  unfold Symbol.textFlat Symbol.libId
  dsimp only
  apply EditOnly.of_pure closed_whole
  · intro l hl
    try simp only [isEmpty_false hl, Bool.not_false, Bool.true_or, Bool.or_true, ifS_true, Bool.false_eq_true, cond_false, reduceIte, ite_cond, List.append_eq]
    show SplitAt (forS l _) _ _ _
    find_text
  · whole
  · intro a
    whole
example := C57_Symbol_graphicItems sampleSymbol 2 true

theorem C57_Symbol_pins (o : Symbol) (i : Nat) (nl : Bool) : LinesOnly (fun l => .ok (({ o with pins := l } : Symbol).toSexpr i nl)) (fun a : SymbolPin => .ok (a.toSexpr (i + 2))) := by
  apply EditOnly.lines
  have e := funext fun l : List (SymbolPin) => congrArg (Except.ok (ε := PyErr)) (Symbol.toSexpr_eq { o with pins := l } i nl)
  rw [e]
  unfold Symbol.textFlat Symbol.libId
  dsimp only
  apply EditOnly.of_pure closed_whole
  · intro l hl
    try simp only [isEmpty_false hl, Bool.not_false, Bool.true_or, Bool.or_true, ifS_true, Bool.false_eq_true, cond_false, reduceIte, ite_cond, List.append_eq]
    show SplitAt (forS l _) _ _ _
    find_text
  · whole
  · intro a
    whole
example := C57_Symbol_pins sampleSymbol 2 true

theorem C57_Symbol_units (o : Symbol) (i : Nat) (nl : Bool) : LinesOnly (fun l => .ok (({ o with units := l } : Symbol).toSexpr i nl)) (fun a : Symbol => .ok (a.toSexpr (i + 2))) := by
  apply EditOnly.lines
  have e := funext fun l : List (Symbol) => congrArg (Except.ok (ε := PyErr)) (Symbol.toSexpr_eq { o with units := l } i nl)
  rw [e]
  unfold Symbol.textFlat Symbol.libId
  dsimp only
  apply EditOnly.of_pure closed_whole
  · intro l hl
    try simp only [isEmpty_false hl, Bool.not_false, Bool.true_or, Bool.or_true, ifS_true, Bool.false_eq_true, cond_false, reduceIte, ite_cond, List.append_eq]
    show SplitAt (forS l _) _ _ _
    find_text
  · whole
  · intro a
    whole
example := C57_Symbol_units sampleSymbol 2 true

theorem C57_SymbolPin_alternatePins (o : SymbolPin) (i : Nat) (nl : Bool) : LinesOnly (fun l => .ok (({ o with alternatePins := l } : SymbolPin).toSexpr i nl)) (fun a : SymbolAlternativePin => .ok (a.toSexpr (i + 2))) := by
  apply EditOnly.lines
  unfold SymbolPin.toSexpr
  try dsimp only
  generalize (o.nameEffects.isSome || o.numberEffects.isSome) = m
  cases m
  all_goals try simp only [Bool.not_false, Bool.true_and, Bool.not_true, Bool.false_and, reduceIte, Bool.false_eq_true]
  all_goals
  apply EditOnly.of_pure closed_whole
  · intro l hl
    try simp only [isEmpty_false hl, Bool.not_false, Bool.true_or, Bool.or_true, ifS_true, Bool.false_eq_true, cond_false, reduceIte, ite_cond, List.append_eq]
    show SplitAt (forS l _) _ _ _
    find_text
  · whole
  · intro a
    whole
example := C57_SymbolPin_alternatePins sampleSymbolPin 2 true

theorem C57_SyPolyLine_points (o : SyPolyLine) (i : Nat) (nl : Bool) : LinesOnly (fun l => .ok (({ o with points := l } : SyPolyLine).toSexpr i nl)) (fun a : Position => .ok (py!"{indents i}    (xy {a.X.pyStr} {a.Y.pyStr})\n")) := by
  apply EditOnly.lines
  unfold SyPolyLine.toSexpr
  try dsimp only
  apply EditOnly.of_pure closed_whole
  · intro l hl
    try simp only [isEmpty_false hl, Bool.not_false, Bool.true_or, Bool.or_true, ifS_true, Bool.false_eq_true, cond_false, reduceIte, ite_cond, List.append_eq]
    show SplitAt (forS l _) _ _ _
    find_text
  · whole
  · intro a
    whole
example := C57_SyPolyLine_points sampleSyPolyLine 2 true

theorem C57_Stackup_layers (o : Stackup) (i : Nat) (nl : Bool) : LinesOnly (fun l => .ok (({ o with layers := l } : Stackup).toSexpr i nl)) (fun a : StackupLayer => .ok (a.toSexpr (i + 2))) := by
  apply EditOnly.lines
  unfold Stackup.toSexpr
  try dsimp only
  apply EditOnly.of_pure closed_whole
  · intro l hl
    try simp only [isEmpty_false hl, Bool.not_false, Bool.true_or, Bool.or_true, ifS_true, Bool.false_eq_true, cond_false, reduceIte, ite_cond, List.append_eq]
    show SplitAt (forS l _) _ _ _
    find_text
  · whole
  · intro a
    whole
example := C57_Stackup_layers sampleStackup 2 true

theorem C57_Group_members (o : Group) (i : Nat) (nl : Bool) : LinesOnly (fun l => .ok (({ o with members := l } : Group).toSexpr i nl)) (fun a : Val => .ok (py!"{indents i}    {a.pyStr}\n")) := by
  apply EditOnly.lines
  unfold Group.toSexpr
  try dsimp only
  apply EditOnly.of_pure closed_whole
  · intro l hl
    try simp only [isEmpty_false hl, Bool.not_false, Bool.true_or, Bool.or_true, ifS_true, Bool.false_eq_true, cond_false, reduceIte, ite_cond, List.append_eq]
    show SplitAt (forS l _) _ _ _
    find_text
  · whole
  · intro a
    whole
example := C57_Group_members sampleGroup 2 true

theorem C57_TitleBlock_comments (o : TitleBlock) (i : Nat) (nl : Bool) : LinesOnly (fun l => .ok (({ o with comments := l } : TitleBlock).toSexpr i nl)) (fun a : Val × Val => .ok (py!"{indents i}  (comment {a.1.pyStr} \"{dq a.2}\")\n")) := by
  apply EditOnly.lines
  unfold TitleBlock.toSexpr
  try dsimp only
  apply EditOnly.of_pure closed_whole
  · intro l hl
    try simp only [isEmpty_false hl, Bool.not_false, Bool.true_or, Bool.or_true, ifS_true, Bool.false_eq_true, cond_false, reduceIte, ite_cond, List.append_eq]
    show SplitAt (forS l _) _ _ _
    find_text
  · whole
  · intro a
    whole
example := C57_TitleBlock_comments sampleTitleBlock 2 true

theorem C57_RenderCache_polygons (o : RenderCache) (i : Nat) (nl : Bool) : LinesOnly (fun l => .ok (({ o with polygons := l } : RenderCache).toSexpr i nl)) (fun a : RenderCachePolygon => .ok (a.toSexpr (i + 2))) := by
  apply EditOnly.lines
  unfold RenderCache.toSexpr
  try dsimp only
  apply EditOnly.of_pure closed_whole
  · intro l hl
    try simp only [isEmpty_false hl, Bool.not_false, Bool.true_or, Bool.or_true, ifS_true, Bool.false_eq_true, cond_false, reduceIte, ite_cond, List.append_eq]
    show SplitAt (forS l _) _ _ _
    find_text
  · whole
  · intro a
    whole
example := C57_RenderCache_polygons sampleRenderCache 2 true

theorem C57_Image_data (o : Image) (i : Nat) (nl : Bool) : LinesOnly (fun l => .ok (({ o with data := l } : Image).toSexpr i nl)) (fun a : Val => .ok (py!"{indents i}    {a.pyStr}\n")) := by
  apply EditOnly.lines
  unfold Image.toSexpr
  try dsimp only
  apply EditOnly.of_pure closed_whole
  · intro l hl
    try simp only [isEmpty_false hl, Bool.not_false, Bool.true_or, Bool.or_true, ifS_true, Bool.false_eq_true, cond_false, reduceIte, ite_cond, List.append_eq]
    show SplitAt (forS l _) _ _ _
    find_text
  · whole
  · intro a
    whole
example := C57_Image_data sampleImage 2 true

theorem C57_FpPoly_coordinates (o : FpPoly) (i : Nat) (nl : Bool) : LinesOnly (fun l => .ok (({ o with coordinates := l } : FpPoly).toSexpr i nl)) (fun a : Position => .ok (py!"{indents i}    (xy {a.X.pyStr} {a.Y.pyStr})\n")) := by
  apply EditOnly.lines
  unfold FpPoly.toSexpr
  try dsimp only
  apply EditOnly.of_pure closed_whole
  · intro l hl
    try simp only [isEmpty_false hl, Bool.not_false, Bool.true_or, Bool.or_true, ifS_true, Bool.false_eq_true, cond_false, reduceIte, ite_cond, List.append_eq]
    show SplitAt (forS l _) _ _ _
    find_text
  · whole
  · intro a
    whole
example := C57_FpPoly_coordinates sampleFpPoly 2 true

theorem C57_FpCurve_coordinates (o : FpCurve) (i : Nat) (nl : Bool) : LinesOnly (fun l => .ok (({ o with coordinates := l } : FpCurve).toSexpr i nl)) (fun a : Position => .ok (py!"{indents i}  (xy {a.X.pyStr} {a.Y.pyStr})\n")) := by
  apply EditOnly.lines
  unfold FpCurve.toSexpr
  try dsimp only
  apply EditOnly.of_pure closed_whole
  · intro l hl
    try simp only [isEmpty_false hl, Bool.not_false, Bool.true_or, Bool.or_true, ifS_true, Bool.false_eq_true, cond_false, reduceIte, ite_cond, List.append_eq]
    show SplitAt (forS l _) _ _ _
    find_text
  · whole
  · intro a
    whole
example := C57_FpCurve_coordinates sampleFpCurve 2 true

theorem C57_GrPoly_coordinates (o : GrPoly) (i : Nat) (nl : Bool) : LinesOnly (fun l => .ok (({ o with coordinates := l } : GrPoly).toSexpr i nl)) (fun a : Position => .ok (py!"{indents i}    (xy {a.X.pyStr} {a.Y.pyStr})\n")) := by
  apply EditOnly.lines
  unfold GrPoly.toSexpr
  try dsimp only
  apply EditOnly.of_pure closed_whole
  · intro l hl
    try simp only [isEmpty_false hl, Bool.not_false, Bool.true_or, Bool.or_true, ifS_true, Bool.false_eq_true, cond_false, reduceIte, ite_cond, List.append_eq]
    show SplitAt (forS l _) _ _ _
    find_text
  · whole
  · intro a
    whole
example := C57_GrPoly_coordinates sampleGrPoly 2 true

theorem C57_GrCurve_coordinates (o : GrCurve) (i : Nat) (nl : Bool) : LinesOnly (fun l => .ok (({ o with coordinates := l } : GrCurve).toSexpr i nl)) (fun a : Position => .ok (py!"{indents i}  (xy {a.X.pyStr} {a.Y.pyStr})\n")) := by
  apply EditOnly.lines
  unfold GrCurve.toSexpr
  try dsimp only
  apply EditOnly.of_pure closed_whole
  · intro l hl
    try simp only [isEmpty_false hl, Bool.not_false, Bool.true_or, Bool.or_true, ifS_true, Bool.false_eq_true, cond_false, reduceIte, ite_cond, List.append_eq]
    show SplitAt (forS l _) _ _ _
    find_text
  · whole
  · intro a
    whole
example := C57_GrCurve_coordinates sampleGrCurve 2 true

theorem C57_ZonePolygon_coordinates (o : ZonePolygon) (i : Nat) (nl : Bool) : LinesOnly (fun l => .ok (({ o with coordinates := l } : ZonePolygon).toSexpr i nl)) (fun a : Position => .ok (py!"{indents i}    (xy {a.X.pyStr} {a.Y.pyStr})\n")) := by
  apply EditOnly.lines
  unfold ZonePolygon.toSexpr
  try dsimp only
  apply EditOnly.of_pure closed_whole
  · intro l hl
    try simp only [isEmpty_false hl, Bool.not_false, Bool.true_or, Bool.or_true, ifS_true, Bool.false_eq_true, cond_false, reduceIte, ite_cond, List.append_eq]
    show SplitAt (forS l _) _ _ _
    find_text
  · whole
  · intro a
    whole
example := C57_ZonePolygon_coordinates sampleZonePolygon 2 true

theorem C57_FilledPolygon_coordinates (o : FilledPolygon) (i : Nat) (nl : Bool) : LinesOnly (fun l => .ok (({ o with coordinates := l } : FilledPolygon).toSexpr i nl)) (fun a : Position => .ok (py!"{indents i}    (xy {a.X.pyStr} {a.Y.pyStr})\n")) := by
  apply EditOnly.lines
  unfold FilledPolygon.toSexpr
  try dsimp only
  apply EditOnly.of_pure closed_whole
  · intro l hl
    try simp only [isEmpty_false hl, Bool.not_false, Bool.true_or, Bool.or_true, ifS_true, Bool.false_eq_true, cond_false, reduceIte, ite_cond, List.append_eq]
    show SplitAt (forS l _) _ _ _
    find_text
  · whole
  · intro a
    whole
example := C57_FilledPolygon_coordinates sampleFilledPolygon 2 true

theorem C57_FillSegments_coordinates (o : FillSegments) (i : Nat) (nl : Bool) : LinesOnly (fun l => .ok (({ o with coordinates := l } : FillSegments).toSexpr i nl)) (fun a : Position => .ok (py!"{indents i}    (xy {a.X.pyStr} {a.Y.pyStr})\n")) := by
  apply EditOnly.lines
  unfold FillSegments.toSexpr
  try dsimp only
  apply EditOnly.of_pure closed_whole
  · intro l hl
    try simp only [isEmpty_false hl, Bool.not_false, Bool.true_or, Bool.or_true, ifS_true, Bool.false_eq_true, cond_false, reduceIte, ite_cond, List.append_eq]
    show SplitAt (forS l _) _ _ _
    find_text
  · whole
  · intro a
    whole
example := C57_FillSegments_coordinates sampleFillSegments 2 true

theorem C57_Bitmap_pngdata (o : Bitmap) (i : Nat) (nl : Bool) : LinesOnly (fun l => .ok (({ o with pngdata := l } : Bitmap).toSexpr i nl)) (fun a : Val => .ok (py!"{indents i}  (data \"{a.pyStr}\")\n")) := by
  apply EditOnly.lines
  unfold Bitmap.toSexpr
  try dsimp only
  apply EditOnly.of_pure closed_whole
  · intro l hl
    try simp only [isEmpty_false hl, Bool.not_false, Bool.true_or, Bool.or_true, ifS_true, Bool.false_eq_true, cond_false, reduceIte, ite_cond, List.append_eq]
    show SplitAt (forS l _) _ _ _
    find_text
  · whole
  · intro a
    whole
example := C57_Bitmap_pngdata sampleBitmap 2 true

theorem C57_WorkSheet_drawingObjects (o : WorkSheet) (i : Nat) (nl : Bool) : LinesOnly (fun l => ({ o with drawingObjects := l } : WorkSheet).toSexpr i nl) (fun a : WksItem => a.toSexpr (i + 2)) := by
  apply EditOnly.lines
  unfold WorkSheet.toSexpr
  try dsimp only
  refine EditOnly.here closed_whole ?_ ?_
  rotate_left
  · exact fun _ t h => (WksItem.endsM _ _ t h).whole
  apply Puts.ok
  · intro x l hl
    try simp only [isEmpty_false hl, Bool.not_false, Bool.true_or, Bool.or_true, ifS_true, Bool.false_eq_true, cond_false, reduceIte, ite_cond, List.append_eq]
    show SplitAt x _ _ _
    find_text
  · whole
example := C57_WorkSheet_drawingObjects sampleWorkSheet 2 true

theorem C57_Rule_constraints (o : Rule) (i : Nat) : LinesOnly (fun l => ({ o with constraints := l } : Rule).toSexpr i) (fun a : Constraint => do return py!"{indents i}{← a.toSexpr (i + 2)}") := by
  apply EditOnly.lines
  unfold Rule.toSexpr
  try dsimp only
  refine EditOnly.here closed_whole ?_ ?_
  rotate_left
  · exact fun a t h => ((show EndsM _ from .bind fun b hb => .pure (.append (Constraint.endsM a _ b hb))) t h).whole
  apply Puts.ok
  · intro x l hl
    try simp only [isEmpty_false hl, Bool.not_false, Bool.true_or, Bool.or_true, ifS_true, Bool.false_eq_true, cond_false, reduceIte, ite_cond, List.append_eq]
    show SplitAt x _ _ _
    find_text
  · whole
example := C57_Rule_constraints sampleRule 2

theorem C57_DesignRules_rules (o : DesignRules) (i : Nat) (nl : Bool) : LinesOnly (fun l => ({ o with rules := l } : DesignRules).toSexpr i nl) (fun a : Rule => do return py!"{indents i}{← a.toSexpr i}") := by
  apply EditOnly.lines
  unfold DesignRules.toSexpr
  try dsimp only
  refine EditOnly.here closed_whole ?_ ?_
  rotate_left
  · exact fun a t h => ((show EndsM _ from .bind fun b hb => .pure (.append (Rule.endsM a _ b hb))) t h).whole
  apply Puts.ok
  · intro x l hl
    try simp only [isEmpty_false hl, Bool.not_false, Bool.true_or, Bool.or_true, ifS_true, Bool.false_eq_true, cond_false, reduceIte, ite_cond, List.append_eq]
    show SplitAt x _ _ _
    find_text
  · whole
example := C57_DesignRules_rules sampleDesignRules 2 true

theorem C57_GlobalLabel_properties (o : GlobalLabel) (i : Nat) (nl : Bool) : LinesOnly (fun l => .ok (({ o with properties := l } : GlobalLabel).toSexpr i nl)) (fun a : Property => .ok (a.toSexpr (i + 2))) := by
  apply EditOnly.lines
  unfold GlobalLabel.toSexpr
  try dsimp only
  apply EditOnly.of_pure closed_whole
  · intro l hl
    try simp only [isEmpty_false hl, Bool.not_false, Bool.true_or, Bool.or_true, ifS_true, Bool.false_eq_true, cond_false, reduceIte, ite_cond, List.append_eq]
    show SplitAt (forS l _) _ _ _
    find_text
  · whole
  · intro a
    whole
example := C57_GlobalLabel_properties sampleGlobalLabel 2 true

theorem C57_SymbolProjectInstance_paths (o : SymbolProjectInstance) (i : Nat) (nl : Bool) : LinesOnly (fun l => .ok (({ o with paths := l } : SymbolProjectInstance).toSexpr i nl)) (fun a : SymbolProjectPath => .ok (a.toSexpr (i + 2))) := by
  apply EditOnly.lines
  unfold SymbolProjectInstance.toSexpr
  try dsimp only
  apply EditOnly.of_pure closed_whole
  · intro l hl
    try simp only [isEmpty_false hl, Bool.not_false, Bool.true_or, Bool.or_true, ifS_true, Bool.false_eq_true, cond_false, reduceIte, ite_cond, List.append_eq]
    show SplitAt (forS l _) _ _ _
    find_text
  · whole
  · intro a
    whole
example := C57_SymbolProjectInstance_paths sampleSymbolProjectInstance 2 true

theorem C57_SchematicSymbol_properties (o : SchematicSymbol) (i : Nat) (nl : Bool) : LinesOnly (fun l => .ok (({ o with properties := l } : SchematicSymbol).toSexpr i nl)) (fun a : Property => .ok (a.toSexpr (i + 2))) := by
  apply EditOnly.lines
  unfold SchematicSymbol.toSexpr SchematicSymbol.libId
  try dsimp only
  apply EditOnly.of_pure closed_whole
  · intro l hl
    try simp only [isEmpty_false hl, Bool.not_false, Bool.true_or, Bool.or_true, ifS_true, Bool.false_eq_true, cond_false, reduceIte, ite_cond, List.append_eq]
    show SplitAt (forS l _) _ _ _
    find_text
  · whole
  · intro a
    whole
example := C57_SchematicSymbol_properties sampleSchematicSymbol 2 true

theorem C57_SchematicSymbol_pins (o : SchematicSymbol) (i : Nat) (nl : Bool) : LinesOnly (fun l => .ok (({ o with pins := l } : SchematicSymbol).toSexpr i nl)) (fun a : Val × Val => .ok (py!"{indents i}  (pin \"{dq a.1}\" (uuid {a.2.pyStr}))\n")) := by
  apply EditOnly.lines
  unfold SchematicSymbol.toSexpr SchematicSymbol.libId
  try dsimp only
  apply EditOnly.of_pure closed_whole
  · intro l hl
    try simp only [isEmpty_false hl, Bool.not_false, Bool.true_or, Bool.or_true, ifS_true, Bool.false_eq_true, cond_false, reduceIte, ite_cond, List.append_eq]
    show SplitAt (forS l _) _ _ _
    find_text
  · whole
  · intro a
    whole
example := C57_SchematicSymbol_pins sampleSchematicSymbol 2 true

theorem C57_SchematicSymbol_instances (o : SchematicSymbol) (i : Nat) (nl : Bool) : LinesOnly (fun l => .ok (({ o with instances := l } : SchematicSymbol).toSexpr i nl)) (fun a : SymbolProjectInstance => .ok (a.toSexpr (i + 4))) := by
  apply EditOnly.lines
  unfold SchematicSymbol.toSexpr SchematicSymbol.libId
  try dsimp only
  apply EditOnly.of_pure closed_whole
  · intro l hl
    try simp only [isEmpty_false hl, Bool.not_false, Bool.true_or, Bool.or_true, ifS_true, Bool.false_eq_true, cond_false, reduceIte, ite_cond, List.append_eq]
    show SplitAt (forS l _) _ _ _
    find_text
  · whole
  · intro a
    whole
example := C57_SchematicSymbol_instances sampleSchematicSymbol 2 true

theorem C57_HierarchicalSheetProjectInstance_paths (o : HierarchicalSheetProjectInstance) (i : Nat) (nl : Bool) : LinesOnly (fun l => .ok (({ o with paths := l } : HierarchicalSheetProjectInstance).toSexpr i nl)) (fun a : HierarchicalSheetProjectPath => .ok (a.toSexpr (i + 2))) := by
  apply EditOnly.lines
  unfold HierarchicalSheetProjectInstance.toSexpr
  try dsimp only
  apply EditOnly.of_pure closed_whole
  · intro l hl
    try simp only [isEmpty_false hl, Bool.not_false, Bool.true_or, Bool.or_true, ifS_true, Bool.false_eq_true, cond_false, reduceIte, ite_cond, List.append_eq]
    show SplitAt (forS l _) _ _ _
    find_text
  · whole
  · intro a
    whole
example := C57_HierarchicalSheetProjectInstance_paths sampleHierarchicalSheetProjectInstance 2 true

theorem C57_HierarchicalSheet_properties (o : HierarchicalSheet) (i : Nat) (nl : Bool) : LinesOnly (fun l => ({ o with properties := l } : HierarchicalSheet).toSexpr i nl) (fun a : Property => .ok (a.toSexpr (i + 2))) := by
  apply EditOnly.lines
  unfold HierarchicalSheet.toSexpr
  try dsimp only
  refine EditOnly.bind closed_whole fun b0 h0 => ?_
  apply EditOnly.of_pure closed_whole
  · intro l hl
    try simp only [isEmpty_false hl, Bool.not_false, Bool.true_or, Bool.or_true, ifS_true, Bool.false_eq_true, cond_false, reduceIte, ite_cond, List.append_eq]
    show SplitAt (forS l _) _ _ _
    find_text
  · whole
  · intro a
    whole
example := C57_HierarchicalSheet_properties sampleHierarchicalSheet 2 true

theorem C57_HierarchicalSheet_pins (o : HierarchicalSheet) (i : Nat) (nl : Bool) : LinesOnly (fun l => ({ o with pins := l } : HierarchicalSheet).toSexpr i nl) (fun a : HierarchicalPin => .ok (a.toSexpr (i + 2))) := by
  apply EditOnly.lines
  unfold HierarchicalSheet.toSexpr
  try dsimp only
  refine EditOnly.bind closed_whole fun b0 h0 => ?_
  apply EditOnly.of_pure closed_whole
  · intro l hl
    try simp only [isEmpty_false hl, Bool.not_false, Bool.true_or, Bool.or_true, ifS_true, Bool.false_eq_true, cond_false, reduceIte, ite_cond, List.append_eq]
    show SplitAt (forS l _) _ _ _
    find_text
  · whole
  · intro a
    whole
example := C57_HierarchicalSheet_pins sampleHierarchicalSheet 2 true

theorem C57_HierarchicalSheet_instances (o : HierarchicalSheet) (i : Nat) (nl : Bool) : LinesOnly (fun l => ({ o with instances := l } : HierarchicalSheet).toSexpr i nl) (fun a : HierarchicalSheetProjectInstance => .ok (a.toSexpr (i + 4))) := by
  apply EditOnly.lines
  unfold HierarchicalSheet.toSexpr
  try dsimp only
  refine EditOnly.bind closed_whole fun b0 h0 => ?_
  apply EditOnly.of_pure closed_whole
  · intro l hl
    try simp only [isEmpty_false hl, Bool.not_false, Bool.true_or, Bool.or_true, ifS_true, Bool.false_eq_true, cond_false, reduceIte, ite_cond, List.append_eq]
    show SplitAt (forS l _) _ _ _
    find_text
  · whole
  · intro a
    whole
example := C57_HierarchicalSheet_instances sampleHierarchicalSheet 2 true

theorem C57_NetclassFlag_properties (o : NetclassFlag) (i : Nat) (nl : Bool) : LinesOnly (fun l => ({ o with properties := l } : NetclassFlag).toSexpr i nl) (fun a : Property => .ok (a.toSexpr (i + 2))) := by
  apply EditOnly.lines
  unfold NetclassFlag.toSexpr
  try dsimp only
  refine EditOnly.bind closed_whole fun b0 h0 => ?_
  have h0' : WholeLines b0 := ((show EndsM _ by unfold NetclassFlag.effectsText; endsM) _ h0).whole
  apply EditOnly.of_pure closed_whole
  · intro l hl
    try simp only [isEmpty_false hl, Bool.not_false, Bool.true_or, Bool.or_true, ifS_true, Bool.false_eq_true, cond_false, reduceIte, ite_cond, List.append_eq]
    show SplitAt (forS l _) _ _ _
    find_text
  · whole
  · intro a
    whole
example := C57_NetclassFlag_properties sampleNetclassFlag 2 true

theorem C57_Zone_polygons (o : Zone) (i : Nat) (nl : Bool) : LinesOnly (fun l => ({ o with polygons := l } : Zone).toSexpr i nl) (fun a : ZonePolygon => .ok (a.toSexpr (i + 2))) := by
  apply EditOnly.lines
  unfold Zone.toSexpr
  try dsimp only
  refine EditOnly.bind closed_whole fun b0 h0 => ?_
  apply EditOnly.of_pure closed_whole
  · intro l hl
    try simp only [isEmpty_false hl, Bool.not_false, Bool.true_or, Bool.or_true, ifS_true, Bool.false_eq_true, cond_false, reduceIte, ite_cond, List.append_eq]
    show SplitAt (forS l _) _ _ _
    find_text
  · whole
  · intro a
    whole
example := C57_Zone_polygons sampleZone 2 true

theorem C57_Zone_filledPolygons (o : Zone) (i : Nat) (nl : Bool) : LinesOnly (fun l => ({ o with filledPolygons := l } : Zone).toSexpr i nl) (fun a : FilledPolygon => .ok (a.toSexpr (i + 2))) := by
  apply EditOnly.lines
  unfold Zone.toSexpr
  try dsimp only
  refine EditOnly.bind closed_whole fun b0 h0 => ?_
  apply EditOnly.of_pure closed_whole
  · intro l hl
    try simp only [isEmpty_false hl, Bool.not_false, Bool.true_or, Bool.or_true, ifS_true, Bool.false_eq_true, cond_false, reduceIte, ite_cond, List.append_eq]
    show SplitAt (forS l _) _ _ _
    find_text
  · whole
  · intro a
    whole
example := C57_Zone_filledPolygons sampleZone 2 true

theorem C57_Schematic_junctions (o : Schematic) (i : Nat) (nl : Bool) : LinesOnly (fun l => ({ o with junctions := l } : Schematic).toSexpr i nl) (fun a : Junction => a.toSexpr (i + 2)) := by
  apply EditOnly.lines
  unfold Schematic.toSexpr
  try dsimp only
  refine EditOnly.bind closed_whole fun b0 h0 => ?_
  have h0' : WholeLines b0 := ((PageSettings.endsM _ _) _ h0).whole
  refine EditOnly.here closed_whole ?_ ?_
  rotate_left
  · exact fun _ t h => (Junction.endsM _ _ t h).whole
  refine Puts.bind closed_whole fun b2 h2 => ?_
  have h2' : WholeLines b2 := WholeLines.forSM (fun _ t h => (Text.endsM _ _ t h).whole) h2
  refine Puts.bind closed_whole fun b3 h3 => ?_
  have h3' : WholeLines b3 := WholeLines.forSM (fun _ t h => (NetclassFlag.endsM _ _ t h).whole) h3
  refine Puts.bind closed_whole fun b4 h4 => ?_
  have h4' : WholeLines b4 := WholeLines.forSM (fun a t h => ((show EndsM _ from .bind fun b hb => .pure (.cons (HierarchicalSheet.endsM a _ b hb))) t h).whole) h4
  apply Puts.ok
  · intro x l hl
    try simp only [isEmpty_false hl, Bool.not_false, Bool.true_or, Bool.or_true, ifS_true, Bool.false_eq_true, cond_false, reduceIte, ite_cond, List.append_eq]
    show SplitAt x _ _ _
    find_text
  · whole
example := C57_Schematic_junctions sampleSchematic 2 true

theorem C57_Schematic_noConnects (o : Schematic) (i : Nat) (nl : Bool) : LinesOnly (fun l => ({ o with noConnects := l } : Schematic).toSexpr i nl) (fun a : NoConnect => .ok (a.toSexpr (i + 2))) := by
  apply EditOnly.lines
  unfold Schematic.toSexpr
  try dsimp only
  refine EditOnly.bind closed_whole fun b0 h0 => ?_
  have h0' : WholeLines b0 := ((PageSettings.endsM _ _) _ h0).whole
  refine EditOnly.bind closed_whole fun b1 h1 => ?_
  have h1' : WholeLines b1 := WholeLines.forSM (fun _ t h => (Junction.endsM _ _ t h).whole) h1
  refine EditOnly.bind closed_whole fun b2 h2 => ?_
  have h2' : WholeLines b2 := WholeLines.forSM (fun _ t h => (Text.endsM _ _ t h).whole) h2
  refine EditOnly.bind closed_whole fun b3 h3 => ?_
  have h3' : WholeLines b3 := WholeLines.forSM (fun _ t h => (NetclassFlag.endsM _ _ t h).whole) h3
  refine EditOnly.bind closed_whole fun b4 h4 => ?_
  have h4' : WholeLines b4 := WholeLines.forSM (fun a t h => ((show EndsM _ from .bind fun b hb => .pure (.cons (HierarchicalSheet.endsM a _ b hb))) t h).whole) h4
  apply EditOnly.of_pure closed_whole
  · intro l hl
    try simp only [isEmpty_false hl, Bool.not_false, Bool.true_or, Bool.or_true, ifS_true, Bool.false_eq_true, cond_false, reduceIte, ite_cond, List.append_eq]
    show SplitAt (forS l _) _ _ _
    find_text
  · whole
  · intro a
    whole
example := C57_Schematic_noConnects sampleSchematic 2 true

theorem C57_Schematic_busEntries (o : Schematic) (i : Nat) (nl : Bool) : LinesOnly (fun l => ({ o with busEntries := l } : Schematic).toSexpr i nl) (fun a : BusEntry => .ok (a.toSexpr (i + 2))) := by
  apply EditOnly.lines
  unfold Schematic.toSexpr
  try dsimp only
  refine EditOnly.bind closed_whole fun b0 h0 => ?_
  have h0' : WholeLines b0 := ((PageSettings.endsM _ _) _ h0).whole
  refine EditOnly.bind closed_whole fun b1 h1 => ?_
  have h1' : WholeLines b1 := WholeLines.forSM (fun _ t h => (Junction.endsM _ _ t h).whole) h1
  refine EditOnly.bind closed_whole fun b2 h2 => ?_
  have h2' : WholeLines b2 := WholeLines.forSM (fun _ t h => (Text.endsM _ _ t h).whole) h2
  refine EditOnly.bind closed_whole fun b3 h3 => ?_
  have h3' : WholeLines b3 := WholeLines.forSM (fun _ t h => (NetclassFlag.endsM _ _ t h).whole) h3
  refine EditOnly.bind closed_whole fun b4 h4 => ?_
  have h4' : WholeLines b4 := WholeLines.forSM (fun a t h => ((show EndsM _ from .bind fun b hb => .pure (.cons (HierarchicalSheet.endsM a _ b hb))) t h).whole) h4
  apply EditOnly.of_pure closed_whole
  · intro l hl
    try simp only [isEmpty_false hl, Bool.not_false, Bool.true_or, Bool.or_true, ifS_true, Bool.false_eq_true, cond_false, reduceIte, ite_cond, List.append_eq]
    show SplitAt (forS l _) _ _ _
    find_text
  · whole
  · intro a
    whole
example := C57_Schematic_busEntries sampleSchematic 2 true

theorem C57_Schematic_busAliases (o : Schematic) (i : Nat) (nl : Bool) : LinesOnly (fun l => ({ o with busAliases := l } : Schematic).toSexpr i nl) (fun a : BusAlias => .ok (a.toSexpr (i + 2))) := by
  apply EditOnly.lines
  unfold Schematic.toSexpr
  try dsimp only
  refine EditOnly.bind closed_whole fun b0 h0 => ?_
  have h0' : WholeLines b0 := ((PageSettings.endsM _ _) _ h0).whole
  refine EditOnly.bind closed_whole fun b1 h1 => ?_
  have h1' : WholeLines b1 := WholeLines.forSM (fun _ t h => (Junction.endsM _ _ t h).whole) h1
  refine EditOnly.bind closed_whole fun b2 h2 => ?_
  have h2' : WholeLines b2 := WholeLines.forSM (fun _ t h => (Text.endsM _ _ t h).whole) h2
  refine EditOnly.bind closed_whole fun b3 h3 => ?_
  have h3' : WholeLines b3 := WholeLines.forSM (fun _ t h => (NetclassFlag.endsM _ _ t h).whole) h3
  refine EditOnly.bind closed_whole fun b4 h4 => ?_
  have h4' : WholeLines b4 := WholeLines.forSM (fun a t h => ((show EndsM _ from .bind fun b hb => .pure (.cons (HierarchicalSheet.endsM a _ b hb))) t h).whole) h4
  apply EditOnly.of_pure closed_whole
  · intro l hl
    try simp only [isEmpty_false hl, Bool.not_false, Bool.true_or, Bool.or_true, ifS_true, Bool.false_eq_true, cond_false, reduceIte, ite_cond, List.append_eq]
    show SplitAt (forS l _) _ _ _
    find_text
  · whole
  · intro a
    whole
example := C57_Schematic_busAliases sampleSchematic 2 true

theorem C57_Schematic_graphicalItems (o : Schematic) (i : Nat) (nl : Bool) : LinesOnly (fun l => ({ o with graphicalItems := l } : Schematic).toSexpr i nl) (fun a : SchGraphic => .ok (a.toSexpr (i + 2))) := by
  apply EditOnly.lines
  unfold Schematic.toSexpr
  try dsimp only
  refine EditOnly.bind closed_whole fun b0 h0 => ?_
  have h0' : WholeLines b0 := ((PageSettings.endsM _ _) _ h0).whole
  refine EditOnly.bind closed_whole fun b1 h1 => ?_
  have h1' : WholeLines b1 := WholeLines.forSM (fun _ t h => (Junction.endsM _ _ t h).whole) h1
  refine EditOnly.bind closed_whole fun b2 h2 => ?_
  have h2' : WholeLines b2 := WholeLines.forSM (fun _ t h => (Text.endsM _ _ t h).whole) h2
  refine EditOnly.bind closed_whole fun b3 h3 => ?_
  have h3' : WholeLines b3 := WholeLines.forSM (fun _ t h => (NetclassFlag.endsM _ _ t h).whole) h3
  refine EditOnly.bind closed_whole fun b4 h4 => ?_
  have h4' : WholeLines b4 := WholeLines.forSM (fun a t h => ((show EndsM _ from .bind fun b hb => .pure (.cons (HierarchicalSheet.endsM a _ b hb))) t h).whole) h4
  apply EditOnly.of_pure closed_whole
  · intro l hl
    try simp only [isEmpty_false hl, Bool.not_false, Bool.true_or, Bool.or_true, ifS_true, Bool.false_eq_true, cond_false, reduceIte, ite_cond, List.append_eq]
    show SplitAt (forS l _) _ _ _
    find_text
  · whole
  · intro a
    whole
example := C57_Schematic_graphicalItems sampleSchematic 2 true

theorem C57_Schematic_shapes (o : Schematic) (i : Nat) (nl : Bool) : LinesOnly (fun l => ({ o with shapes := l } : Schematic).toSexpr i nl) (fun a : SchShape => .ok (a.toSexpr (i + 2))) := by
  apply EditOnly.lines
  unfold Schematic.toSexpr
  try dsimp only
  refine EditOnly.bind closed_whole fun b0 h0 => ?_
  have h0' : WholeLines b0 := ((PageSettings.endsM _ _) _ h0).whole
  refine EditOnly.bind closed_whole fun b1 h1 => ?_
  have h1' : WholeLines b1 := WholeLines.forSM (fun _ t h => (Junction.endsM _ _ t h).whole) h1
  refine EditOnly.bind closed_whole fun b2 h2 => ?_
  have h2' : WholeLines b2 := WholeLines.forSM (fun _ t h => (Text.endsM _ _ t h).whole) h2
  refine EditOnly.bind closed_whole fun b3 h3 => ?_
  have h3' : WholeLines b3 := WholeLines.forSM (fun _ t h => (NetclassFlag.endsM _ _ t h).whole) h3
  refine EditOnly.bind closed_whole fun b4 h4 => ?_
  have h4' : WholeLines b4 := WholeLines.forSM (fun a t h => ((show EndsM _ from .bind fun b hb => .pure (.cons (HierarchicalSheet.endsM a _ b hb))) t h).whole) h4
  apply EditOnly.of_pure closed_whole
  · intro l hl
    try simp only [isEmpty_false hl, Bool.not_false, Bool.true_or, Bool.or_true, ifS_true, Bool.false_eq_true, cond_false, reduceIte, ite_cond, List.append_eq]
    show SplitAt (forS l _) _ _ _
    find_text
  · whole
  · intro a
    whole
example := C57_Schematic_shapes sampleSchematic 2 true

theorem C57_Schematic_images (o : Schematic) (i : Nat) (nl : Bool) : LinesOnly (fun l => ({ o with images := l } : Schematic).toSexpr i nl) (fun a : Image => .ok (a.toSexpr (i + 2))) := by
  apply EditOnly.lines
  unfold Schematic.toSexpr
  try dsimp only
  refine EditOnly.bind closed_whole fun b0 h0 => ?_
  have h0' : WholeLines b0 := ((PageSettings.endsM _ _) _ h0).whole
  refine EditOnly.bind closed_whole fun b1 h1 => ?_
  have h1' : WholeLines b1 := WholeLines.forSM (fun _ t h => (Junction.endsM _ _ t h).whole) h1
  refine EditOnly.bind closed_whole fun b2 h2 => ?_
  have h2' : WholeLines b2 := WholeLines.forSM (fun _ t h => (Text.endsM _ _ t h).whole) h2
  refine EditOnly.bind closed_whole fun b3 h3 => ?_
  have h3' : WholeLines b3 := WholeLines.forSM (fun _ t h => (NetclassFlag.endsM _ _ t h).whole) h3
  refine EditOnly.bind closed_whole fun b4 h4 => ?_
  have h4' : WholeLines b4 := WholeLines.forSM (fun a t h => ((show EndsM _ from .bind fun b hb => .pure (.cons (HierarchicalSheet.endsM a _ b hb))) t h).whole) h4
  apply EditOnly.of_pure closed_whole
  · intro l hl
    try simp only [isEmpty_false hl, Bool.not_false, Bool.true_or, Bool.or_true, ifS_true, Bool.false_eq_true, cond_false, reduceIte, ite_cond, List.append_eq]
    show SplitAt (forS l _) _ _ _
    find_text
  · whole
  · intro a
    whole
example := C57_Schematic_images sampleSchematic 2 true

theorem C57_Schematic_textBoxes (o : Schematic) (i : Nat) (nl : Bool) : LinesOnly (fun l => ({ o with textBoxes := l } : Schematic).toSexpr i nl) (fun a : TextBox => .ok (a.toSexpr (i + 2))) := by
  apply EditOnly.lines
  unfold Schematic.toSexpr
  try dsimp only
  refine EditOnly.bind closed_whole fun b0 h0 => ?_
  have h0' : WholeLines b0 := ((PageSettings.endsM _ _) _ h0).whole
  refine EditOnly.bind closed_whole fun b1 h1 => ?_
  have h1' : WholeLines b1 := WholeLines.forSM (fun _ t h => (Junction.endsM _ _ t h).whole) h1
  refine EditOnly.bind closed_whole fun b2 h2 => ?_
  have h2' : WholeLines b2 := WholeLines.forSM (fun _ t h => (Text.endsM _ _ t h).whole) h2
  refine EditOnly.bind closed_whole fun b3 h3 => ?_
  have h3' : WholeLines b3 := WholeLines.forSM (fun _ t h => (NetclassFlag.endsM _ _ t h).whole) h3
  refine EditOnly.bind closed_whole fun b4 h4 => ?_
  have h4' : WholeLines b4 := WholeLines.forSM (fun a t h => ((show EndsM _ from .bind fun b hb => .pure (.cons (HierarchicalSheet.endsM a _ b hb))) t h).whole) h4
  apply EditOnly.of_pure closed_whole
  · intro l hl
    try simp only [isEmpty_false hl, Bool.not_false, Bool.true_or, Bool.or_true, ifS_true, Bool.false_eq_true, cond_false, reduceIte, ite_cond, List.append_eq]
    show SplitAt (forS l _) _ _ _
    find_text
  · whole
  · intro a
    whole
example := C57_Schematic_textBoxes sampleSchematic 2 true

theorem C57_Schematic_labels (o : Schematic) (i : Nat) (nl : Bool) : LinesOnly (fun l => ({ o with labels := l } : Schematic).toSexpr i nl) (fun a : LocalLabel => .ok (a.toSexpr (i + 2))) := by
  apply EditOnly.lines
  unfold Schematic.toSexpr
  try dsimp only
  refine EditOnly.bind closed_whole fun b0 h0 => ?_
  have h0' : WholeLines b0 := ((PageSettings.endsM _ _) _ h0).whole
  refine EditOnly.bind closed_whole fun b1 h1 => ?_
  have h1' : WholeLines b1 := WholeLines.forSM (fun _ t h => (Junction.endsM _ _ t h).whole) h1
  refine EditOnly.bind closed_whole fun b2 h2 => ?_
  have h2' : WholeLines b2 := WholeLines.forSM (fun _ t h => (Text.endsM _ _ t h).whole) h2
  refine EditOnly.bind closed_whole fun b3 h3 => ?_
  have h3' : WholeLines b3 := WholeLines.forSM (fun _ t h => (NetclassFlag.endsM _ _ t h).whole) h3
  refine EditOnly.bind closed_whole fun b4 h4 => ?_
  have h4' : WholeLines b4 := WholeLines.forSM (fun a t h => ((show EndsM _ from .bind fun b hb => .pure (.cons (HierarchicalSheet.endsM a _ b hb))) t h).whole) h4
  apply EditOnly.of_pure closed_whole
  · intro l hl
    try simp only [isEmpty_false hl, Bool.not_false, Bool.true_or, Bool.or_true, ifS_true, Bool.false_eq_true, cond_false, reduceIte, ite_cond, List.append_eq]
    show SplitAt (forS l _) _ _ _
    find_text
  · whole
  · intro a
    whole
example := C57_Schematic_labels sampleSchematic 2 true

theorem C57_Schematic_globalLabels (o : Schematic) (i : Nat) (nl : Bool) : LinesOnly (fun l => ({ o with globalLabels := l } : Schematic).toSexpr i nl) (fun a : GlobalLabel => .ok (a.toSexpr (i + 2))) := by
  apply EditOnly.lines
  unfold Schematic.toSexpr
  try dsimp only
  refine EditOnly.bind closed_whole fun b0 h0 => ?_
  have h0' : WholeLines b0 := ((PageSettings.endsM _ _) _ h0).whole
  refine EditOnly.bind closed_whole fun b1 h1 => ?_
  have h1' : WholeLines b1 := WholeLines.forSM (fun _ t h => (Junction.endsM _ _ t h).whole) h1
  refine EditOnly.bind closed_whole fun b2 h2 => ?_
  have h2' : WholeLines b2 := WholeLines.forSM (fun _ t h => (Text.endsM _ _ t h).whole) h2
  refine EditOnly.bind closed_whole fun b3 h3 => ?_
  have h3' : WholeLines b3 := WholeLines.forSM (fun _ t h => (NetclassFlag.endsM _ _ t h).whole) h3
  refine EditOnly.bind closed_whole fun b4 h4 => ?_
  have h4' : WholeLines b4 := WholeLines.forSM (fun a t h => ((show EndsM _ from .bind fun b hb => .pure (.cons (HierarchicalSheet.endsM a _ b hb))) t h).whole) h4
  apply EditOnly.of_pure closed_whole
  · intro l hl
    try simp only [isEmpty_false hl, Bool.not_false, Bool.true_or, Bool.or_true, ifS_true, Bool.false_eq_true, cond_false, reduceIte, ite_cond, List.append_eq]
    show SplitAt (forS l _) _ _ _
    find_text
  · whole
  · intro a
    whole
example := C57_Schematic_globalLabels sampleSchematic 2 true

theorem C57_Schematic_hierarchicalLabels (o : Schematic) (i : Nat) (nl : Bool) : LinesOnly (fun l => ({ o with hierarchicalLabels := l } : Schematic).toSexpr i nl) (fun a : HierarchicalLabel => .ok (a.toSexpr (i + 2))) := by
  apply EditOnly.lines
  unfold Schematic.toSexpr
  try dsimp only
  refine EditOnly.bind closed_whole fun b0 h0 => ?_
  have h0' : WholeLines b0 := ((PageSettings.endsM _ _) _ h0).whole
  refine EditOnly.bind closed_whole fun b1 h1 => ?_
  have h1' : WholeLines b1 := WholeLines.forSM (fun _ t h => (Junction.endsM _ _ t h).whole) h1
  refine EditOnly.bind closed_whole fun b2 h2 => ?_
  have h2' : WholeLines b2 := WholeLines.forSM (fun _ t h => (Text.endsM _ _ t h).whole) h2
  refine EditOnly.bind closed_whole fun b3 h3 => ?_
  have h3' : WholeLines b3 := WholeLines.forSM (fun _ t h => (NetclassFlag.endsM _ _ t h).whole) h3
  refine EditOnly.bind closed_whole fun b4 h4 => ?_
  have h4' : WholeLines b4 := WholeLines.forSM (fun a t h => ((show EndsM _ from .bind fun b hb => .pure (.cons (HierarchicalSheet.endsM a _ b hb))) t h).whole) h4
  apply EditOnly.of_pure closed_whole
  · intro l hl
    try simp only [isEmpty_false hl, Bool.not_false, Bool.true_or, Bool.or_true, ifS_true, Bool.false_eq_true, cond_false, reduceIte, ite_cond, List.append_eq]
    show SplitAt (forS l _) _ _ _
    find_text
  · whole
  · intro a
    whole
example := C57_Schematic_hierarchicalLabels sampleSchematic 2 true

theorem C57_Schematic_texts (o : Schematic) (i : Nat) (nl : Bool) : LinesOnly (fun l => ({ o with texts := l } : Schematic).toSexpr i nl) (fun a : Text => a.toSexpr (i + 2)) := by
  apply EditOnly.lines
  unfold Schematic.toSexpr
  try dsimp only
  refine EditOnly.bind closed_whole fun b0 h0 => ?_
  have h0' : WholeLines b0 := ((PageSettings.endsM _ _) _ h0).whole
  refine EditOnly.bind closed_whole fun b1 h1 => ?_
  have h1' : WholeLines b1 := WholeLines.forSM (fun _ t h => (Junction.endsM _ _ t h).whole) h1
  refine EditOnly.here closed_whole ?_ ?_
  rotate_left
  · exact fun _ t h => (Text.endsM _ _ t h).whole
  refine Puts.bind closed_whole fun b3 h3 => ?_
  have h3' : WholeLines b3 := WholeLines.forSM (fun _ t h => (NetclassFlag.endsM _ _ t h).whole) h3
  refine Puts.bind closed_whole fun b4 h4 => ?_
  have h4' : WholeLines b4 := WholeLines.forSM (fun a t h => ((show EndsM _ from .bind fun b hb => .pure (.cons (HierarchicalSheet.endsM a _ b hb))) t h).whole) h4
  apply Puts.ok
  · intro x l hl
    try simp only [isEmpty_false hl, Bool.not_false, Bool.true_or, Bool.or_true, ifS_true, Bool.false_eq_true, cond_false, reduceIte, ite_cond, List.append_eq]
    show SplitAt x _ _ _
    find_text
  · whole
example := C57_Schematic_texts sampleSchematic 2 true

theorem C57_Schematic_netclassFlags (o : Schematic) (i : Nat) (nl : Bool) : LinesOnly (fun l => ({ o with netclassFlags := l } : Schematic).toSexpr i nl) (fun a : NetclassFlag => a.toSexpr (i + 2)) := by
  apply EditOnly.lines
  unfold Schematic.toSexpr
  try dsimp only
  refine EditOnly.bind closed_whole fun b0 h0 => ?_
  have h0' : WholeLines b0 := ((PageSettings.endsM _ _) _ h0).whole
  refine EditOnly.bind closed_whole fun b1 h1 => ?_
  have h1' : WholeLines b1 := WholeLines.forSM (fun _ t h => (Junction.endsM _ _ t h).whole) h1
  refine EditOnly.bind closed_whole fun b2 h2 => ?_
  have h2' : WholeLines b2 := WholeLines.forSM (fun _ t h => (Text.endsM _ _ t h).whole) h2
  refine EditOnly.here closed_whole ?_ ?_
  rotate_left
  · exact fun _ t h => (NetclassFlag.endsM _ _ t h).whole
  refine Puts.bind closed_whole fun b4 h4 => ?_
  have h4' : WholeLines b4 := WholeLines.forSM (fun a t h => ((show EndsM _ from .bind fun b hb => .pure (.cons (HierarchicalSheet.endsM a _ b hb))) t h).whole) h4
  apply Puts.ok
  · intro x l hl
    try simp only [isEmpty_false hl, Bool.not_false, Bool.true_or, Bool.or_true, ifS_true, Bool.false_eq_true, cond_false, reduceIte, ite_cond, List.append_eq]
    show SplitAt x _ _ _
    find_text
  · whole
example := C57_Schematic_netclassFlags sampleSchematic 2 true

theorem C57_Schematic_schematicSymbols (o : Schematic) (i : Nat) (nl : Bool) : LinesOnly (fun l => ({ o with schematicSymbols := l } : Schematic).toSexpr i nl) (fun a : SchematicSymbol => .ok (py!"\n{a.toSexpr (i + 2)}")) := by
  apply EditOnly.lines
  unfold Schematic.toSexpr
  try dsimp only
  refine EditOnly.bind closed_whole fun b0 h0 => ?_
  have h0' : WholeLines b0 := ((PageSettings.endsM _ _) _ h0).whole
  refine EditOnly.bind closed_whole fun b1 h1 => ?_
  have h1' : WholeLines b1 := WholeLines.forSM (fun _ t h => (Junction.endsM _ _ t h).whole) h1
  refine EditOnly.bind closed_whole fun b2 h2 => ?_
  have h2' : WholeLines b2 := WholeLines.forSM (fun _ t h => (Text.endsM _ _ t h).whole) h2
  refine EditOnly.bind closed_whole fun b3 h3 => ?_
  have h3' : WholeLines b3 := WholeLines.forSM (fun _ t h => (NetclassFlag.endsM _ _ t h).whole) h3
  refine EditOnly.bind closed_whole fun b4 h4 => ?_
  have h4' : WholeLines b4 := WholeLines.forSM (fun a t h => ((show EndsM _ from .bind fun b hb => .pure (.cons (HierarchicalSheet.endsM a _ b hb))) t h).whole) h4
  apply EditOnly.of_pure closed_whole
  · intro l hl
    try simp only [isEmpty_false hl, Bool.not_false, Bool.true_or, Bool.or_true, ifS_true, Bool.false_eq_true, cond_false, reduceIte, ite_cond, List.append_eq]
    show SplitAt (forS l _) _ _ _
    find_text
  · whole
  · intro a
    whole
example := C57_Schematic_schematicSymbols sampleSchematic 2 true

theorem C57_Schematic_sheets (o : Schematic) (i : Nat) (nl : Bool) : LinesOnly (fun l => ({ o with sheets := l } : Schematic).toSexpr i nl) (fun a : HierarchicalSheet => do return py!"\n{← a.toSexpr (i + 2)}") := by
  apply EditOnly.lines
  unfold Schematic.toSexpr
  try dsimp only
  refine EditOnly.bind closed_whole fun b0 h0 => ?_
  have h0' : WholeLines b0 := ((PageSettings.endsM _ _) _ h0).whole
  refine EditOnly.bind closed_whole fun b1 h1 => ?_
  have h1' : WholeLines b1 := WholeLines.forSM (fun _ t h => (Junction.endsM _ _ t h).whole) h1
  refine EditOnly.bind closed_whole fun b2 h2 => ?_
  have h2' : WholeLines b2 := WholeLines.forSM (fun _ t h => (Text.endsM _ _ t h).whole) h2
  refine EditOnly.bind closed_whole fun b3 h3 => ?_
  have h3' : WholeLines b3 := WholeLines.forSM (fun _ t h => (NetclassFlag.endsM _ _ t h).whole) h3
  refine EditOnly.here closed_whole ?_ ?_
  rotate_left
  · exact fun a t h => ((show EndsM _ from .bind fun b hb => .pure (.cons (HierarchicalSheet.endsM a _ b hb))) t h).whole
  apply Puts.ok
  · intro x l hl
    try simp only [isEmpty_false hl, Bool.not_false, Bool.true_or, Bool.or_true, ifS_true, Bool.false_eq_true, cond_false, reduceIte, ite_cond, List.append_eq]
    show SplitAt x _ _ _
    find_text
  · whole
example := C57_Schematic_sheets sampleSchematic 2 true

theorem C57_Schematic_sheetInstances (o : Schematic) (i : Nat) (nl : Bool) : LinesOnly (fun l => ({ o with sheetInstances := l } : Schematic).toSexpr i nl) (fun a : HierarchicalSheetInstance => .ok (a.toSexpr (i + 4))) := by
  apply EditOnly.lines
  unfold Schematic.toSexpr
  try dsimp only
  refine EditOnly.bind closed_whole fun b0 h0 => ?_
  have h0' : WholeLines b0 := ((PageSettings.endsM _ _) _ h0).whole
  refine EditOnly.bind closed_whole fun b1 h1 => ?_
  have h1' : WholeLines b1 := WholeLines.forSM (fun _ t h => (Junction.endsM _ _ t h).whole) h1
  refine EditOnly.bind closed_whole fun b2 h2 => ?_
  have h2' : WholeLines b2 := WholeLines.forSM (fun _ t h => (Text.endsM _ _ t h).whole) h2
  refine EditOnly.bind closed_whole fun b3 h3 => ?_
  have h3' : WholeLines b3 := WholeLines.forSM (fun _ t h => (NetclassFlag.endsM _ _ t h).whole) h3
  refine EditOnly.bind closed_whole fun b4 h4 => ?_
  have h4' : WholeLines b4 := WholeLines.forSM (fun a t h => ((show EndsM _ from .bind fun b hb => .pure (.cons (HierarchicalSheet.endsM a _ b hb))) t h).whole) h4
  apply EditOnly.of_pure closed_whole
  · intro l hl
    try simp only [isEmpty_false hl, Bool.not_false, Bool.true_or, Bool.or_true, ifS_true, Bool.false_eq_true, cond_false, reduceIte, ite_cond, List.append_eq]
    show SplitAt (forS l _) _ _ _
    find_text
  · whole
  · intro a
    whole
example := C57_Schematic_sheetInstances sampleSchematic 2 true

theorem C57_Schematic_symbolInstances (o : Schematic) (i : Nat) (nl : Bool) : LinesOnly (fun l => ({ o with symbolInstances := l } : Schematic).toSexpr i nl) (fun a : SymbolInstance => .ok (a.toSexpr (i + 4))) := by
  apply EditOnly.lines
  unfold Schematic.toSexpr
  try dsimp only
  refine EditOnly.bind closed_whole fun b0 h0 => ?_
  have h0' : WholeLines b0 := ((PageSettings.endsM _ _) _ h0).whole
  refine EditOnly.bind closed_whole fun b1 h1 => ?_
  have h1' : WholeLines b1 := WholeLines.forSM (fun _ t h => (Junction.endsM _ _ t h).whole) h1
  refine EditOnly.bind closed_whole fun b2 h2 => ?_
  have h2' : WholeLines b2 := WholeLines.forSM (fun _ t h => (Text.endsM _ _ t h).whole) h2
  refine EditOnly.bind closed_whole fun b3 h3 => ?_
  have h3' : WholeLines b3 := WholeLines.forSM (fun _ t h => (NetclassFlag.endsM _ _ t h).whole) h3
  refine EditOnly.bind closed_whole fun b4 h4 => ?_
  have h4' : WholeLines b4 := WholeLines.forSM (fun a t h => ((show EndsM _ from .bind fun b hb => .pure (.cons (HierarchicalSheet.endsM a _ b hb))) t h).whole) h4
  apply EditOnly.of_pure closed_whole
  · intro l hl
    try simp only [isEmpty_false hl, Bool.not_false, Bool.true_or, Bool.or_true, ifS_true, Bool.false_eq_true, cond_false, reduceIte, ite_cond, List.append_eq]
    show SplitAt (forS l _) _ _ _
    find_text
  · whole
  · intro a
    whole
example := C57_Schematic_symbolInstances sampleSchematic 2 true

theorem C57_Footprint_properties (o : Footprint) (i : Nat) (nl first : Bool) : LinesOnly (fun l => ({ o with properties := l } : Footprint).toSexpr i nl first) (fun a : Val × Val => .ok (py!"{indents i}  (property \"{dq a.1}\" \"{dq a.2}\")\n")) := by
  apply EditOnly.lines
  unfold Footprint.toSexpr Footprint.libId
  try dsimp only
  refine EditOnly.bind closed_whole fun b0 h0 => ?_
  have h0' : WholeLines b0 := WholeLines.forSM (fun _ t h => (FpItem.endsM _ _ t h).whole) h0
  refine EditOnly.bind closed_whole fun b1 h1 => ?_
  have h1' : WholeLines b1 := WholeLines.forSM (fun _ t h => (Pad.endsM _ _ t h).whole) h1
  refine EditOnly.bind closed_whole fun b2 h2 => ?_
  have h2' : WholeLines b2 := WholeLines.forSM (fun _ t h => (Zone.endsM _ _ t h).whole) h2
  apply EditOnly.of_pure closed_whole
  · intro l hl
    try simp only [isEmpty_false hl, Bool.not_false, Bool.true_or, Bool.or_true, ifS_true, Bool.false_eq_true, cond_false, reduceIte, ite_cond, List.append_eq]
    show SplitAt (forS l _) _ _ _
    find_text
  · whole
  · intro a
    whole
example := C57_Footprint_properties sampleFootprint 2 true false

theorem C57_Footprint_graphicItems (o : Footprint) (i : Nat) (nl first : Bool) : LinesOnly (fun l => ({ o with graphicItems := l } : Footprint).toSexpr i nl first) (fun a : FpItem => a.toSexpr (i + 2)) := by
  apply EditOnly.lines
  unfold Footprint.toSexpr Footprint.libId
  try dsimp only
  refine EditOnly.here closed_whole ?_ ?_
  rotate_left
  · exact fun _ t h => (FpItem.endsM _ _ t h).whole
  refine Puts.bind closed_whole fun b1 h1 => ?_
  have h1' : WholeLines b1 := WholeLines.forSM (fun _ t h => (Pad.endsM _ _ t h).whole) h1
  refine Puts.bind closed_whole fun b2 h2 => ?_
  have h2' : WholeLines b2 := WholeLines.forSM (fun _ t h => (Zone.endsM _ _ t h).whole) h2
  apply Puts.ok
  · intro x l hl
    try simp only [isEmpty_false hl, Bool.not_false, Bool.true_or, Bool.or_true, ifS_true, Bool.false_eq_true, cond_false, reduceIte, ite_cond, List.append_eq]
    show SplitAt x _ _ _
    find_text
  · whole
example := C57_Footprint_graphicItems sampleFootprint 2 true false

theorem C57_Footprint_pads (o : Footprint) (i : Nat) (nl first : Bool) : LinesOnly (fun l => ({ o with pads := l } : Footprint).toSexpr i nl first) (fun a : Pad => a.toSexpr (i + 2)) := by
  apply EditOnly.lines
  unfold Footprint.toSexpr Footprint.libId
  try dsimp only
  refine EditOnly.bind closed_whole fun b0 h0 => ?_
  have h0' : WholeLines b0 := WholeLines.forSM (fun _ t h => (FpItem.endsM _ _ t h).whole) h0
  refine EditOnly.here closed_whole ?_ ?_
  rotate_left
  · exact fun _ t h => (Pad.endsM _ _ t h).whole
  refine Puts.bind closed_whole fun b2 h2 => ?_
  have h2' : WholeLines b2 := WholeLines.forSM (fun _ t h => (Zone.endsM _ _ t h).whole) h2
  apply Puts.ok
  · intro x l hl
    try simp only [isEmpty_false hl, Bool.not_false, Bool.true_or, Bool.or_true, ifS_true, Bool.false_eq_true, cond_false, reduceIte, ite_cond, List.append_eq]
    show SplitAt x _ _ _
    find_text
  · whole
example := C57_Footprint_pads sampleFootprint 2 true false

theorem C57_Footprint_zones (o : Footprint) (i : Nat) (nl first : Bool) : LinesOnly (fun l => ({ o with zones := l } : Footprint).toSexpr i nl first) (fun a : Zone => a.toSexpr (i + 2)) := by
  apply EditOnly.lines
  unfold Footprint.toSexpr Footprint.libId
  try dsimp only
  refine EditOnly.bind closed_whole fun b0 h0 => ?_
  have h0' : WholeLines b0 := WholeLines.forSM (fun _ t h => (FpItem.endsM _ _ t h).whole) h0
  refine EditOnly.bind closed_whole fun b1 h1 => ?_
  have h1' : WholeLines b1 := WholeLines.forSM (fun _ t h => (Pad.endsM _ _ t h).whole) h1
  refine EditOnly.here closed_whole ?_ ?_
  rotate_left
  · exact fun _ t h => (Zone.endsM _ _ t h).whole
  apply Puts.ok
  · intro x l hl
    try simp only [isEmpty_false hl, Bool.not_false, Bool.true_or, Bool.or_true, ifS_true, Bool.false_eq_true, cond_false, reduceIte, ite_cond, List.append_eq]
    show SplitAt x _ _ _
    find_text
  · whole
example := C57_Footprint_zones sampleFootprint 2 true false

theorem C57_Footprint_models (o : Footprint) (i : Nat) (nl first : Bool) : LinesOnly (fun l => ({ o with models := l } : Footprint).toSexpr i nl first) (fun a : Model => .ok (a.toSexpr (i + 2))) := by
  apply EditOnly.lines
  unfold Footprint.toSexpr Footprint.libId
  try dsimp only
  refine EditOnly.bind closed_whole fun b0 h0 => ?_
  have h0' : WholeLines b0 := WholeLines.forSM (fun _ t h => (FpItem.endsM _ _ t h).whole) h0
  refine EditOnly.bind closed_whole fun b1 h1 => ?_
  have h1' : WholeLines b1 := WholeLines.forSM (fun _ t h => (Pad.endsM _ _ t h).whole) h1
  refine EditOnly.bind closed_whole fun b2 h2 => ?_
  have h2' : WholeLines b2 := WholeLines.forSM (fun _ t h => (Zone.endsM _ _ t h).whole) h2
  apply EditOnly.of_pure closed_whole
  · intro l hl
    try simp only [isEmpty_false hl, Bool.not_false, Bool.true_or, Bool.or_true, ifS_true, Bool.false_eq_true, cond_false, reduceIte, ite_cond, List.append_eq]
    show SplitAt (forS l _) _ _ _
    find_text
  · whole
  · intro a
    whole
example := C57_Footprint_models sampleFootprint 2 true false

theorem C57_Footprint_groups (o : Footprint) (i : Nat) (nl first : Bool) : LinesOnly (fun l => ({ o with groups := l } : Footprint).toSexpr i nl first) (fun a : Group => .ok (a.toSexpr (i + 2))) := by
  apply EditOnly.lines
  unfold Footprint.toSexpr Footprint.libId
  try dsimp only
  refine EditOnly.bind closed_whole fun b0 h0 => ?_
  have h0' : WholeLines b0 := WholeLines.forSM (fun _ t h => (FpItem.endsM _ _ t h).whole) h0
  refine EditOnly.bind closed_whole fun b1 h1 => ?_
  have h1' : WholeLines b1 := WholeLines.forSM (fun _ t h => (Pad.endsM _ _ t h).whole) h1
  refine EditOnly.bind closed_whole fun b2 h2 => ?_
  have h2' : WholeLines b2 := WholeLines.forSM (fun _ t h => (Zone.endsM _ _ t h).whole) h2
  apply EditOnly.of_pure closed_whole
  · intro l hl
    try simp only [isEmpty_false hl, Bool.not_false, Bool.true_or, Bool.or_true, ifS_true, Bool.false_eq_true, cond_false, reduceIte, ite_cond, List.append_eq]
    show SplitAt (forS l _) _ _ _
    find_text
  · whole
  · intro a
    whole
example := C57_Footprint_groups sampleFootprint 2 true false

theorem C57_Board_layers (o : Board) (i : Nat) (nl : Bool) : LinesOnly (fun l => ({ o with layers := l } : Board).toSexpr i nl) (fun a : LayerToken => .ok (a.toSexpr (i + 4))) := by
  apply EditOnly.lines
  unfold Board.toSexpr
  try dsimp only
  refine EditOnly.bind closed_whole fun b0 h0 => ?_
  have h0' : WholeLines b0 := ((PageSettings.endsM _ _) _ h0).whole
  refine EditOnly.bind closed_whole fun b1 h1 => ?_
  have h1' : WholeLines b1 := ((SetupData.endsM _ _) _ h1).whole
  refine EditOnly.bind closed_whole fun b2 h2 => ?_
  have h2' : WholeLines b2 := WholeLines.forSM (fun _ t h => ((show EndsM _ by endsM) t h).whole) h2
  refine EditOnly.bind closed_whole fun b3 h3 => ?_
  have h3' : WholeLines b3 := WholeLines.forSM (fun _ t h => (GrItem.endsM _ _ _ t h).whole) h3
  refine EditOnly.bind closed_whole fun b4 h4 => ?_
  have h4' : WholeLines b4 := WholeLines.forSM (fun _ t h => (Dimension.endsM _ _ t h).whole) h4
  refine EditOnly.bind closed_whole fun b5 h5 => ?_
  have h5' : WholeLines b5 := WholeLines.forSM (fun _ t h => (Zone.endsM _ _ t h).whole) h5
  apply EditOnly.of_pure closed_whole
  · intro l hl
    try simp only [isEmpty_false hl, Bool.not_false, Bool.true_or, Bool.or_true, ifS_true, Bool.false_eq_true, cond_false, reduceIte, ite_cond, List.append_eq]
    show SplitAt (forS l _) _ _ _
    find_text
  · whole
  · intro a
    whole
example := C57_Board_layers sampleBoard 2 true

theorem C57_Board_properties (o : Board) (i : Nat) (nl : Bool) : LinesOnly (fun l => ({ o with properties := l } : Board).toSexpr i nl) (fun a : Val × Val => .ok (py!"  (property \"{dq a.1}\" \"{dq a.2}\")\n")) := by
  apply EditOnly.lines
  unfold Board.toSexpr
  try dsimp only
  refine EditOnly.bind closed_whole fun b0 h0 => ?_
  have h0' : WholeLines b0 := ((PageSettings.endsM _ _) _ h0).whole
  refine EditOnly.bind closed_whole fun b1 h1 => ?_
  have h1' : WholeLines b1 := ((SetupData.endsM _ _) _ h1).whole
  refine EditOnly.bind closed_whole fun b2 h2 => ?_
  have h2' : WholeLines b2 := WholeLines.forSM (fun _ t h => ((show EndsM _ by endsM) t h).whole) h2
  refine EditOnly.bind closed_whole fun b3 h3 => ?_
  have h3' : WholeLines b3 := WholeLines.forSM (fun _ t h => (GrItem.endsM _ _ _ t h).whole) h3
  refine EditOnly.bind closed_whole fun b4 h4 => ?_
  have h4' : WholeLines b4 := WholeLines.forSM (fun _ t h => (Dimension.endsM _ _ t h).whole) h4
  refine EditOnly.bind closed_whole fun b5 h5 => ?_
  have h5' : WholeLines b5 := WholeLines.forSM (fun _ t h => (Zone.endsM _ _ t h).whole) h5
  apply EditOnly.of_pure closed_whole
  · intro l hl
    try simp only [isEmpty_false hl, Bool.not_false, Bool.true_or, Bool.or_true, ifS_true, Bool.false_eq_true, cond_false, reduceIte, ite_cond, List.append_eq]
    show SplitAt (forS l _) _ _ _
    find_text
  · whole
  · intro a
    whole
example := C57_Board_properties sampleBoard 2 true

theorem C57_Board_nets (o : Board) (i : Nat) (nl : Bool) : LinesOnly (fun l => ({ o with nets := l } : Board).toSexpr i nl) (fun a : Net => .ok (a.toSexpr (i + 2) true)) := by
  apply EditOnly.lines
  unfold Board.toSexpr
  try dsimp only
  refine EditOnly.bind closed_whole fun b0 h0 => ?_
  have h0' : WholeLines b0 := ((PageSettings.endsM _ _) _ h0).whole
  refine EditOnly.bind closed_whole fun b1 h1 => ?_
  have h1' : WholeLines b1 := ((SetupData.endsM _ _) _ h1).whole
  refine EditOnly.bind closed_whole fun b2 h2 => ?_
  have h2' : WholeLines b2 := WholeLines.forSM (fun _ t h => ((show EndsM _ by endsM) t h).whole) h2
  refine EditOnly.bind closed_whole fun b3 h3 => ?_
  have h3' : WholeLines b3 := WholeLines.forSM (fun _ t h => (GrItem.endsM _ _ _ t h).whole) h3
  refine EditOnly.bind closed_whole fun b4 h4 => ?_
  have h4' : WholeLines b4 := WholeLines.forSM (fun _ t h => (Dimension.endsM _ _ t h).whole) h4
  refine EditOnly.bind closed_whole fun b5 h5 => ?_
  have h5' : WholeLines b5 := WholeLines.forSM (fun _ t h => (Zone.endsM _ _ t h).whole) h5
  apply EditOnly.of_pure closed_whole
  · intro l hl
    try simp only [isEmpty_false hl, Bool.not_false, Bool.true_or, Bool.or_true, ifS_true, Bool.false_eq_true, cond_false, reduceIte, ite_cond, List.append_eq]
    show SplitAt (forS l _) _ _ _
    find_text
  · whole
  · intro a
    whole
example := C57_Board_nets sampleBoard 2 true

theorem C57_Board_footprints (o : Board) (i : Nat) (nl : Bool) : LinesOnly (fun l => ({ o with footprints := l } : Board).toSexpr i nl) (fun a : Footprint => do return py!"{← a.toSexpr (i + 2) true true}\n") := by
  apply EditOnly.lines
  unfold Board.toSexpr
  try dsimp only
  refine EditOnly.bind closed_whole fun b0 h0 => ?_
  have h0' : WholeLines b0 := ((PageSettings.endsM _ _) _ h0).whole
  refine EditOnly.bind closed_whole fun b1 h1 => ?_
  have h1' : WholeLines b1 := ((SetupData.endsM _ _) _ h1).whole
  refine EditOnly.here closed_whole ?_ ?_
  rotate_left
  · exact fun _ t h => ((show EndsM _ by endsM) t h).whole
  refine Puts.bind closed_whole fun b3 h3 => ?_
  have h3' : WholeLines b3 := WholeLines.forSM (fun _ t h => (GrItem.endsM _ _ _ t h).whole) h3
  refine Puts.bind closed_whole fun b4 h4 => ?_
  have h4' : WholeLines b4 := WholeLines.forSM (fun _ t h => (Dimension.endsM _ _ t h).whole) h4
  refine Puts.bind closed_whole fun b5 h5 => ?_
  have h5' : WholeLines b5 := WholeLines.forSM (fun _ t h => (Zone.endsM _ _ t h).whole) h5
  apply Puts.ok
  · intro x l hl
    try simp only [isEmpty_false hl, Bool.not_false, Bool.true_or, Bool.or_true, ifS_true, Bool.false_eq_true, cond_false, reduceIte, ite_cond, List.append_eq]
    show SplitAt x _ _ _
    find_text
  · whole
example := C57_Board_footprints sampleBoard 2 true

theorem C57_Board_graphicItems (o : Board) (i : Nat) (nl : Bool) : LinesOnly (fun l => ({ o with graphicItems := l } : Board).toSexpr i nl) (fun a : GrItem => a.toSexpr (i + 2) true true) := by
  apply EditOnly.lines
  unfold Board.toSexpr
  try dsimp only
  refine EditOnly.bind closed_whole fun b0 h0 => ?_
  have h0' : WholeLines b0 := ((PageSettings.endsM _ _) _ h0).whole
  refine EditOnly.bind closed_whole fun b1 h1 => ?_
  have h1' : WholeLines b1 := ((SetupData.endsM _ _) _ h1).whole
  refine EditOnly.bind closed_whole fun b2 h2 => ?_
  have h2' : WholeLines b2 := WholeLines.forSM (fun _ t h => ((show EndsM _ by endsM) t h).whole) h2
  refine EditOnly.here closed_whole ?_ ?_
  rotate_left
  · exact fun _ t h => (GrItem.endsM _ _ _ t h).whole
  refine Puts.bind closed_whole fun b4 h4 => ?_
  have h4' : WholeLines b4 := WholeLines.forSM (fun _ t h => (Dimension.endsM _ _ t h).whole) h4
  refine Puts.bind closed_whole fun b5 h5 => ?_
  have h5' : WholeLines b5 := WholeLines.forSM (fun _ t h => (Zone.endsM _ _ t h).whole) h5
  apply Puts.ok
  · intro x l hl
    try simp only [isEmpty_false hl, Bool.not_false, Bool.true_or, Bool.or_true, ifS_true, Bool.false_eq_true, cond_false, reduceIte, ite_cond, List.append_eq]
    show SplitAt x _ _ _
    find_text
  · whole
example := C57_Board_graphicItems sampleBoard 2 true

theorem C57_Board_dimensions (o : Board) (i : Nat) (nl : Bool) : LinesOnly (fun l => ({ o with dimensions := l } : Board).toSexpr i nl) (fun a : Dimension => a.toSexpr (i + 2)) := by
  apply EditOnly.lines
  unfold Board.toSexpr
  try dsimp only
  refine EditOnly.bind closed_whole fun b0 h0 => ?_
  have h0' : WholeLines b0 := ((PageSettings.endsM _ _) _ h0).whole
  refine EditOnly.bind closed_whole fun b1 h1 => ?_
  have h1' : WholeLines b1 := ((SetupData.endsM _ _) _ h1).whole
  refine EditOnly.bind closed_whole fun b2 h2 => ?_
  have h2' : WholeLines b2 := WholeLines.forSM (fun _ t h => ((show EndsM _ by endsM) t h).whole) h2
  refine EditOnly.bind closed_whole fun b3 h3 => ?_
  have h3' : WholeLines b3 := WholeLines.forSM (fun _ t h => (GrItem.endsM _ _ _ t h).whole) h3
  refine EditOnly.here closed_whole ?_ ?_
  rotate_left
  · exact fun _ t h => (Dimension.endsM _ _ t h).whole
  refine Puts.bind closed_whole fun b5 h5 => ?_
  have h5' : WholeLines b5 := WholeLines.forSM (fun _ t h => (Zone.endsM _ _ t h).whole) h5
  apply Puts.ok
  · intro x l hl
    try simp only [isEmpty_false hl, Bool.not_false, Bool.true_or, Bool.or_true, ifS_true, Bool.false_eq_true, cond_false, reduceIte, ite_cond, List.append_eq]
    show SplitAt x _ _ _
    find_text
  · whole
example := C57_Board_dimensions sampleBoard 2 true

theorem C57_Board_targets (o : Board) (i : Nat) (nl : Bool) : LinesOnly (fun l => ({ o with targets := l } : Board).toSexpr i nl) (fun a : Target => .ok (a.toSexpr (i + 2))) := by
  apply EditOnly.lines
  unfold Board.toSexpr
  try dsimp only
  refine EditOnly.bind closed_whole fun b0 h0 => ?_
  have h0' : WholeLines b0 := ((PageSettings.endsM _ _) _ h0).whole
  refine EditOnly.bind closed_whole fun b1 h1 => ?_
  have h1' : WholeLines b1 := ((SetupData.endsM _ _) _ h1).whole
  refine EditOnly.bind closed_whole fun b2 h2 => ?_
  have h2' : WholeLines b2 := WholeLines.forSM (fun _ t h => ((show EndsM _ by endsM) t h).whole) h2
  refine EditOnly.bind closed_whole fun b3 h3 => ?_
  have h3' : WholeLines b3 := WholeLines.forSM (fun _ t h => (GrItem.endsM _ _ _ t h).whole) h3
  refine EditOnly.bind closed_whole fun b4 h4 => ?_
  have h4' : WholeLines b4 := WholeLines.forSM (fun _ t h => (Dimension.endsM _ _ t h).whole) h4
  refine EditOnly.bind closed_whole fun b5 h5 => ?_
  have h5' : WholeLines b5 := WholeLines.forSM (fun _ t h => (Zone.endsM _ _ t h).whole) h5
  apply EditOnly.of_pure closed_whole
  · intro l hl
    try simp only [isEmpty_false hl, Bool.not_false, Bool.true_or, Bool.or_true, ifS_true, Bool.false_eq_true, cond_false, reduceIte, ite_cond, List.append_eq]
    show SplitAt (forS l _) _ _ _
    find_text
  · whole
  · intro a
    whole
example := C57_Board_targets sampleBoard 2 true

theorem C57_Board_traceItems (o : Board) (i : Nat) (nl : Bool) : LinesOnly (fun l => ({ o with traceItems := l } : Board).toSexpr i nl) (fun a : TraceItem => .ok (a.toSexpr (i + 2))) := by
  apply EditOnly.lines
  unfold Board.toSexpr
  try dsimp only
  refine EditOnly.bind closed_whole fun b0 h0 => ?_
  have h0' : WholeLines b0 := ((PageSettings.endsM _ _) _ h0).whole
  refine EditOnly.bind closed_whole fun b1 h1 => ?_
  have h1' : WholeLines b1 := ((SetupData.endsM _ _) _ h1).whole
  refine EditOnly.bind closed_whole fun b2 h2 => ?_
  have h2' : WholeLines b2 := WholeLines.forSM (fun _ t h => ((show EndsM _ by endsM) t h).whole) h2
  refine EditOnly.bind closed_whole fun b3 h3 => ?_
  have h3' : WholeLines b3 := WholeLines.forSM (fun _ t h => (GrItem.endsM _ _ _ t h).whole) h3
  refine EditOnly.bind closed_whole fun b4 h4 => ?_
  have h4' : WholeLines b4 := WholeLines.forSM (fun _ t h => (Dimension.endsM _ _ t h).whole) h4
  refine EditOnly.bind closed_whole fun b5 h5 => ?_
  have h5' : WholeLines b5 := WholeLines.forSM (fun _ t h => (Zone.endsM _ _ t h).whole) h5
  apply EditOnly.of_pure closed_whole
  · intro l hl
    try simp only [isEmpty_false hl, Bool.not_false, Bool.true_or, Bool.or_true, ifS_true, Bool.false_eq_true, cond_false, reduceIte, ite_cond, List.append_eq]
    show SplitAt (forS l _) _ _ _
    find_text
  · whole
  · intro a
    whole
example := C57_Board_traceItems sampleBoard 2 true

theorem C57_Board_zones (o : Board) (i : Nat) (nl : Bool) : LinesOnly (fun l => ({ o with zones := l } : Board).toSexpr i nl) (fun a : Zone => a.toSexpr (i + 2)) := by
  apply EditOnly.lines
  unfold Board.toSexpr
  try dsimp only
  refine EditOnly.bind closed_whole fun b0 h0 => ?_
  have h0' : WholeLines b0 := ((PageSettings.endsM _ _) _ h0).whole
  refine EditOnly.bind closed_whole fun b1 h1 => ?_
  have h1' : WholeLines b1 := ((SetupData.endsM _ _) _ h1).whole
  refine EditOnly.bind closed_whole fun b2 h2 => ?_
  have h2' : WholeLines b2 := WholeLines.forSM (fun _ t h => ((show EndsM _ by endsM) t h).whole) h2
  refine EditOnly.bind closed_whole fun b3 h3 => ?_
  have h3' : WholeLines b3 := WholeLines.forSM (fun _ t h => (GrItem.endsM _ _ _ t h).whole) h3
  refine EditOnly.bind closed_whole fun b4 h4 => ?_
  have h4' : WholeLines b4 := WholeLines.forSM (fun _ t h => (Dimension.endsM _ _ t h).whole) h4
  refine EditOnly.here closed_whole ?_ ?_
  rotate_left
  · exact fun _ t h => (Zone.endsM _ _ t h).whole
  apply Puts.ok
  · intro x l hl
    try simp only [isEmpty_false hl, Bool.not_false, Bool.true_or, Bool.or_true, ifS_true, Bool.false_eq_true, cond_false, reduceIte, ite_cond, List.append_eq]
    show SplitAt x _ _ _
    find_text
  · whole
example := C57_Board_zones sampleBoard 2 true

theorem C57_Board_groups (o : Board) (i : Nat) (nl : Bool) : LinesOnly (fun l => ({ o with groups := l } : Board).toSexpr i nl) (fun a : Group => .ok (a.toSexpr (i + 2))) := by
  apply EditOnly.lines
  unfold Board.toSexpr
  try dsimp only
  refine EditOnly.bind closed_whole fun b0 h0 => ?_
  have h0' : WholeLines b0 := ((PageSettings.endsM _ _) _ h0).whole
  refine EditOnly.bind closed_whole fun b1 h1 => ?_
  have h1' : WholeLines b1 := ((SetupData.endsM _ _) _ h1).whole
  refine EditOnly.bind closed_whole fun b2 h2 => ?_
  have h2' : WholeLines b2 := WholeLines.forSM (fun _ t h => ((show EndsM _ by endsM) t h).whole) h2
  refine EditOnly.bind closed_whole fun b3 h3 => ?_
  have h3' : WholeLines b3 := WholeLines.forSM (fun _ t h => (GrItem.endsM _ _ _ t h).whole) h3
  refine EditOnly.bind closed_whole fun b4 h4 => ?_
  have h4' : WholeLines b4 := WholeLines.forSM (fun _ t h => (Dimension.endsM _ _ t h).whole) h4
  refine EditOnly.bind closed_whole fun b5 h5 => ?_
  have h5' : WholeLines b5 := WholeLines.forSM (fun _ t h => (Zone.endsM _ _ t h).whole) h5
  apply EditOnly.of_pure closed_whole
  · intro l hl
    try simp only [isEmpty_false hl, Bool.not_false, Bool.true_or, Bool.or_true, ifS_true, Bool.false_eq_true, cond_false, reduceIte, ite_cond, List.append_eq]
    show SplitAt (forS l _) _ _ _
    find_text
  · whole
  · intro a
    whole
example := C57_Board_groups sampleBoard 2 true

theorem C57_StackupLayer_subLayers (o : StackupLayer) (i : Nat) (nl : Bool) : TextOnly (fun l => .ok (({ o with subLayers := l } : StackupLayer).toSexpr i nl)) (fun a : StackupSubLayer => .ok (py!"\n{a.toSexpr (i + 2)}")) := by
  apply EditOnly.text
  unfold StackupLayer.toSexpr
  try dsimp only
  apply EditOnly.of_pure closed_true
  · intro l hl
    try simp only [isEmpty_false hl, Bool.not_false, Bool.true_or, Bool.or_true, ifS_true, Bool.false_eq_true, cond_false, reduceIte, ite_cond, List.append_eq]
    show SplitAt (forS l _) _ _ _
    find_text
  · trivial
  · exact fun _ => trivial
example := C57_StackupLayer_subLayers sampleStackupLayer 2 true

theorem C57_Via_layers (o : Via) (i : Nat) (nl : Bool) : TextOnly (fun l => .ok (({ o with layers := l } : Via).toSexpr i nl)) (fun a : Val => .ok (py!" \"{dq a}\"")) := by
  apply EditOnly.text
  unfold Via.toSexpr
  try dsimp only
  apply EditOnly.of_pure closed_true
  · intro l hl
    try simp only [isEmpty_false hl, Bool.not_false, Bool.true_or, Bool.or_true, ifS_true, Bool.false_eq_true, cond_false, reduceIte, ite_cond, List.append_eq]
    show SplitAt (forS l _) _ _ _
    find_text
  · trivial
  · exact fun _ => trivial
example := C57_Via_layers sampleVia 2 true

theorem C57_Connection_points (o : Connection) (i : Nat) (nl : Bool) : TextOnly (fun l => .ok (({ o with points := l } : Connection).toSexpr i nl)) (fun a : Position => .ok (py!" (xy {a.X.pyStr} {a.Y.pyStr})")) := by
  apply EditOnly.text
  unfold Connection.toSexpr
  try dsimp only
  apply EditOnly.of_pure closed_true
  · intro l hl
    try simp only [isEmpty_false hl, Bool.not_false, Bool.true_or, Bool.or_true, ifS_true, Bool.false_eq_true, cond_false, reduceIte, ite_cond, List.append_eq]
    show SplitAt (forS l _) _ _ _
    find_text
  · trivial
  · exact fun _ => trivial
example := C57_Connection_points sampleConnection 2 true

theorem C57_PolyLine_points (o : PolyLine) (i : Nat) (nl : Bool) : TextOnly (fun l => .ok (({ o with points := l } : PolyLine).toSexpr i nl)) (fun a : Position => .ok (py!" (xy {a.X.pyStr} {a.Y.pyStr})")) := by
  apply EditOnly.text
  unfold PolyLine.toSexpr
  try dsimp only
  apply EditOnly.of_pure closed_true
  · intro l hl
    try simp only [isEmpty_false hl, Bool.not_false, Bool.true_or, Bool.or_true, ifS_true, Bool.false_eq_true, cond_false, reduceIte, ite_cond, List.append_eq]
    show SplitAt (forS l _) _ _ _
    find_text
  · trivial
  · exact fun _ => trivial
example := C57_PolyLine_points samplePolyLine 2 true

theorem C57_Schematic_libSymbols (o : Schematic) (i : Nat) (nl : Bool) : TextOnly (fun l => ({ o with libSymbols := l } : Schematic).toSexpr i nl) (fun a : Symbol => .ok (py!"\n{a.toSexpr (i + 4)}")) := by
  apply EditOnly.text
  unfold Schematic.toSexpr
  try dsimp only
  refine EditOnly.bind closed_true fun b0 h0 => ?_
  refine EditOnly.bind closed_true fun b1 h1 => ?_
  refine EditOnly.bind closed_true fun b2 h2 => ?_
  refine EditOnly.bind closed_true fun b3 h3 => ?_
  refine EditOnly.bind closed_true fun b4 h4 => ?_
  apply EditOnly.of_pure closed_true
  · intro l hl
    try simp only [isEmpty_false hl, Bool.not_false, Bool.true_or, Bool.or_true, ifS_true, Bool.false_eq_true, cond_false, reduceIte, ite_cond, List.append_eq]
    show SplitAt (forS l _) _ _ _
    find_text
  · trivial
  · exact fun _ => trivial
example := C57_Schematic_libSymbols sampleSchematic 2 true

theorem C57_Pad_layers (o : Pad) (i : Nat) (nl : Bool) : TextOnly (fun l => ({ o with layers := l } : Pad).toSexpr i nl) (fun a : Val => padLayer a) := by
  apply EditOnly.text
  unfold Pad.toSexpr
  try dsimp only
  refine EditOnly.here closed_true ?_ ?_
  rotate_left
  · exact fun _ _ _ => trivial
  refine Puts.bind closed_true fun b1 h1 => ?_
  apply Puts.ok
  · intro x l hl
    try simp only [isEmpty_false hl, Bool.not_false, Bool.true_or, Bool.or_true, ifS_true, Bool.false_eq_true, cond_false, reduceIte, ite_cond, List.append_eq]
    show SplitAt x _ _ _
    find_text
  · trivial
example := C57_Pad_layers samplePad 2 true

theorem C57_Pad_chamfer (o : Pad) (i : Nat) (nl : Bool) : TextOnly (fun l => ({ o with chamfer := l } : Pad).toSexpr i nl) (fun a : Val => .ok (py!" {a.pyStr}")) := by
  apply EditOnly.text
  unfold Pad.toSexpr
  try dsimp only
  refine EditOnly.bind closed_true fun b0 h0 => ?_
  refine EditOnly.bind closed_true fun b1 h1 => ?_
  apply EditOnly.of_pure closed_true
  · intro l hl
    try simp only [isEmpty_false hl, Bool.not_false, Bool.true_or, Bool.or_true, ifS_true, Bool.false_eq_true, cond_false, reduceIte, ite_cond, List.append_eq]
    show SplitAt (forS l _) _ _ _
    find_text
  · trivial
  · exact fun _ => trivial
example := C57_Pad_chamfer samplePad 2 true

theorem C57_Pad_customPadPrimitives (o : Pad) (i : Nat) (nl : Bool) : TextOnly (fun l => ({ o with customPadPrimitives := l } : Pad).toSexpr i nl) (fun a : GrItem => do return py!"\n{← a.toSexpr (i + 4) false false}") := by
  apply EditOnly.text
  unfold Pad.toSexpr
  try dsimp only
  refine EditOnly.bind closed_true fun b0 h0 => ?_
  refine EditOnly.here closed_true ?_ ?_
  rotate_left
  · exact fun _ _ _ => trivial
  apply Puts.ok
  · intro x l hl
    try simp only [isEmpty_false hl, Bool.not_false, Bool.true_or, Bool.or_true, ifS_true, Bool.false_eq_true, cond_false, reduceIte, ite_cond, List.append_eq]
    show SplitAt x _ _ _
    find_text
  · trivial
example := C57_Pad_customPadPrimitives samplePad 2 true

theorem C57_Footprint_privateLayers (o : Footprint) (i : Nat) (nl first : Bool) : TextOnly (fun l => ({ o with privateLayers := l } : Footprint).toSexpr i nl first) (fun a : Val => .ok (py!" \"{dq a}\"")) := by
  apply EditOnly.text
  unfold Footprint.toSexpr Footprint.libId
  try dsimp only
  refine EditOnly.bind closed_true fun b0 h0 => ?_
  refine EditOnly.bind closed_true fun b1 h1 => ?_
  refine EditOnly.bind closed_true fun b2 h2 => ?_
  apply EditOnly.of_pure closed_true
  · intro l hl
    try simp only [isEmpty_false hl, Bool.not_false, Bool.true_or, Bool.or_true, ifS_true, Bool.false_eq_true, cond_false, reduceIte, ite_cond, List.append_eq]
    show SplitAt (forS l _) _ _ _
    find_text
  · trivial
  · exact fun _ => trivial
example := C57_Footprint_privateLayers sampleFootprint 2 true false

theorem C57_Footprint_netTiePadGroups (o : Footprint) (i : Nat) (nl first : Bool) : TextOnly (fun l => ({ o with netTiePadGroups := l } : Footprint).toSexpr i nl first) (fun a : Val => .ok (py!" \"{dq a}\"")) := by
  apply EditOnly.text
  unfold Footprint.toSexpr Footprint.libId
  try dsimp only
  refine EditOnly.bind closed_true fun b0 h0 => ?_
  refine EditOnly.bind closed_true fun b1 h1 => ?_
  refine EditOnly.bind closed_true fun b2 h2 => ?_
  apply EditOnly.of_pure closed_true
  · intro l hl
    try simp only [isEmpty_false hl, Bool.not_false, Bool.true_or, Bool.or_true, ifS_true, Bool.false_eq_true, cond_false, reduceIte, ite_cond, List.append_eq]
    show SplitAt (forS l _) _ _ _
    find_text
  · trivial
  · exact fun _ => trivial
example := C57_Footprint_netTiePadGroups sampleFootprint 2 true false

theorem C57_Dimension_pts (o : Dimension) (i : Nat) (nl : Bool) : TextOnly (fun l => ({ o with pts := l } : Dimension).toSexpr i nl) (fun a : Position => .ok (py!" (xy {a.X.pyStr} {a.Y.pyStr})")) := by
  apply EditOnly.text
  unfold Dimension.toSexpr
  try dsimp only
  refine EditOnly.congr (fun l hl => if_neg (by cases l with | nil => exact absurd rfl hl | cons => simp [forS])) ?_
  apply EditOnly.of_pure closed_true
  · intro l hl
    try simp only [isEmpty_false hl, Bool.not_false, Bool.true_or, Bool.or_true, ifS_true, Bool.false_eq_true, cond_false, reduceIte, ite_cond, List.append_eq]
    show SplitAt (forS l _) _ _ _
    find_text
  · trivial
  · exact fun _ => trivial
example := C57_Dimension_pts sampleDimension 2 true

/-! ## What this means for a single edit -/

/-- Replacing an item replaces its lines. -/
theorem C57_replace {α : Type} {save : List α → PyM Str} {item : α → PyM Str} (h : LinesOnly save item) (before behind : List α) (a b : α)
    (s s' : Str) (hs : save (before ++ [a] ++ behind) = .ok s) (hs' : save (before ++ [b] ++ behind) = .ok s') :
    ∃ pre t t' post, item a = .ok t ∧ item b = .ok t' ∧ WholeLines pre ∧ WholeLines t ∧ WholeLines t' ∧
      s = pre ++ t ++ post ∧ s' = pre ++ t' ++ post := by
  obtain ⟨pre, post, hp, h⟩ := h before behind
  obtain ⟨ts, h1, h2, h3⟩ := h [a] s (by simp) hs
  obtain ⟨ts', h1', h2', h3'⟩ := h [b] s' (by simp) hs'
  cases ea : item a with
  | error => simp [ea, bind, Except.bind] at h1
  | ok t => cases eb : item b with
    | error => simp [eb, bind, Except.bind] at h1'
    | ok t' =>
      simp only [List.mapM_cons, List.mapM_nil, ea, eb, bind, Except.bind, pure, Except.pure, Except.ok.injEq] at h1 h1'
      subst h1 h1'
      exact ⟨pre, t, t', post, rfl, rfl, hp, h2 _ (by simp), h2' _ (by simp), by simpa using h3, by simpa using h3'⟩
example := C57_replace (C57_LibTable_libs sampleLibTable 2 true) [sampleLibrary] [] sampleLibrary {} _ _ rfl rfl

/-- Inserting an item behind another one inserts its lines; removing it removes them. -/
theorem C57_insert {α : Type} {save : List α → PyM Str} {item : α → PyM Str} (h : LinesOnly save item) (before behind : List α) (a b : α)
    (s s' : Str) (hs : save (before ++ [a] ++ behind) = .ok s) (hs' : save (before ++ [a, b] ++ behind) = .ok s') :
    ∃ pre t post, item b = .ok t ∧ WholeLines pre ∧ WholeLines t ∧ s = pre ++ post ∧ s' = pre ++ t ++ post := by
  obtain ⟨pre, post, hp, h⟩ := h before behind
  obtain ⟨ts, h1, h2, h3⟩ := h [a] s (by simp) hs
  obtain ⟨ts', h1', h2', h3'⟩ := h [a, b] s' (by simp) hs'
  cases ea : item a with
  | error => simp [ea, bind, Except.bind] at h1
  | ok t => cases eb : item b with
    | error => simp [ea, eb, bind, Except.bind] at h1'
    | ok t' =>
      simp only [List.mapM_cons, List.mapM_nil, ea, eb, bind, Except.bind, pure, Except.pure, Except.ok.injEq] at h1 h1'
      subst h1 h1'
      exact ⟨pre ++ t, t', post, rfl, .append hp (h2 _ (by simp)), h2' _ (by simp), by simpa using h3, by simpa using h3'⟩

/-- A board that can be saved, with a net more and a net less. -/
example (a b : Net) : ∃ pre t post s s', ({ Board.createNew with nets := [{}, a] } : Board).toSexpr 0 true = .ok s ∧
    ({ Board.createNew with nets := [{}, a, b] } : Board).toSexpr 0 true = .ok s' ∧ WholeLines pre ∧ WholeLines t ∧ t = b.toSexpr 2 true ∧
    s = pre ++ post ∧ s' = pre ++ t ++ post := by
  have hs : ∃ s, ({ Board.createNew with nets := [{}, a] } : Board).toSexpr 0 true = .ok s := ⟨_, rfl⟩
  have hs' : ∃ s, ({ Board.createNew with nets := [{}, a, b] } : Board).toSexpr 0 true = .ok s := ⟨_, rfl⟩
  obtain ⟨s, hs⟩ := hs
  obtain ⟨s', hs'⟩ := hs'
  obtain ⟨pre, t, post, e, h1, h2, h3, h4⟩ := C57_insert (C57_Board_nets Board.createNew 0 true) [{}] [] a b s s' hs hs'
  cases e
  exact ⟨pre, _, post, s, s', hs, hs', h1, h2, rfl, h3, h4⟩

end Kiutils
