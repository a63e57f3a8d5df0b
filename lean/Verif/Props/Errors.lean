import Verif.Proofs.Board
import Verif.Proofs.Schematic
import Verif.Proofs.Symbol
import Verif.Proofs.Dru
import Verif.Proofs.Wks
import Verif.Proofs.Libraries
import Verif.Proofs.Zones
import Verif.Tokens
/-!
# What `from_sexpr` refuses (C09)
-/
namespace Kiutils

/-! ## Specification -/

/-- A loader that only accepts lists beginning with one of the words `heads`: for anything that is not a list, and for a list that
begins with anything else, it raises the exception "Expression does not have the correct type"; for the empty list it raises
`empty`. -/
structure Rejects {α : Type} (load : Val → PyM α) (heads : List Str) (empty : PyErr) : Prop where
  notList : ∀ v : Val, v.isList = false → load v = .error .exception
  wrongHead : ∀ (h : Val) (r : List Val), (∀ k ∈ heads, h ≠ .str k) → load (.list (h :: r)) = .error .exception
  emptyList : load (.list []) = .error empty

/-- The hypotheses of `wrongHead` can be met by any other word, and by a head that is itself a list or a number. -/
example : (∀ k ∈ [k!"wire", k!"bus"], (Val.str k!"wires") ≠ .str k) ∧ (∀ k ∈ [k!"wire", k!"bus"], Val.list [.str k!"wire"] ≠ .str k) := by
  simp

/-! ## Helpers -/

theorem is_false_of_ne' {h : Val} {k : Str} (hu : h ≠ .str k) : h.is k = false :=
  is_false_of_ne (ks := [k]) (by simpa using hu) (by simp)

theorem rejects_checkHead {α : Type} {load : Val → PyM α} {k : Str} {f : Val → List Val → PyM α}
    (h : ∀ v, load v = checkHead k v >>= f v) : Rejects load [k] .indexError where
  notList v hv := by rw [h]; cases v <;> first | rfl | cases hv
  wrongHead a r hr := by
    have : a.is k = false := is_false_of_ne' (hr k (by simp))
    rw [h, checkHead]; simp only [this]; rfl
  emptyList := by rw [h]; rfl

/-! ## The classes that check the word at the head of the list -/

theorem C09_Library : Rejects Library.fromSexpr [k!"lib"] .indexError :=
  rejects_checkHead (f := _) fun _ => rfl
example := C09_Library.wrongHead (.str k!"other") [.int 1] (by simp)
theorem C09_LibTable : Rejects LibTable.fromSexpr [k!"fp_lib_table", k!"sym_lib_table"] .indexError where
  notList v hv := by cases v <;> first | rfl | cases hv
  wrongHead h r hr := by
    have hw : (! h.is k!"fp_lib_table") && (! h.is k!"sym_lib_table") = true := by simp [is_false_of_ne' (hr _ (List.mem_cons_self)), is_false_of_ne' (hr _ (List.mem_cons_of_mem _ List.mem_cons_self))]
    unfold LibTable.fromSexpr
    simp at hw
    repeat' split
    all_goals simp_all
  emptyList := rfl
example := C09_LibTable.wrongHead (.str k!"other") [.int 1] (by simp)
theorem C09_Constraint : Rejects Constraint.fromSexpr [k!"constraint"] .indexError :=
  rejects_checkHead (f := _) fun _ => rfl
example := C09_Constraint.wrongHead (.str k!"other") [.int 1] (by simp)
theorem C09_Rule : Rejects Rule.fromSexpr [k!"rule"] .indexError :=
  rejects_checkHead (f := _) fun _ => rfl
example := C09_Rule.wrongHead (.str k!"other") [.int 1] (by simp)
theorem C09_Coordinate : Rejects Coordinate.fromSexpr [k!"xyz"] .exception where
  notList v hv := by cases v <;> first | rfl | cases hv
  wrongHead h r hr := by
    have hw : (! h.is k!"xyz") = true := by simp [is_false_of_ne' (hr _ (List.mem_cons_self))]
    unfold Coordinate.fromSexpr
    simp at hw
    repeat' split
    all_goals simp_all
  emptyList := rfl
example := C09_Coordinate.wrongHead (.str k!"other") [.int 1] (by simp)
theorem C09_ColorRGBA : Rejects ColorRGBA.fromSexpr [k!"color"] .exception where
  notList v hv := by cases v <;> first | rfl | cases hv
  wrongHead h r hr := by
    have hw : (! h.is k!"color") = true := by simp [is_false_of_ne' (hr _ (List.mem_cons_self))]
    unfold ColorRGBA.fromSexpr
    simp at hw
    repeat' split
    all_goals simp_all
  emptyList := rfl
example := C09_ColorRGBA.wrongHead (.str k!"other") [.int 1] (by simp)
theorem C09_Stroke : Rejects Stroke.fromSexpr [k!"stroke"] .exception where
  notList v hv := by cases v <;> first | rfl | cases hv
  wrongHead h r hr := by
    have hw : (! h.is k!"stroke") = true := by simp [is_false_of_ne' (hr _ (List.mem_cons_self))]
    unfold Stroke.fromSexpr
    simp at hw
    repeat' split
    all_goals simp_all
  emptyList := rfl
example := C09_Stroke.wrongHead (.str k!"other") [.int 1] (by simp)
theorem C09_Font : Rejects Font.fromSexpr [k!"font"] .indexError :=
  rejects_checkHead (f := _) fun _ => rfl
example := C09_Font.wrongHead (.str k!"other") [.int 1] (by simp)
theorem C09_Justify : Rejects Justify.fromSexpr [k!"justify"] .indexError :=
  rejects_checkHead (f := _) fun _ => rfl
example := C09_Justify.wrongHead (.str k!"other") [.int 1] (by simp)
theorem C09_Effects : Rejects Effects.fromSexpr [k!"effects"] .indexError :=
  rejects_checkHead (f := _) fun _ => rfl
example := C09_Effects.wrongHead (.str k!"other") [.int 1] (by simp)
theorem C09_Net : Rejects Net.fromSexpr [k!"net"] .indexError :=
  rejects_checkHead (f := _) fun _ => rfl
example := C09_Net.wrongHead (.str k!"other") [.int 1] (by simp)
theorem C09_Group : Rejects Group.fromSexpr [k!"group"] .indexError :=
  rejects_checkHead (f := _) fun _ => rfl
example := C09_Group.wrongHead (.str k!"other") [.int 1] (by simp)
theorem C09_PageSettings : Rejects PageSettings.fromSexpr [k!"paper"] .indexError :=
  rejects_checkHead (f := _) fun _ => rfl
example := C09_PageSettings.wrongHead (.str k!"other") [.int 1] (by simp)
theorem C09_TitleBlock : Rejects TitleBlock.fromSexpr [k!"title_block"] .indexError :=
  rejects_checkHead (f := _) fun _ => rfl
example := C09_TitleBlock.wrongHead (.str k!"other") [.int 1] (by simp)
theorem C09_Property : Rejects Property.fromSexpr [k!"property"] .indexError :=
  rejects_checkHead (f := _) fun _ => rfl
example := C09_Property.wrongHead (.str k!"other") [.int 1] (by simp)
theorem C09_RenderCachePolygon : Rejects RenderCachePolygon.fromSexpr [k!"polygon"] .indexError :=
  rejects_checkHead (f := _) fun _ => rfl
example := C09_RenderCachePolygon.wrongHead (.str k!"other") [.int 1] (by simp)
theorem C09_RenderCache : Rejects RenderCache.fromSexpr [k!"render_cache"] .exception where
  notList v hv := by cases v <;> first | rfl | cases hv
  wrongHead h r hr := by
    have hw : (! h.is k!"render_cache") = true := by simp [is_false_of_ne' (hr _ (List.mem_cons_self))]
    unfold RenderCache.fromSexpr
    simp at hw
    repeat' split
    all_goals simp_all
  emptyList := rfl
example := C09_RenderCache.wrongHead (.str k!"other") [.int 1] (by simp)
theorem C09_Fill : Rejects Fill.fromSexpr [k!"fill"] .indexError :=
  rejects_checkHead (f := _) fun _ => rfl
example := C09_Fill.wrongHead (.str k!"other") [.int 1] (by simp)
theorem C09_Image : Rejects Image.fromSexpr [k!"image"] .indexError :=
  rejects_checkHead (f := _) fun _ => rfl
example := C09_Image.wrongHead (.str k!"other") [.int 1] (by simp)
theorem C09_WksFontSize : Rejects WksFontSize.fromSexpr [k!"size"] .exception where
  notList v hv := by cases v <;> first | rfl | cases hv
  wrongHead h r hr := by
    have hw : (! h.is k!"size") = true := by simp [is_false_of_ne' (hr _ (List.mem_cons_self))]
    unfold WksFontSize.fromSexpr
    simp at hw
    repeat' split
    all_goals simp_all
  emptyList := rfl
example := C09_WksFontSize.wrongHead (.str k!"other") [.int 1] (by simp)
theorem C09_WksFont : Rejects WksFont.fromSexpr [k!"font"] .indexError :=
  rejects_checkHead (f := _) fun _ => rfl
example := C09_WksFont.wrongHead (.str k!"other") [.int 1] (by simp)
theorem C09_Bitmap : Rejects Bitmap.fromSexpr [k!"bitmap"] .indexError :=
  rejects_checkHead (f := _) fun _ => rfl
example := C09_Bitmap.wrongHead (.str k!"other") [.int 1] (by simp)
theorem C09_TbText : Rejects TbText.fromSexpr [k!"tbtext"] .indexError :=
  rejects_checkHead (f := _) fun _ => rfl
example := C09_TbText.wrongHead (.str k!"other") [.int 1] (by simp)
theorem C09_TextSize : Rejects TextSize.fromSexpr [k!"textsize"] .exception where
  notList v hv := by cases v <;> first | rfl | cases hv
  wrongHead h r hr := by
    have hw : (! h.is k!"textsize") = true := by simp [is_false_of_ne' (hr _ (List.mem_cons_self))]
    unfold TextSize.fromSexpr
    simp at hw
    repeat' split
    all_goals simp_all
  emptyList := rfl
example := C09_TextSize.wrongHead (.str k!"other") [.int 1] (by simp)
theorem C09_Setup : Rejects Setup.fromSexpr [k!"setup"] .indexError :=
  rejects_checkHead (f := _) fun _ => rfl
example := C09_Setup.wrongHead (.str k!"other") [.int 1] (by simp)
theorem C09_WorkSheet : Rejects WorkSheet.fromSexpr [k!"kicad_wks"] .indexError :=
  rejects_checkHead (f := _) fun _ => rfl
example := C09_WorkSheet.wrongHead (.str k!"other") [.int 1] (by simp)
theorem C09_SyArc : Rejects SyArc.fromSexpr [k!"arc"] .indexError :=
  rejects_checkHead (f := _) fun _ => rfl
example := C09_SyArc.wrongHead (.str k!"other") [.int 1] (by simp)
theorem C09_SyCircle : Rejects SyCircle.fromSexpr [k!"circle"] .indexError :=
  rejects_checkHead (f := _) fun _ => rfl
example := C09_SyCircle.wrongHead (.str k!"other") [.int 1] (by simp)
theorem C09_SyCurve : Rejects SyCurve.fromSexpr [k!"curve"] .indexError :=
  rejects_checkHead (f := _) fun _ => rfl
example := C09_SyCurve.wrongHead (.str k!"other") [.int 1] (by simp)
theorem C09_SyPolyLine : Rejects SyPolyLine.fromSexpr [k!"polyline"] .indexError :=
  rejects_checkHead (f := _) fun _ => rfl
example := C09_SyPolyLine.wrongHead (.str k!"other") [.int 1] (by simp)
theorem C09_SyRect : Rejects SyRect.fromSexpr [k!"rectangle"] .indexError :=
  rejects_checkHead (f := _) fun _ => rfl
example := C09_SyRect.wrongHead (.str k!"other") [.int 1] (by simp)
theorem C09_SyText : Rejects SyText.fromSexpr [k!"text"] .indexError :=
  rejects_checkHead (f := _) fun _ => rfl
example := C09_SyText.wrongHead (.str k!"other") [.int 1] (by simp)
theorem C09_SyTextBox : Rejects SyTextBox.fromSexpr [k!"text_box"] .indexError :=
  rejects_checkHead (f := _) fun _ => rfl
example := C09_SyTextBox.wrongHead (.str k!"other") [.int 1] (by simp)
theorem C09_SymbolAlternativePin : Rejects SymbolAlternativePin.fromSexpr [k!"alternate"] .indexError :=
  rejects_checkHead (f := _) fun _ => rfl
example := C09_SymbolAlternativePin.wrongHead (.str k!"other") [.int 1] (by simp)
theorem C09_SymbolPin : Rejects SymbolPin.fromSexpr [k!"pin"] .indexError :=
  rejects_checkHead (f := _) fun _ => rfl
example := C09_SymbolPin.wrongHead (.str k!"other") [.int 1] (by simp)
theorem C09_SymbolLib : Rejects SymbolLib.fromSexpr [k!"kicad_symbol_lib"] .indexError :=
  rejects_checkHead (f := _) fun _ => rfl
example := C09_SymbolLib.wrongHead (.str k!"other") [.int 1] (by simp)
theorem C09_Junction : Rejects Junction.fromSexpr [k!"junction"] .indexError :=
  rejects_checkHead (f := _) fun _ => rfl
example := C09_Junction.wrongHead (.str k!"other") [.int 1] (by simp)
theorem C09_NoConnect : Rejects NoConnect.fromSexpr [k!"no_connect"] .indexError :=
  rejects_checkHead (f := _) fun _ => rfl
example := C09_NoConnect.wrongHead (.str k!"other") [.int 1] (by simp)
theorem C09_BusEntry : Rejects BusEntry.fromSexpr [k!"bus_entry"] .indexError :=
  rejects_checkHead (f := _) fun _ => rfl
example := C09_BusEntry.wrongHead (.str k!"other") [.int 1] (by simp)
theorem C09_BusAlias : Rejects BusAlias.fromSexpr [k!"bus_alias"] .indexError :=
  rejects_checkHead (f := _) fun _ => rfl
example := C09_BusAlias.wrongHead (.str k!"other") [.int 1] (by simp)
theorem C09_Connection : Rejects Connection.fromSexpr [k!"wire", k!"bus"] .indexError where
  notList v hv := by cases v <;> first | rfl | cases hv
  wrongHead h r hr := by
    have hw : (! h.is k!"wire") && (! h.is k!"bus") = true := by simp [is_false_of_ne' (hr _ (List.mem_cons_self)), is_false_of_ne' (hr _ (List.mem_cons_of_mem _ List.mem_cons_self))]
    unfold Connection.fromSexpr
    simp at hw
    repeat' split
    all_goals simp_all
  emptyList := rfl
example := C09_Connection.wrongHead (.str k!"other") [.int 1] (by simp)
theorem C09_PolyLine : Rejects PolyLine.fromSexpr [k!"polyline"] .indexError :=
  rejects_checkHead (f := _) fun _ => rfl
example := C09_PolyLine.wrongHead (.str k!"other") [.int 1] (by simp)
theorem C09_Text : Rejects Text.fromSexpr [k!"text"] .indexError :=
  rejects_checkHead (f := _) fun _ => rfl
example := C09_Text.wrongHead (.str k!"other") [.int 1] (by simp)
theorem C09_TextBox : Rejects TextBox.fromSexpr [k!"text_box"] .indexError :=
  rejects_checkHead (f := _) fun _ => rfl
example := C09_TextBox.wrongHead (.str k!"other") [.int 1] (by simp)
theorem C09_LocalLabel : Rejects LocalLabel.fromSexpr [k!"label"] .indexError :=
  rejects_checkHead (f := _) fun _ => rfl
example := C09_LocalLabel.wrongHead (.str k!"other") [.int 1] (by simp)
theorem C09_GlobalLabel : Rejects GlobalLabel.fromSexpr [k!"global_label"] .indexError :=
  rejects_checkHead (f := _) fun _ => rfl
example := C09_GlobalLabel.wrongHead (.str k!"other") [.int 1] (by simp)
theorem C09_HierarchicalLabel : Rejects HierarchicalLabel.fromSexpr [k!"hierarchical_label"] .indexError :=
  rejects_checkHead (f := _) fun _ => rfl
example := C09_HierarchicalLabel.wrongHead (.str k!"other") [.int 1] (by simp)
theorem C09_SymbolProjectPath : Rejects SymbolProjectPath.fromSexpr [k!"path"] .exception where
  notList v hv := by cases v <;> first | rfl | cases hv
  wrongHead h r hr := by
    have hw : (! h.is k!"path") = true := by simp [is_false_of_ne' (hr _ (List.mem_cons_self))]
    unfold SymbolProjectPath.fromSexpr
    simp at hw
    repeat' split
    all_goals simp_all
  emptyList := rfl
example := C09_SymbolProjectPath.wrongHead (.str k!"other") [.int 1] (by simp)
theorem C09_SymbolProjectInstance : Rejects SymbolProjectInstance.fromSexpr [k!"project"] .exception where
  notList v hv := by cases v <;> first | rfl | cases hv
  wrongHead h r hr := by
    have hw : (! h.is k!"project") = true := by simp [is_false_of_ne' (hr _ (List.mem_cons_self))]
    unfold SymbolProjectInstance.fromSexpr
    simp at hw
    repeat' split
    all_goals simp_all
  emptyList := rfl
example := C09_SymbolProjectInstance.wrongHead (.str k!"other") [.int 1] (by simp)
theorem C09_SchematicSymbol : Rejects SchematicSymbol.fromSexpr [k!"symbol"] .indexError :=
  rejects_checkHead (f := _) fun _ => rfl
example := C09_SchematicSymbol.wrongHead (.str k!"other") [.int 1] (by simp)
theorem C09_HierarchicalPin : Rejects HierarchicalPin.fromSexpr [k!"pin"] .indexError :=
  rejects_checkHead (f := _) fun _ => rfl
example := C09_HierarchicalPin.wrongHead (.str k!"other") [.int 1] (by simp)
theorem C09_HierarchicalSheetProjectPath : Rejects HierarchicalSheetProjectPath.fromSexpr [k!"path"] .exception where
  notList v hv := by cases v <;> first | rfl | cases hv
  wrongHead h r hr := by
    have hw : (! h.is k!"path") = true := by simp [is_false_of_ne' (hr _ (List.mem_cons_self))]
    unfold HierarchicalSheetProjectPath.fromSexpr
    simp at hw
    repeat' split
    all_goals simp_all
  emptyList := rfl
example := C09_HierarchicalSheetProjectPath.wrongHead (.str k!"other") [.int 1] (by simp)
theorem C09_HierarchicalSheetProjectInstance : Rejects HierarchicalSheetProjectInstance.fromSexpr [k!"project"] .exception where
  notList v hv := by cases v <;> first | rfl | cases hv
  wrongHead h r hr := by
    have hw : (! h.is k!"project") = true := by simp [is_false_of_ne' (hr _ (List.mem_cons_self))]
    unfold HierarchicalSheetProjectInstance.fromSexpr
    simp at hw
    repeat' split
    all_goals simp_all
  emptyList := rfl
example := C09_HierarchicalSheetProjectInstance.wrongHead (.str k!"other") [.int 1] (by simp)
theorem C09_HierarchicalSheet : Rejects HierarchicalSheet.fromSexpr [k!"sheet"] .indexError :=
  rejects_checkHead (f := _) fun _ => rfl
example := C09_HierarchicalSheet.wrongHead (.str k!"other") [.int 1] (by simp)
theorem C09_HierarchicalSheetInstance : Rejects HierarchicalSheetInstance.fromSexpr [k!"path"] .indexError :=
  rejects_checkHead (f := _) fun _ => rfl
example := C09_HierarchicalSheetInstance.wrongHead (.str k!"other") [.int 1] (by simp)
theorem C09_SymbolInstance : Rejects SymbolInstance.fromSexpr [k!"path"] .indexError :=
  rejects_checkHead (f := _) fun _ => rfl
example := C09_SymbolInstance.wrongHead (.str k!"other") [.int 1] (by simp)
theorem C09_Rectangle : Rejects Rectangle.fromSexpr [k!"rectangle"] .indexError :=
  rejects_checkHead (f := _) fun _ => rfl
example := C09_Rectangle.wrongHead (.str k!"other") [.int 1] (by simp)
theorem C09_Arc : Rejects Arc.fromSexpr [k!"arc"] .indexError :=
  rejects_checkHead (f := _) fun _ => rfl
example := C09_Arc.wrongHead (.str k!"other") [.int 1] (by simp)
theorem C09_Circle : Rejects Circle.fromSexpr [k!"circle"] .indexError :=
  rejects_checkHead (f := _) fun _ => rfl
example := C09_Circle.wrongHead (.str k!"other") [.int 1] (by simp)
theorem C09_NetclassFlag : Rejects NetclassFlag.fromSexpr [k!"netclass_flag"] .indexError :=
  rejects_checkHead (f := _) fun _ => rfl
example := C09_NetclassFlag.wrongHead (.str k!"other") [.int 1] (by simp)
theorem C09_Schematic : Rejects Schematic.fromSexpr [k!"kicad_sch"] .indexError :=
  rejects_checkHead (f := _) fun _ => rfl
example := C09_Schematic.wrongHead (.str k!"other") [.int 1] (by simp)
theorem C09_GrText : Rejects GrText.fromSexpr [k!"gr_text"] .indexError :=
  rejects_checkHead (f := _) fun _ => rfl
example := C09_GrText.wrongHead (.str k!"other") [.int 1] (by simp)
theorem C09_GrTextBox : Rejects GrTextBox.fromSexpr [k!"gr_text_box"] .exception where
  notList v hv := by cases v <;> first | rfl | cases hv
  wrongHead h r hr := by
    have hw : (! h.is k!"gr_text_box") = true := by simp [is_false_of_ne' (hr _ (List.mem_cons_self))]
    unfold GrTextBox.fromSexpr
    simp at hw
    repeat' split
    all_goals simp_all
  emptyList := rfl
example := C09_GrTextBox.wrongHead (.str k!"other") [.int 1] (by simp)
theorem C09_GrLine : Rejects GrLine.fromSexpr [k!"gr_line"] .indexError :=
  rejects_checkHead (f := _) fun _ => rfl
example := C09_GrLine.wrongHead (.str k!"other") [.int 1] (by simp)
theorem C09_GrRect : Rejects GrRect.fromSexpr [k!"gr_rect"] .indexError :=
  rejects_checkHead (f := _) fun _ => rfl
example := C09_GrRect.wrongHead (.str k!"other") [.int 1] (by simp)
theorem C09_GrCircle : Rejects GrCircle.fromSexpr [k!"gr_circle"] .indexError :=
  rejects_checkHead (f := _) fun _ => rfl
example := C09_GrCircle.wrongHead (.str k!"other") [.int 1] (by simp)
theorem C09_GrArc : Rejects GrArc.fromSexpr [k!"gr_arc"] .indexError :=
  rejects_checkHead (f := _) fun _ => rfl
example := C09_GrArc.wrongHead (.str k!"other") [.int 1] (by simp)
theorem C09_GrPoly : Rejects GrPoly.fromSexpr [k!"gr_poly"] .indexError :=
  rejects_checkHead (f := _) fun _ => rfl
example := C09_GrPoly.wrongHead (.str k!"other") [.int 1] (by simp)
theorem C09_GrCurve : Rejects GrCurve.fromSexpr [k!"gr_curve"] .indexError :=
  rejects_checkHead (f := _) fun _ => rfl
example := C09_GrCurve.wrongHead (.str k!"other") [.int 1] (by simp)
theorem C09_FpText : Rejects FpText.fromSexpr [k!"fp_text"] .indexError :=
  rejects_checkHead (f := _) fun _ => rfl
example := C09_FpText.wrongHead (.str k!"other") [.int 1] (by simp)
theorem C09_FpLine : Rejects FpLine.fromSexpr [k!"fp_line"] .indexError :=
  rejects_checkHead (f := _) fun _ => rfl
example := C09_FpLine.wrongHead (.str k!"other") [.int 1] (by simp)
theorem C09_FpRect : Rejects FpRect.fromSexpr [k!"fp_rect"] .indexError :=
  rejects_checkHead (f := _) fun _ => rfl
example := C09_FpRect.wrongHead (.str k!"other") [.int 1] (by simp)
theorem C09_FpTextBox : Rejects FpTextBox.fromSexpr [k!"fp_text_box"] .exception where
  notList v hv := by cases v <;> first | rfl | cases hv
  wrongHead h r hr := by
    have hw : (! h.is k!"fp_text_box") = true := by simp [is_false_of_ne' (hr _ (List.mem_cons_self))]
    unfold FpTextBox.fromSexpr
    simp at hw
    repeat' split
    all_goals simp_all
  emptyList := rfl
example := C09_FpTextBox.wrongHead (.str k!"other") [.int 1] (by simp)
theorem C09_FpCircle : Rejects FpCircle.fromSexpr [k!"fp_circle"] .indexError :=
  rejects_checkHead (f := _) fun _ => rfl
example := C09_FpCircle.wrongHead (.str k!"other") [.int 1] (by simp)
theorem C09_FpArc : Rejects FpArc.fromSexpr [k!"fp_arc"] .indexError :=
  rejects_checkHead (f := _) fun _ => rfl
example := C09_FpArc.wrongHead (.str k!"other") [.int 1] (by simp)
theorem C09_FpPoly : Rejects FpPoly.fromSexpr [k!"fp_poly"] .indexError :=
  rejects_checkHead (f := _) fun _ => rfl
example := C09_FpPoly.wrongHead (.str k!"other") [.int 1] (by simp)
theorem C09_FpCurve : Rejects FpCurve.fromSexpr [k!"fp_curve"] .indexError :=
  rejects_checkHead (f := _) fun _ => rfl
example := C09_FpCurve.wrongHead (.str k!"other") [.int 1] (by simp)
theorem C09_KeepoutSettings : Rejects KeepoutSettings.fromSexpr [k!"keepout"] .indexError :=
  rejects_checkHead (f := _) fun _ => rfl
example := C09_KeepoutSettings.wrongHead (.str k!"other") [.int 1] (by simp)
theorem C09_FillSettings : Rejects FillSettings.fromSexpr [k!"fill"] .indexError :=
  rejects_checkHead (f := _) fun _ => rfl
example := C09_FillSettings.wrongHead (.str k!"other") [.int 1] (by simp)
theorem C09_ZonePolygon : Rejects ZonePolygon.fromSexpr [k!"polygon"] .indexError :=
  rejects_checkHead (f := _) fun _ => rfl
example := C09_ZonePolygon.wrongHead (.str k!"other") [.int 1] (by simp)
theorem C09_FilledPolygon : Rejects FilledPolygon.fromSexpr [k!"filled_polygon"] .indexError :=
  rejects_checkHead (f := _) fun _ => rfl
example := C09_FilledPolygon.wrongHead (.str k!"other") [.int 1] (by simp)
theorem C09_FillSegments : Rejects FillSegments.fromSexpr [k!"fill_segments"] .indexError :=
  rejects_checkHead (f := _) fun _ => rfl
example := C09_FillSegments.wrongHead (.str k!"other") [.int 1] (by simp)
theorem C09_Zone : Rejects Zone.fromSexpr [k!"zone"] .indexError :=
  rejects_checkHead (f := _) fun _ => rfl
example := C09_Zone.wrongHead (.str k!"other") [.int 1] (by simp)
theorem C09_Attributes : Rejects Attributes.fromSexpr [k!"attr"] .indexError :=
  rejects_checkHead (f := _) fun _ => rfl
example := C09_Attributes.wrongHead (.str k!"other") [.int 1] (by simp)
theorem C09_Model : Rejects Model.fromSexpr [k!"model"] .exception where
  notList v hv := by cases v <;> first | rfl | cases hv
  wrongHead h r hr := by
    have hw : (! h.is k!"model") = true := by simp [is_false_of_ne' (hr _ (List.mem_cons_self))]
    unfold Model.fromSexpr
    simp at hw
    repeat' split
    all_goals simp_all
  emptyList := rfl
example := C09_Model.wrongHead (.str k!"other") [.int 1] (by simp)
theorem C09_DrillDefinition : Rejects DrillDefinition.fromSexpr [k!"drill"] .indexError :=
  rejects_checkHead (f := _) fun _ => rfl
example := C09_DrillDefinition.wrongHead (.str k!"other") [.int 1] (by simp)
theorem C09_PadOptions : Rejects PadOptions.fromSexpr [k!"options"] .indexError :=
  rejects_checkHead (f := _) fun _ => rfl
example := C09_PadOptions.wrongHead (.str k!"other") [.int 1] (by simp)
theorem C09_Pad : Rejects Pad.fromSexpr [k!"pad"] .indexError :=
  rejects_checkHead (f := _) fun _ => rfl
example := C09_Pad.wrongHead (.str k!"other") [.int 1] (by simp)
theorem C09_Footprint (tedit : Val) : Rejects (Footprint.fromSexpr tedit) [k!"module", k!"footprint"] .indexError where
  notList v hv := by cases v <;> first | rfl | cases hv
  wrongHead h r hr := by
    have hw : (! h.is k!"module") && (! h.is k!"footprint") = true := by simp [is_false_of_ne' (hr _ (List.mem_cons_self)), is_false_of_ne' (hr _ (List.mem_cons_of_mem _ List.mem_cons_self))]
    unfold Footprint.fromSexpr
    simp at hw
    repeat' split
    all_goals simp_all
  emptyList := rfl
example := (C09_Footprint (.int 0)).wrongHead (.str k!"other") [.int 1] (by simp)
theorem C09_GeneralSettings : Rejects GeneralSettings.fromSexpr [k!"general"] .indexError :=
  rejects_checkHead (f := _) fun _ => rfl
example := C09_GeneralSettings.wrongHead (.str k!"other") [.int 1] (by simp)
theorem C09_StackupLayer : Rejects StackupLayer.fromSexpr [k!"layer"] .indexError :=
  rejects_checkHead (f := _) fun _ => rfl
example := C09_StackupLayer.wrongHead (.str k!"other") [.int 1] (by simp)
theorem C09_Stackup : Rejects Stackup.fromSexpr [k!"stackup"] .indexError :=
  rejects_checkHead (f := _) fun _ => rfl
example := C09_Stackup.wrongHead (.str k!"other") [.int 1] (by simp)
theorem C09_PlotSettings : Rejects PlotSettings.fromSexpr [k!"pcbplotparams"] .indexError :=
  rejects_checkHead (f := _) fun _ => rfl
example := C09_PlotSettings.wrongHead (.str k!"other") [.int 1] (by simp)
theorem C09_SetupData : Rejects SetupData.fromSexpr [k!"setup"] .indexError :=
  rejects_checkHead (f := _) fun _ => rfl
example := C09_SetupData.wrongHead (.str k!"other") [.int 1] (by simp)
theorem C09_Segment : Rejects Segment.fromSexpr [k!"segment"] .indexError :=
  rejects_checkHead (f := _) fun _ => rfl
example := C09_Segment.wrongHead (.str k!"other") [.int 1] (by simp)
theorem C09_Via : Rejects Via.fromSexpr [k!"via"] .indexError :=
  rejects_checkHead (f := _) fun _ => rfl
example := C09_Via.wrongHead (.str k!"other") [.int 1] (by simp)
theorem C09_TraceArc : Rejects TraceArc.fromSexpr [k!"arc"] .indexError :=
  rejects_checkHead (f := _) fun _ => rfl
example := C09_TraceArc.wrongHead (.str k!"other") [.int 1] (by simp)
theorem C09_Target : Rejects Target.fromSexpr [k!"target"] .indexError :=
  rejects_checkHead (f := _) fun _ => rfl
example := C09_Target.wrongHead (.str k!"other") [.int 1] (by simp)
theorem C09_DimensionFormat : Rejects DimensionFormat.fromSexpr [k!"format"] .indexError :=
  rejects_checkHead (f := _) fun _ => rfl
example := C09_DimensionFormat.wrongHead (.str k!"other") [.int 1] (by simp)
theorem C09_DimensionStyle : Rejects DimensionStyle.fromSexpr [k!"style"] .indexError :=
  rejects_checkHead (f := _) fun _ => rfl
example := C09_DimensionStyle.wrongHead (.str k!"other") [.int 1] (by simp)
theorem C09_Dimension : Rejects Dimension.fromSexpr [k!"dimension"] .indexError :=
  rejects_checkHead (f := _) fun _ => rfl
example := C09_Dimension.wrongHead (.str k!"other") [.int 1] (by simp)
theorem C09_Board (tedit : Val) : Rejects (Board.fromSexpr tedit) [k!"kicad_pcb"] .indexError :=
  rejects_checkHead (f := _) fun _ => rfl
example := (C09_Board (.int 0)).wrongHead (.str k!"other") [.int 1] (by simp)

theorem C09_Symbol : Rejects Symbol.fromSexpr [k!"symbol"] .indexError where
  notList v hv := by cases v <;> first | (cases hv; done) | (rw [Symbol.fromSexpr] <;> (intros; simp_all))
  wrongHead h r hr := by
    have hw : h.is k!"symbol" = false := is_false_of_ne' (hr _ List.mem_cons_self)
    rw [Symbol.fromSexpr.eq_def]
    simp only [hw]
    rfl
  emptyList := by rw [Symbol.fromSexpr]
example := C09_Symbol.wrongHead (.str k!"other") [.int 1] (by simp)

/-- The two classes of worksheets with the same fields. -/
theorem C09_Line : Rejects (WksShape.fromSexpr k!"line") [k!"line"] .indexError := rejects_checkHead (f := _) fun _ => rfl
example := C09_Line.wrongHead (.str k!"other") [.int 1] (by simp)
theorem C09_Rect : Rejects (WksShape.fromSexpr k!"rect") [k!"rect"] .indexError := rejects_checkHead (f := _) fun _ => rfl
example := C09_Rect.wrongHead (.str k!"other") [.int 1] (by simp)

/-! ## The classes without a word of their own -/

/-- A file of design rules is a list of lists, of which the first one is the version. -/
theorem C09_DesignRules :
    (∀ v : Val, v.isList = false → DesignRules.fromSexpr v = .error .exception) ∧
    (∀ (v : Val) (r : List Val), v.isList = false → DesignRules.fromSexpr (.list (v :: r)) = .error .exception) ∧
    (∀ (h : Val) (l r : List Val), h ≠ .str k!"version" → DesignRules.fromSexpr (.list (.list (h :: l) :: r)) = .error .exception) ∧
    DesignRules.fromSexpr (.list []) = .error .indexError ∧
    (∀ r : List Val, DesignRules.fromSexpr (.list (.list [] :: r)) = .error .indexError) := by
  refine ⟨fun v hv => ?_, fun v r hv => ?_, fun h l r hh => ?_, rfl, fun _ => rfl⟩
  · cases v <;> first | rfl | cases hv
  · cases v <;> first | rfl | cases hv
  · exact if_neg (by rw [is_false_of_ne' hh]; decide)

/-- Positions are written under several words, and any head is accepted; but only lists of at least three elements are. -/
theorem C09_Position (v : Val) :
    (∃ o, Position.fromSexpr v = .ok o) ↔ ∃ h x y r, v = .list (h :: x :: y :: r) := by
  constructor
  · intro ⟨o, h⟩
    unfold Position.fromSexpr at h
    split at h
    · exact ⟨_, _, _, _, rfl⟩
    · cases h
  · rintro ⟨h, x, y, r, rfl⟩
    exact ⟨_, rfl⟩

theorem C09_Position_error (v : Val) (e : PyErr) (h : Position.fromSexpr v = .error e) : e = .exception := by
  unfold Position.fromSexpr at h
  split at h
  · cases h
  · cases h; rfl
example := C09_Position_error (.list [.str k!"at", .int 1]) _ rfl

theorem C09_WksPosition (v : Val) :
    (∃ o, WksPosition.fromSexpr v = .ok o) ↔ ∃ h x y r, v = .list (h :: x :: y :: r) := by
  constructor
  · intro ⟨o, h⟩
    unfold WksPosition.fromSexpr at h
    split at h
    · exact ⟨_, _, _, _, rfl⟩
    · cases h
  · rintro ⟨h, x, y, r, rfl⟩
    exact ⟨_, rfl⟩

theorem C09_WksPosition_error (v : Val) (e : PyErr) (h : WksPosition.fromSexpr v = .error e) : e = .exception := by
  unfold WksPosition.fromSexpr at h
  split at h
  · cases h
  · cases h; rfl
example := C09_WksPosition_error (.list [.str k!"start", .int 1]) _ rfl

/-- The layers of a board have no word either: their first element is a number. Lists of three or four elements are accepted. -/
theorem C09_LayerToken (v : Val) :
    (∃ o, LayerToken.fromSexpr v = .ok o) ↔ (∃ a b c, v = .list [a, b, c]) ∨ ∃ a b c d, v = .list [a, b, c, d] := by
  constructor
  · intro ⟨o, h⟩
    unfold LayerToken.fromSexpr at h
    split at h
    · exact .inl ⟨_, _, _, rfl⟩
    · exact .inr ⟨_, _, _, _, rfl⟩
    · cases h
  · rintro (⟨a, b, c, rfl⟩ | ⟨a, b, c, d, rfl⟩) <;> exact ⟨_, rfl⟩

theorem C09_LayerToken_error (v : Val) (e : PyErr) (h : LayerToken.fromSexpr v = .error e) : e = .exception := by
  unfold LayerToken.fromSexpr at h
  split at h
  · cases h
  · cases h
  · cases h; rfl
example := C09_LayerToken_error (.list [.int 1]) _ rfl

end Kiutils
