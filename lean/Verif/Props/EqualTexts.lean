import Verif.Proofs.EqCanon
/-!
# C77: equal objects are saved as the same content

The converse of C68. `Alike` is Python's `==` (`C77_values` and `C77_eq`).
-/
namespace Kiutils

/-- For ints, floats and strings, `Alike` is: the same value, or two numbers (ints or floats) that both equal the same int. -/
theorem C77_values (a b : Val) : Alike a b ↔ a = b ∨ ∃ n : Int, Val.Eq a (.int n) ∧ Val.Eq b (.int n) := by
  constructor
  · rintro ⟨c, h1, h2⟩
    cases h1 with
    | same =>
      cases h2 with
      | same => exact .inl rfl
      | value neg man exp n h => exact .inr ⟨n, .same _, .value _ _ _ _ h⟩
    | value neg man exp n h => exact .inr ⟨n, .value _ _ _ _ h, h2⟩
  · rintro (rfl | ⟨n, h1, h2⟩)
    · exact ⟨a, .same _, .same _⟩
    · exact ⟨_, h1, h2⟩

/-- `Alike` is an equivalence. -/
theorem C77_eq {α : Type} [Canon α] [PyEq α] [CanonEq α] [EqCanon α] : Equivalence (Alike (α := α)) where
  refl a := ⟨_, canonEq a, canonEq a⟩
  symm := fun ⟨c, h1, h2⟩ => ⟨c, h2, h1⟩
  trans := fun {a b c} h h' => ⟨canon a, canonEq a, by rw [h.canon, h'.canon]; exact canonEq c⟩

/-- The float 1.0 equals the int 1, and -0.0 equals 0.0. -/
example : Alike (α := Val) (.int 1) (.flt (.fin false 1 0)) := (C77_values ..).2 (.inr ⟨1, .same _, .value _ _ _ _ (by decide)⟩)
example : Alike (α := Val) (.flt (.fin true 0 0)) (.flt (.fin false 0 0)) := (C77_values ..).2 (.inr ⟨0, .value _ _ _ _ (by decide), .value _ _ _ _ (by decide)⟩)

/-- An object and the object that it is loaded as are equal. -/
theorem alike_canon {α : Type} [Canon α] [PyEq α] [CanonEq α] [CanonIdem α] (a : α) : Alike a (canon a) :=
  ⟨_, canonEq a, by have := canonEq (canon a); rwa [idem] at this⟩

theorem meaning_of {m m' : PyM Str} {v w : Val} (h : Denotes m v) (h' : Denotes m' w) (e : v = w) : SameMeaning m m' := ⟨w, e ▸ h, h'⟩

theorem C77_Coordinate [TextRule] (a b : Coordinate) (ha : a.WF) (hb : b.WF) (h : Alike a b) (i i' : Nat) (nl nl' : Bool) :
    SameMeaning (.ok (a.toSexpr i nl)) (.ok (b.toSexpr i' nl')) :=
  meaning_of (C48_Coordinate a ha i nl) (C48_Coordinate b hb i' nl') ((Coordinate.toVal_canon (a : Coordinate)).symm.trans ((congrArg (Coordinate.toVal) h.canon).trans (Coordinate.toVal_canon (b : Coordinate))))
example := C77_Coordinate sampleCoordinate (canon sampleCoordinate) sampleCoordinate_wf (Stable.keep sampleCoordinate_wf) (alike_canon _) 0 4 true false

theorem C77_ColorRGBA [TextRule] (a b : ColorRGBA) (ha : a.WF) (hb : b.WF) (h : Alike a b) (i i' : Nat) (nl nl' : Bool) :
    SameMeaning (.ok (a.toSexpr i nl)) (.ok (b.toSexpr i' nl')) :=
  meaning_of (C48_ColorRGBA a ha i nl) (C48_ColorRGBA b hb i' nl') ((ColorRGBA.toVal_canon (a : ColorRGBA)).symm.trans ((congrArg (ColorRGBA.toVal) h.canon).trans (ColorRGBA.toVal_canon (b : ColorRGBA))))
example := C77_ColorRGBA sampleColorRGBA (canon sampleColorRGBA) sampleColorRGBA_wf (Stable.keep sampleColorRGBA_wf) (alike_canon _) 0 4 true false

theorem C77_Stroke [TextRule] (a b : Stroke) (ha : a.WF) (hb : b.WF) (h : Alike a b) (i i' : Nat) (nl nl' : Bool) :
    SameMeaning (.ok (a.toSexpr i nl)) (.ok (b.toSexpr i' nl')) :=
  meaning_of (C48_Stroke a ha i nl) (C48_Stroke b hb i' nl') ((Stroke.toVal_canon (a : Stroke)).symm.trans ((congrArg (Stroke.toVal) h.canon).trans (Stroke.toVal_canon (b : Stroke))))
example := C77_Stroke sampleStroke (canon sampleStroke) sampleStroke_wf (Stable.keep sampleStroke_wf) (alike_canon _) 0 4 true false

theorem C77_Font [TextRule] (a b : Font) (ha : a.WF) (hb : b.WF) (h : Alike a b) (i i' : Nat) (nl nl' : Bool) :
    SameMeaning (.ok (a.toSexpr i nl)) (.ok (b.toSexpr i' nl')) :=
  meaning_of (C48_Font a ha i nl) (C48_Font b hb i' nl') ((Font.toVal_canon (a : Font)).symm.trans ((congrArg (Font.toVal) h.canon).trans (Font.toVal_canon (b : Font))))
example := C77_Font sampleFont (canon sampleFont) sampleFont_wf (Stable.keep sampleFont_wf) (alike_canon _) 0 4 true false

theorem C77_Justify [TextRule] (a b : Justify) (ha : a.WF) (hb : b.WF) (hea : a.isEmpty = false) (heb : b.isEmpty = false) (h : Alike a b) (i i' : Nat) (nl nl' : Bool) :
    SameMeaning (.ok (a.toSexpr i nl)) (.ok (b.toSexpr i' nl')) :=
  meaning_of (C48_Justify a ha hea i nl) (C48_Justify b hb heb i' nl') ((Justify.toVal_canon (a : Justify)).symm.trans ((congrArg (Justify.toVal) h.canon).trans (Justify.toVal_canon (b : Justify))))
example := C77_Justify sampleJustify (canon sampleJustify) sampleJustify_wf (Stable.keep sampleJustify_wf) rfl rfl (alike_canon _) 0 4 true false

theorem C77_Effects [TextRule] (a b : Effects) (ha : a.WF) (hb : b.WF) (h : Alike a b) (i i' : Nat) (nl nl' : Bool) :
    SameMeaning (.ok (a.toSexpr i nl)) (.ok (b.toSexpr i' nl')) :=
  meaning_of (C48_Effects a ha i nl) (C48_Effects b hb i' nl') ((Effects.toVal_canon (a : Effects)).symm.trans ((congrArg (Effects.toVal) h.canon).trans (Effects.toVal_canon (b : Effects))))
example := C77_Effects sampleEffects (canon sampleEffects) sampleEffects_wf (Stable.keep sampleEffects_wf) (alike_canon _) 0 4 true false

theorem C77_Net [TextRule] (a b : Net) (ha : a.WF) (hb : b.WF) (h : Alike a b) (i i' : Nat) (nl nl' : Bool) :
    SameMeaning (.ok (a.toSexpr i nl)) (.ok (b.toSexpr i' nl')) :=
  meaning_of (C48_Net a ha i nl) (C48_Net b hb i' nl') ((Net.toVal_canon (a : Net)).symm.trans ((congrArg (Net.toVal) h.canon).trans (Net.toVal_canon (b : Net))))
example := C77_Net sampleNet (canon sampleNet) sampleNet_wf (Stable.keep sampleNet_wf) (alike_canon _) 0 4 true false

theorem C77_Group [TextRule] (a b : Group) (ha : a.WF) (hb : b.WF) (h : Alike a b) (i i' : Nat) (nl nl' : Bool) :
    SameMeaning (.ok (a.toSexpr i nl)) (.ok (b.toSexpr i' nl')) :=
  meaning_of (C48_Group a ha i nl) (C48_Group b hb i' nl') ((Group.toVal_canon (a : Group)).symm.trans ((congrArg (Group.toVal) h.canon).trans (Group.toVal_canon (b : Group))))
example := C77_Group sampleGroup (canon sampleGroup) sampleGroup_wf (Stable.keep sampleGroup_wf) (alike_canon _) 0 4 true false

theorem C77_PageSettings [TextRule] (a b : PageSettings) (ha : a.WF) (hb : b.WF) (h : Alike a b) (i i' : Nat) (nl nl' : Bool) :
    SameMeaning (a.toSexpr i nl) (b.toSexpr i' nl') :=
  meaning_of (C48_PageSettings a ha i nl) (C48_PageSettings b hb i' nl') ((PageSettings.toVal_canon (a : PageSettings)).symm.trans ((congrArg (PageSettings.toVal) h.canon).trans (PageSettings.toVal_canon (b : PageSettings))))
example := C77_PageSettings samplePageSettings (canon samplePageSettings) samplePageSettings_wf (Stable.keep samplePageSettings_wf) (alike_canon _) 0 4 true false

theorem C77_TitleBlock [TextRule] (a b : TitleBlock) (ha : a.WF) (hb : b.WF) (h : Alike a b) (i i' : Nat) (nl nl' : Bool) :
    SameMeaning (.ok (a.toSexpr i nl)) (.ok (b.toSexpr i' nl')) :=
  meaning_of (C48_TitleBlock a ha i nl) (C48_TitleBlock b hb i' nl') ((TitleBlock.toVal_canon (a : TitleBlock)).symm.trans ((congrArg (TitleBlock.toVal) h.canon).trans (TitleBlock.toVal_canon (b : TitleBlock))))
example := C77_TitleBlock sampleTitleBlock (canon sampleTitleBlock) sampleTitleBlock_wf (Stable.keep sampleTitleBlock_wf) (alike_canon _) 0 4 true false

theorem C77_Property [TextRule] (a b : Property) (ha : a.WF) (hb : b.WF) (h : Alike a b) (i i' : Nat) (nl nl' : Bool) :
    SameMeaning (.ok (a.toSexpr i nl)) (.ok (b.toSexpr i' nl')) :=
  meaning_of (C48_Property a ha i nl) (C48_Property b hb i' nl') ((Property.toVal_canon (a : Property)).symm.trans ((congrArg (Property.toVal) h.canon).trans (Property.toVal_canon (b : Property))))
example := C77_Property sampleProperty (canon sampleProperty) sampleProperty_wf (Stable.keep sampleProperty_wf) (alike_canon _) 0 4 true false

theorem C77_RenderCachePolygon [TextRule] (a b : RenderCachePolygon) (ha : a.WF) (hb : b.WF) (h : Alike a b) (i i' : Nat) (nl nl' : Bool) :
    SameMeaning (.ok (a.toSexpr i nl)) (.ok (b.toSexpr i' nl')) :=
  meaning_of (C48_RenderCachePolygon a ha i nl) (C48_RenderCachePolygon b hb i' nl') ((RenderCachePolygon.toVal_canon (a : RenderCachePolygon)).symm.trans ((congrArg (RenderCachePolygon.toVal) h.canon).trans (RenderCachePolygon.toVal_canon (b : RenderCachePolygon))))
example := C77_RenderCachePolygon sampleRenderCachePolygon (canon sampleRenderCachePolygon) sampleRenderCachePolygon_wf (Stable.keep sampleRenderCachePolygon_wf) (alike_canon _) 0 4 true false

theorem C77_RenderCache [TextRule] (a b : RenderCache) (ha : a.WF) (hb : b.WF) (h : Alike a b) (i i' : Nat) (nl nl' : Bool) :
    SameMeaning (.ok (a.toSexpr i nl)) (.ok (b.toSexpr i' nl')) :=
  meaning_of (C48_RenderCache a ha i nl) (C48_RenderCache b hb i' nl') ((RenderCache.toVal_canon (a : RenderCache)).symm.trans ((congrArg (RenderCache.toVal) h.canon).trans (RenderCache.toVal_canon (b : RenderCache))))
example := C77_RenderCache sampleRenderCache (canon sampleRenderCache) sampleRenderCache_wf (Stable.keep sampleRenderCache_wf) (alike_canon _) 0 4 true false

theorem C77_Fill [TextRule] (a b : Fill) (ha : a.WF) (hb : b.WF) (h : Alike a b) (i i' : Nat) (nl nl' : Bool) :
    SameMeaning (.ok (a.toSexpr i nl)) (.ok (b.toSexpr i' nl')) :=
  meaning_of (C48_Fill a ha i nl) (C48_Fill b hb i' nl') ((Fill.toVal_canon (a : Fill)).symm.trans ((congrArg (Fill.toVal) h.canon).trans (Fill.toVal_canon (b : Fill))))
example := C77_Fill sampleFill (canon sampleFill) sampleFill_wf (Stable.keep sampleFill_wf) (alike_canon _) 0 4 true false

theorem C77_Image [TextRule] (a b : Image) (ha : a.WF) (hb : b.WF) (h : Alike a b) (i i' : Nat) (nl nl' : Bool) :
    SameMeaning (.ok (a.toSexpr i nl)) (.ok (b.toSexpr i' nl')) :=
  meaning_of (C48_Image a ha i nl) (C48_Image b hb i' nl') ((Image.toVal_canon (a : Image)).symm.trans ((congrArg (Image.toVal) h.canon).trans (Image.toVal_canon (b : Image))))
example := C77_Image sampleImage (canon sampleImage) sampleImage_wf (Stable.keep sampleImage_wf) (alike_canon _) 0 4 true false

theorem C77_Library [TextRule] (a b : Library) (ha : a.WF) (hb : b.WF) (h : Alike a b) (i i' : Nat) (nl nl' : Bool) :
    SameMeaning (.ok (a.toSexpr i nl)) (.ok (b.toSexpr i' nl')) :=
  meaning_of (C48_Library a ha i nl) (C48_Library b hb i' nl') ((Library.toVal_canon (a : Library)).symm.trans ((congrArg (Library.toVal) h.canon).trans (Library.toVal_canon (b : Library))))
example := C77_Library sampleLibrary (canon sampleLibrary) sampleLibrary_wf (Stable.keep sampleLibrary_wf) (alike_canon _) 0 4 true false

theorem C77_LibTable [TextRule] (a b : LibTable) (ha : a.WF) (hb : b.WF) (h : Alike { a with filePath := none } { b with filePath := none }) (i i' : Nat) (nl nl' : Bool) :
    SameMeaning (.ok (a.toSexpr i nl)) (.ok (b.toSexpr i' nl')) :=
  meaning_of (C48_LibTable a ha i nl) (C48_LibTable b hb i' nl') ((LibTable.toVal_canon ({ a with filePath := none } : LibTable)).symm.trans ((congrArg (LibTable.toVal) h.canon).trans (LibTable.toVal_canon ({ b with filePath := none } : LibTable))))
example := C77_LibTable sampleLibTable (canon sampleLibTable) sampleLibTable_wf (Stable.keep sampleLibTable_wf) (alike_canon _) 0 4 true false

theorem C77_Constraint [TextRule] (a b : Constraint) (ha : a.WF) (hb : b.WF) (h : Alike a b) (i i' : Nat) (nl nl' : Bool) :
    SameMeaning (a.toSexpr i nl) (b.toSexpr i' nl') :=
  meaning_of (C48_Constraint a ha i nl) (C48_Constraint b hb i' nl') ((Constraint.toVal_canon (a : Constraint)).symm.trans ((congrArg (Constraint.toVal) h.canon).trans (Constraint.toVal_canon (b : Constraint))))
example := C77_Constraint sampleConstraint (canon sampleConstraint) sampleConstraint_wf (Stable.keep sampleConstraint_wf) (alike_canon _) 0 4 true false

theorem C77_Rule [TextRule] (a b : Rule) (ha : a.WF) (hb : b.WF) (h : Alike a b) (i i' : Nat) :
    SameMeaning (a.toSexpr i) (b.toSexpr i') :=
  meaning_of (C48_Rule a ha i) (C48_Rule b hb i') ((Rule.toVal_canon (a : Rule)).symm.trans ((congrArg (Rule.toVal) h.canon).trans (Rule.toVal_canon (b : Rule))))
example := C77_Rule sampleRule (canon sampleRule) sampleRule_wf (Stable.keep sampleRule_wf) (alike_canon _) 0 4

theorem C77_WksFontSize [TextRule] (a b : WksFontSize) (ha : a.WF) (hb : b.WF) (h : Alike a b) (i i' : Nat) (nl nl' : Bool) :
    SameMeaning (.ok (a.toSexpr i nl)) (.ok (b.toSexpr i' nl')) :=
  meaning_of (C48_WksFontSize a ha i nl) (C48_WksFontSize b hb i' nl') ((WksFontSize.toVal_canon (a : WksFontSize)).symm.trans ((congrArg (WksFontSize.toVal) h.canon).trans (WksFontSize.toVal_canon (b : WksFontSize))))
example := C77_WksFontSize sampleWksFontSize (canon sampleWksFontSize) sampleWksFontSize_wf (Stable.keep sampleWksFontSize_wf) (alike_canon _) 0 4 true false

theorem C77_Bitmap [TextRule] (a b : Bitmap) (ha : a.WF) (hb : b.WF) (h : Alike a b) (i i' : Nat) (nl nl' : Bool) :
    SameMeaning (.ok (a.toSexpr i nl)) (.ok (b.toSexpr i' nl')) :=
  meaning_of (C48_Bitmap a ha i nl) (C48_Bitmap b hb i' nl') ((Bitmap.toVal_canon (a : Bitmap)).symm.trans ((congrArg (Bitmap.toVal) h.canon).trans (Bitmap.toVal_canon (b : Bitmap))))
example := C77_Bitmap sampleBitmap (canon sampleBitmap) sampleBitmap_wf (Stable.keep sampleBitmap_wf) (alike_canon _) 0 4 true false

theorem C77_TbText [TextRule] (a b : TbText) (ha : a.WF) (hb : b.WF) (h : Alike a b) (i i' : Nat) (nl nl' : Bool) :
    SameMeaning (.ok (a.toSexpr i nl)) (.ok (b.toSexpr i' nl')) :=
  meaning_of (C48_TbText a ha i nl) (C48_TbText b hb i' nl') ((TbText.toVal_canon (a : TbText)).symm.trans ((congrArg (TbText.toVal) h.canon).trans (TbText.toVal_canon (b : TbText))))
example := C77_TbText sampleTbText (canon sampleTbText) sampleTbText_wf (Stable.keep sampleTbText_wf) (alike_canon _) 0 4 true false

theorem C77_TextSize [TextRule] (a b : TextSize) (ha : a.WF) (hb : b.WF) (h : Alike a b) (i i' : Nat) (nl nl' : Bool) :
    SameMeaning (.ok (a.toSexpr i nl)) (.ok (b.toSexpr i' nl')) :=
  meaning_of (C48_TextSize a ha i nl) (C48_TextSize b hb i' nl') ((TextSize.toVal_canon (a : TextSize)).symm.trans ((congrArg (TextSize.toVal) h.canon).trans (TextSize.toVal_canon (b : TextSize))))
example := C77_TextSize sampleTextSize (canon sampleTextSize) sampleTextSize_wf (Stable.keep sampleTextSize_wf) (alike_canon _) 0 4 true false

theorem C77_Setup [TextRule] (a b : Setup) (ha : a.WF) (hb : b.WF) (h : Alike a b) (i i' : Nat) (nl nl' : Bool) :
    SameMeaning (.ok (a.toSexpr i nl)) (.ok (b.toSexpr i' nl')) :=
  meaning_of (C48_Setup a ha i nl) (C48_Setup b hb i' nl') ((Setup.toVal_canon (a : Setup)).symm.trans ((congrArg (Setup.toVal) h.canon).trans (Setup.toVal_canon (b : Setup))))
example := C77_Setup sampleSetup (canon sampleSetup) sampleSetup_wf (Stable.keep sampleSetup_wf) (alike_canon _) 0 4 true false

theorem C77_WorkSheet [TextRule] (a b : WorkSheet) (ha : a.WF) (hb : b.WF) (h : Alike { a with filePath := none } { b with filePath := none }) (i i' : Nat) (nl nl' : Bool) :
    SameMeaning (a.toSexpr i nl) (b.toSexpr i' nl') :=
  meaning_of (C48_WorkSheet a ha i nl) (C48_WorkSheet b hb i' nl') ((WorkSheet.toVal_canon ({ a with filePath := none } : WorkSheet)).symm.trans ((congrArg (WorkSheet.toVal) h.canon).trans (WorkSheet.toVal_canon ({ b with filePath := none } : WorkSheet))))
example := C77_WorkSheet sampleWorkSheet (canon sampleWorkSheet) sampleWorkSheet_wf (Stable.keep sampleWorkSheet_wf) (alike_canon _) 0 4 true false

theorem C77_SyArc [TextRule] (a b : SyArc) (ha : a.WF) (hb : b.WF) (h : Alike a b) (i i' : Nat) (nl nl' : Bool) :
    SameMeaning (.ok (a.toSexpr i nl)) (.ok (b.toSexpr i' nl')) :=
  meaning_of (C48_SyArc a ha i nl) (C48_SyArc b hb i' nl') ((SyArc.toVal_canon (a : SyArc)).symm.trans ((congrArg (SyArc.toVal) h.canon).trans (SyArc.toVal_canon (b : SyArc))))
example := C77_SyArc sampleSyArc (canon sampleSyArc) sampleSyArc_wf (Stable.keep sampleSyArc_wf) (alike_canon _) 0 4 true false

theorem C77_SyCircle [TextRule] (a b : SyCircle) (ha : a.WF) (hb : b.WF) (h : Alike a b) (i i' : Nat) (nl nl' : Bool) :
    SameMeaning (.ok (a.toSexpr i nl)) (.ok (b.toSexpr i' nl')) :=
  meaning_of (C48_SyCircle a ha i nl) (C48_SyCircle b hb i' nl') ((SyCircle.toVal_canon (a : SyCircle)).symm.trans ((congrArg (SyCircle.toVal) h.canon).trans (SyCircle.toVal_canon (b : SyCircle))))
example := C77_SyCircle sampleSyCircle (canon sampleSyCircle) sampleSyCircle_wf (Stable.keep sampleSyCircle_wf) (alike_canon _) 0 4 true false

theorem C77_SyPolyLine [TextRule] (a b : SyPolyLine) (ha : a.WF) (hb : b.WF) (h : Alike a b) (i i' : Nat) (nl nl' : Bool) :
    SameMeaning (.ok (a.toSexpr i nl)) (.ok (b.toSexpr i' nl')) :=
  meaning_of (C48_SyPolyLine a ha i nl) (C48_SyPolyLine b hb i' nl') ((SyPolyLine.toVal_canon (a : SyPolyLine)).symm.trans ((congrArg (SyPolyLine.toVal) h.canon).trans (SyPolyLine.toVal_canon (b : SyPolyLine))))
example := C77_SyPolyLine sampleSyPolyLine (canon sampleSyPolyLine) sampleSyPolyLine_wf (Stable.keep sampleSyPolyLine_wf) (alike_canon _) 0 4 true false

theorem C77_SyRect [TextRule] (a b : SyRect) (ha : a.WF) (hb : b.WF) (h : Alike a b) (i i' : Nat) (nl nl' : Bool) :
    SameMeaning (.ok (a.toSexpr i nl)) (.ok (b.toSexpr i' nl')) :=
  meaning_of (C48_SyRect a ha i nl) (C48_SyRect b hb i' nl') ((SyRect.toVal_canon (a : SyRect)).symm.trans ((congrArg (SyRect.toVal) h.canon).trans (SyRect.toVal_canon (b : SyRect))))
example := C77_SyRect sampleSyRect (canon sampleSyRect) sampleSyRect_wf (Stable.keep sampleSyRect_wf) (alike_canon _) 0 4 true false

theorem C77_SyText [TextRule] (a b : SyText) (ha : a.WF) (hb : b.WF) (h : Alike a b) (i i' : Nat) (nl nl' : Bool) :
    SameMeaning (.ok (a.toSexpr i nl)) (.ok (b.toSexpr i' nl')) :=
  meaning_of (C48_SyText a ha i nl) (C48_SyText b hb i' nl') ((SyText.toVal_canon (a : SyText)).symm.trans ((congrArg (SyText.toVal) h.canon).trans (SyText.toVal_canon (b : SyText))))
example := C77_SyText sampleSyText (canon sampleSyText) sampleSyText_wf (Stable.keep sampleSyText_wf) (alike_canon _) 0 4 true false

theorem C77_SyTextBox [TextRule] (a b : SyTextBox) (ha : a.WF) (hb : b.WF) (h : Alike a b) (i i' : Nat) (nl nl' : Bool) :
    SameMeaning (.ok (a.toSexpr i nl)) (.ok (b.toSexpr i' nl')) :=
  meaning_of (C48_SyTextBox a ha i nl) (C48_SyTextBox b hb i' nl') ((SyTextBox.toVal_canon (a : SyTextBox)).symm.trans ((congrArg (SyTextBox.toVal) h.canon).trans (SyTextBox.toVal_canon (b : SyTextBox))))
example := C77_SyTextBox sampleSyTextBox (canon sampleSyTextBox) sampleSyTextBox_wf (Stable.keep sampleSyTextBox_wf) (alike_canon _) 0 4 true false

theorem C77_SymbolAlternativePin [TextRule] (a b : SymbolAlternativePin) (ha : a.WF) (hb : b.WF) (h : Alike a b) (i i' : Nat) (nl nl' : Bool) :
    SameMeaning (.ok (a.toSexpr i nl)) (.ok (b.toSexpr i' nl')) :=
  meaning_of (C48_SymbolAlternativePin a ha i nl) (C48_SymbolAlternativePin b hb i' nl') ((SymbolAlternativePin.toVal_canon (a : SymbolAlternativePin)).symm.trans ((congrArg (SymbolAlternativePin.toVal) h.canon).trans (SymbolAlternativePin.toVal_canon (b : SymbolAlternativePin))))
example := C77_SymbolAlternativePin sampleSymbolAlternativePin (canon sampleSymbolAlternativePin) sampleSymbolAlternativePin_wf (Stable.keep sampleSymbolAlternativePin_wf) (alike_canon _) 0 4 true false

theorem C77_SymbolPin [TextRule] (a b : SymbolPin) (ha : a.WF) (hb : b.WF) (h : Alike a b) (i i' : Nat) (nl nl' : Bool) :
    SameMeaning (.ok (a.toSexpr i nl)) (.ok (b.toSexpr i' nl')) :=
  meaning_of (C48_SymbolPin a ha i nl) (C48_SymbolPin b hb i' nl') ((SymbolPin.toVal_canon (a : SymbolPin)).symm.trans ((congrArg (SymbolPin.toVal) h.canon).trans (SymbolPin.toVal_canon (b : SymbolPin))))
example := C77_SymbolPin sampleSymbolPin (canon sampleSymbolPin) sampleSymbolPin_wf (Stable.keep sampleSymbolPin_wf) (alike_canon _) 0 4 true false

theorem C77_Symbol [TextRule] (a b : Symbol) (ha : a.WF) (hb : b.WF) (h : Alike a b) (i i' : Nat) (nl nl' : Bool) :
    SameMeaning (.ok (a.toSexpr i nl)) (.ok (b.toSexpr i' nl')) :=
  meaning_of (C48_Symbol a ha i nl) (C48_Symbol b hb i' nl') ((Symbol.toVal_canon (a : Symbol) ha).symm.trans ((congrArg (Symbol.toVal) h.canon).trans (Symbol.toVal_canon (b : Symbol) hb)))
example := C77_Symbol sampleSymbol (canon sampleSymbol) sampleSymbol_wf (Stable.keep sampleSymbol_wf) (alike_canon _) 0 4 true false

theorem C77_SymbolLib [TextRule] (a b : SymbolLib) (ha : a.WF) (hb : b.WF) (h : Alike { a with filePath := none } { b with filePath := none }) (i i' : Nat) (nl nl' : Bool) :
    SameMeaning (.ok (a.toSexpr i nl)) (.ok (b.toSexpr i' nl')) :=
  meaning_of (C48_SymbolLib a ha i nl) (C48_SymbolLib b hb i' nl') ((SymbolLib.toVal_canon ({ a with filePath := none } : SymbolLib) { ha with }).symm.trans ((congrArg (SymbolLib.toVal) h.canon).trans (SymbolLib.toVal_canon ({ b with filePath := none } : SymbolLib) { hb with })))
example := C77_SymbolLib sampleSymbolLib (canon sampleSymbolLib) sampleSymbolLib_wf (Stable.keep sampleSymbolLib_wf) (alike_canon _) 0 4 true false

theorem C77_Junction [TextRule] (a b : Junction) (ha : a.WF) (hb : b.WF) (h : Alike a b) (i i' : Nat) (nl nl' : Bool) :
    SameMeaning (a.toSexpr i nl) (b.toSexpr i' nl') :=
  meaning_of (C48_Junction a ha i nl) (C48_Junction b hb i' nl') ((Junction.toVal_canon (a : Junction) ha).symm.trans ((congrArg (Junction.toVal) h.canon).trans (Junction.toVal_canon (b : Junction) hb)))
example := C77_Junction sampleJunction (canon sampleJunction) sampleJunction_wf (Stable.keep sampleJunction_wf) (alike_canon _) 0 4 true false

theorem C77_NoConnect [TextRule] (a b : NoConnect) (ha : a.WF) (hb : b.WF) (h : Alike a b) (i i' : Nat) (nl nl' : Bool) :
    SameMeaning (.ok (a.toSexpr i nl)) (.ok (b.toSexpr i' nl')) :=
  meaning_of (C48_NoConnect a ha i nl) (C48_NoConnect b hb i' nl') ((NoConnect.toVal_canon (a : NoConnect)).symm.trans ((congrArg (NoConnect.toVal) h.canon).trans (NoConnect.toVal_canon (b : NoConnect))))
example := C77_NoConnect sampleNoConnect (canon sampleNoConnect) sampleNoConnect_wf (Stable.keep sampleNoConnect_wf) (alike_canon _) 0 4 true false

theorem C77_BusEntry [TextRule] (a b : BusEntry) (ha : a.WF) (hb : b.WF) (h : Alike a b) (i i' : Nat) (nl nl' : Bool) :
    SameMeaning (.ok (a.toSexpr i nl)) (.ok (b.toSexpr i' nl')) :=
  meaning_of (C48_BusEntry a ha i nl) (C48_BusEntry b hb i' nl') ((BusEntry.toVal_canon (a : BusEntry)).symm.trans ((congrArg (BusEntry.toVal) h.canon).trans (BusEntry.toVal_canon (b : BusEntry))))
example := C77_BusEntry sampleBusEntry (canon sampleBusEntry) sampleBusEntry_wf (Stable.keep sampleBusEntry_wf) (alike_canon _) 0 4 true false

theorem C77_BusAlias [TextRule] (a b : BusAlias) (ha : a.WF) (hb : b.WF) (h : Alike a b) (i i' : Nat) (nl nl' : Bool) :
    SameMeaning (.ok (a.toSexpr i nl)) (.ok (b.toSexpr i' nl')) :=
  meaning_of (C48_BusAlias a ha i nl) (C48_BusAlias b hb i' nl') ((BusAlias.toVal_canon (a : BusAlias)).symm.trans ((congrArg (BusAlias.toVal) h.canon).trans (BusAlias.toVal_canon (b : BusAlias))))
example := C77_BusAlias sampleBusAlias (canon sampleBusAlias) sampleBusAlias_wf (Stable.keep sampleBusAlias_wf) (alike_canon _) 0 4 true false

theorem C77_Connection [TextRule] (a b : Connection) (ha : a.WF) (hb : b.WF) (h : Alike a b) (i i' : Nat) (nl nl' : Bool) :
    SameMeaning (.ok (a.toSexpr i nl)) (.ok (b.toSexpr i' nl')) :=
  meaning_of (C48_Connection a ha i nl) (C48_Connection b hb i' nl') ((Connection.toVal_canon (a : Connection)).symm.trans ((congrArg (Connection.toVal) h.canon).trans (Connection.toVal_canon (b : Connection))))
example := C77_Connection sampleConnection (canon sampleConnection) sampleConnection_wf (Stable.keep sampleConnection_wf) (alike_canon _) 0 4 true false

theorem C77_PolyLine [TextRule] (a b : PolyLine) (ha : a.WF) (hb : b.WF) (h : Alike a b) (i i' : Nat) (nl nl' : Bool) :
    SameMeaning (.ok (a.toSexpr i nl)) (.ok (b.toSexpr i' nl')) :=
  meaning_of (C48_PolyLine a ha i nl) (C48_PolyLine b hb i' nl') ((PolyLine.toVal_canon (a : PolyLine)).symm.trans ((congrArg (PolyLine.toVal) h.canon).trans (PolyLine.toVal_canon (b : PolyLine))))
example := C77_PolyLine samplePolyLine (canon samplePolyLine) samplePolyLine_wf (Stable.keep samplePolyLine_wf) (alike_canon _) 0 4 true false

theorem C77_Text [TextRule] (a b : Text) (ha : a.WF) (hb : b.WF) (h : Alike a b) (i i' : Nat) (nl nl' : Bool) :
    SameMeaning (a.toSexpr i nl) (b.toSexpr i' nl') :=
  meaning_of (C48_Text a ha i nl) (C48_Text b hb i' nl') ((Text.toVal_canon (a : Text)).symm.trans ((congrArg (Text.toVal) h.canon).trans (Text.toVal_canon (b : Text))))
example := C77_Text sampleText (canon sampleText) sampleText_wf (Stable.keep sampleText_wf) (alike_canon _) 0 4 true false

theorem C77_TextBox [TextRule] (a b : TextBox) (ha : a.WF) (hb : b.WF) (h : Alike a b) (i i' : Nat) (nl nl' : Bool) :
    SameMeaning (.ok (a.toSexpr i nl)) (.ok (b.toSexpr i' nl')) :=
  meaning_of (C48_TextBox a ha i nl) (C48_TextBox b hb i' nl') ((TextBox.toVal_canon (a : TextBox)).symm.trans ((congrArg (TextBox.toVal) h.canon).trans (TextBox.toVal_canon (b : TextBox))))
example := C77_TextBox sampleTextBox (canon sampleTextBox) sampleTextBox_wf (Stable.keep sampleTextBox_wf) (alike_canon _) 0 4 true false

theorem C77_LocalLabel [TextRule] (a b : LocalLabel) (ha : a.WF) (hb : b.WF) (h : Alike a b) (i i' : Nat) (nl nl' : Bool) :
    SameMeaning (.ok (a.toSexpr i nl)) (.ok (b.toSexpr i' nl')) :=
  meaning_of (C48_LocalLabel a ha i nl) (C48_LocalLabel b hb i' nl') ((LocalLabel.toVal_canon (a : LocalLabel)).symm.trans ((congrArg (LocalLabel.toVal) h.canon).trans (LocalLabel.toVal_canon (b : LocalLabel))))
example := C77_LocalLabel sampleLocalLabel (canon sampleLocalLabel) sampleLocalLabel_wf (Stable.keep sampleLocalLabel_wf) (alike_canon _) 0 4 true false

theorem C77_GlobalLabel [TextRule] (a b : GlobalLabel) (ha : a.WF) (hb : b.WF) (h : Alike a b) (i i' : Nat) (nl nl' : Bool) :
    SameMeaning (.ok (a.toSexpr i nl)) (.ok (b.toSexpr i' nl')) :=
  meaning_of (C48_GlobalLabel a ha i nl) (C48_GlobalLabel b hb i' nl') ((GlobalLabel.toVal_canon (a : GlobalLabel)).symm.trans ((congrArg (GlobalLabel.toVal) h.canon).trans (GlobalLabel.toVal_canon (b : GlobalLabel))))
example := C77_GlobalLabel sampleGlobalLabel (canon sampleGlobalLabel) sampleGlobalLabel_wf (Stable.keep sampleGlobalLabel_wf) (alike_canon _) 0 4 true false

theorem C77_HierarchicalLabel [TextRule] (a b : HierarchicalLabel) (ha : a.WF) (hb : b.WF) (h : Alike a b) (i i' : Nat) (nl nl' : Bool) :
    SameMeaning (.ok (a.toSexpr i nl)) (.ok (b.toSexpr i' nl')) :=
  meaning_of (C48_HierarchicalLabel a ha i nl) (C48_HierarchicalLabel b hb i' nl') ((HierarchicalLabel.toVal_canon (a : HierarchicalLabel)).symm.trans ((congrArg (HierarchicalLabel.toVal) h.canon).trans (HierarchicalLabel.toVal_canon (b : HierarchicalLabel))))
example := C77_HierarchicalLabel sampleHierarchicalLabel (canon sampleHierarchicalLabel) sampleHierarchicalLabel_wf (Stable.keep sampleHierarchicalLabel_wf) (alike_canon _) 0 4 true false

theorem C77_SymbolProjectPath [TextRule] (a b : SymbolProjectPath) (ha : a.WF) (hb : b.WF) (h : Alike a b) (i i' : Nat) (nl nl' : Bool) :
    SameMeaning (.ok (a.toSexpr i nl)) (.ok (b.toSexpr i' nl')) :=
  meaning_of (C48_SymbolProjectPath a ha i nl) (C48_SymbolProjectPath b hb i' nl') ((SymbolProjectPath.toVal_canon (a : SymbolProjectPath)).symm.trans ((congrArg (SymbolProjectPath.toVal) h.canon).trans (SymbolProjectPath.toVal_canon (b : SymbolProjectPath))))
example := C77_SymbolProjectPath sampleSymbolProjectPath (canon sampleSymbolProjectPath) sampleSymbolProjectPath_wf (Stable.keep sampleSymbolProjectPath_wf) (alike_canon _) 0 4 true false

theorem C77_SymbolProjectInstance [TextRule] (a b : SymbolProjectInstance) (ha : a.WF) (hb : b.WF) (h : Alike a b) (i i' : Nat) (nl nl' : Bool) :
    SameMeaning (.ok (a.toSexpr i nl)) (.ok (b.toSexpr i' nl')) :=
  meaning_of (C48_SymbolProjectInstance a ha i nl) (C48_SymbolProjectInstance b hb i' nl') ((SymbolProjectInstance.toVal_canon (a : SymbolProjectInstance)).symm.trans ((congrArg (SymbolProjectInstance.toVal) h.canon).trans (SymbolProjectInstance.toVal_canon (b : SymbolProjectInstance))))
example := C77_SymbolProjectInstance sampleSymbolProjectInstance (canon sampleSymbolProjectInstance) sampleSymbolProjectInstance_wf (Stable.keep sampleSymbolProjectInstance_wf) (alike_canon _) 0 4 true false

theorem C77_SchematicSymbol [TextRule] (a b : SchematicSymbol) (ha : a.WF) (hb : b.WF) (h : Alike a b) (i i' : Nat) (nl nl' : Bool) :
    SameMeaning (.ok (a.toSexpr i nl)) (.ok (b.toSexpr i' nl')) :=
  meaning_of (C48_SchematicSymbol a ha i nl) (C48_SchematicSymbol b hb i' nl') ((SchematicSymbol.toVal_canon (a : SchematicSymbol) ha).symm.trans ((congrArg (SchematicSymbol.toVal) h.canon).trans (SchematicSymbol.toVal_canon (b : SchematicSymbol) hb)))
example := C77_SchematicSymbol sampleSchematicSymbol (canon sampleSchematicSymbol) sampleSchematicSymbol_wf (Stable.keep sampleSchematicSymbol_wf) (alike_canon _) 0 4 true false

theorem C77_HierarchicalPin [TextRule] (a b : HierarchicalPin) (ha : a.WF) (hb : b.WF) (h : Alike a b) (i i' : Nat) (nl nl' : Bool) :
    SameMeaning (.ok (a.toSexpr i nl)) (.ok (b.toSexpr i' nl')) :=
  meaning_of (C48_HierarchicalPin a ha i nl) (C48_HierarchicalPin b hb i' nl') ((HierarchicalPin.toVal_canon (a : HierarchicalPin)).symm.trans ((congrArg (HierarchicalPin.toVal) h.canon).trans (HierarchicalPin.toVal_canon (b : HierarchicalPin))))
example := C77_HierarchicalPin sampleHierarchicalPin (canon sampleHierarchicalPin) sampleHierarchicalPin_wf (Stable.keep sampleHierarchicalPin_wf) (alike_canon _) 0 4 true false

theorem C77_HierarchicalSheetProjectPath [TextRule] (a b : HierarchicalSheetProjectPath) (ha : a.WF) (hb : b.WF) (h : Alike a b) (i i' : Nat) (nl nl' : Bool) :
    SameMeaning (.ok (a.toSexpr i nl)) (.ok (b.toSexpr i' nl')) :=
  meaning_of (C48_HierarchicalSheetProjectPath a ha i nl) (C48_HierarchicalSheetProjectPath b hb i' nl') ((HierarchicalSheetProjectPath.toVal_canon (a : HierarchicalSheetProjectPath)).symm.trans ((congrArg (HierarchicalSheetProjectPath.toVal) h.canon).trans (HierarchicalSheetProjectPath.toVal_canon (b : HierarchicalSheetProjectPath))))
example := C77_HierarchicalSheetProjectPath sampleHierarchicalSheetProjectPath (canon sampleHierarchicalSheetProjectPath) sampleHierarchicalSheetProjectPath_wf (Stable.keep sampleHierarchicalSheetProjectPath_wf) (alike_canon _) 0 4 true false

theorem C77_HierarchicalSheetProjectInstance [TextRule] (a b : HierarchicalSheetProjectInstance) (ha : a.WF) (hb : b.WF) (h : Alike a b) (i i' : Nat) (nl nl' : Bool) :
    SameMeaning (.ok (a.toSexpr i nl)) (.ok (b.toSexpr i' nl')) :=
  meaning_of (C48_HierarchicalSheetProjectInstance a ha i nl) (C48_HierarchicalSheetProjectInstance b hb i' nl') ((HierarchicalSheetProjectInstance.toVal_canon (a : HierarchicalSheetProjectInstance)).symm.trans ((congrArg (HierarchicalSheetProjectInstance.toVal) h.canon).trans (HierarchicalSheetProjectInstance.toVal_canon (b : HierarchicalSheetProjectInstance))))
example := C77_HierarchicalSheetProjectInstance sampleHierarchicalSheetProjectInstance (canon sampleHierarchicalSheetProjectInstance) sampleHierarchicalSheetProjectInstance_wf (Stable.keep sampleHierarchicalSheetProjectInstance_wf) (alike_canon _) 0 4 true false

theorem C77_HierarchicalSheet [TextRule] (a b : HierarchicalSheet) (ha : a.WF) (hb : b.WF) (h : Alike a b) (i i' : Nat) (nl nl' : Bool) :
    SameMeaning (a.toSexpr i nl) (b.toSexpr i' nl') :=
  meaning_of (C48_HierarchicalSheet a ha i nl) (C48_HierarchicalSheet b hb i' nl') ((HierarchicalSheet.toVal_canon (a : HierarchicalSheet)).symm.trans ((congrArg (HierarchicalSheet.toVal) h.canon).trans (HierarchicalSheet.toVal_canon (b : HierarchicalSheet))))
example := C77_HierarchicalSheet sampleHierarchicalSheet (canon sampleHierarchicalSheet) sampleHierarchicalSheet_wf (Stable.keep sampleHierarchicalSheet_wf) (alike_canon _) 0 4 true false

theorem C77_HierarchicalSheetInstance [TextRule] (a b : HierarchicalSheetInstance) (ha : a.WF) (hb : b.WF) (h : Alike a b) (i i' : Nat) (nl nl' : Bool) :
    SameMeaning (.ok (a.toSexpr i nl)) (.ok (b.toSexpr i' nl')) :=
  meaning_of (C48_HierarchicalSheetInstance a ha i nl) (C48_HierarchicalSheetInstance b hb i' nl') ((HierarchicalSheetInstance.toVal_canon (a : HierarchicalSheetInstance)).symm.trans ((congrArg (HierarchicalSheetInstance.toVal) h.canon).trans (HierarchicalSheetInstance.toVal_canon (b : HierarchicalSheetInstance))))
example := C77_HierarchicalSheetInstance sampleHierarchicalSheetInstance (canon sampleHierarchicalSheetInstance) sampleHierarchicalSheetInstance_wf (Stable.keep sampleHierarchicalSheetInstance_wf) (alike_canon _) 0 4 true false

theorem C77_SymbolInstance [TextRule] (a b : SymbolInstance) (ha : a.WF) (hb : b.WF) (h : Alike a b) (i i' : Nat) (nl nl' : Bool) :
    SameMeaning (.ok (a.toSexpr i nl)) (.ok (b.toSexpr i' nl')) :=
  meaning_of (C48_SymbolInstance a ha i nl) (C48_SymbolInstance b hb i' nl') ((SymbolInstance.toVal_canon (a : SymbolInstance)).symm.trans ((congrArg (SymbolInstance.toVal) h.canon).trans (SymbolInstance.toVal_canon (b : SymbolInstance))))
example := C77_SymbolInstance sampleSymbolInstance (canon sampleSymbolInstance) sampleSymbolInstance_wf (Stable.keep sampleSymbolInstance_wf) (alike_canon _) 0 4 true false

theorem C77_Rectangle [TextRule] (a b : Rectangle) (ha : a.WF) (hb : b.WF) (h : Alike a b) (i i' : Nat) (nl nl' : Bool) :
    SameMeaning (.ok (a.toSexpr i nl)) (.ok (b.toSexpr i' nl')) :=
  meaning_of (C48_Rectangle a ha i nl) (C48_Rectangle b hb i' nl') ((Rectangle.toVal_canon (a : Rectangle)).symm.trans ((congrArg (Rectangle.toVal) h.canon).trans (Rectangle.toVal_canon (b : Rectangle))))
example := C77_Rectangle sampleRectangle (canon sampleRectangle) sampleRectangle_wf (Stable.keep sampleRectangle_wf) (alike_canon _) 0 4 true false

theorem C77_Arc [TextRule] (a b : Arc) (ha : a.WF) (hb : b.WF) (h : Alike a b) (i i' : Nat) (nl nl' : Bool) :
    SameMeaning (.ok (a.toSexpr i nl)) (.ok (b.toSexpr i' nl')) :=
  meaning_of (C48_Arc a ha i nl) (C48_Arc b hb i' nl') ((Arc.toVal_canon (a : Arc)).symm.trans ((congrArg (Arc.toVal) h.canon).trans (Arc.toVal_canon (b : Arc))))
example := C77_Arc sampleArc (canon sampleArc) sampleArc_wf (Stable.keep sampleArc_wf) (alike_canon _) 0 4 true false

theorem C77_Circle [TextRule] (a b : Circle) (ha : a.WF) (hb : b.WF) (h : Alike a b) (i i' : Nat) (nl nl' : Bool) :
    SameMeaning (.ok (a.toSexpr i nl)) (.ok (b.toSexpr i' nl')) :=
  meaning_of (C48_Circle a ha i nl) (C48_Circle b hb i' nl') ((Circle.toVal_canon (a : Circle)).symm.trans ((congrArg (Circle.toVal) h.canon).trans (Circle.toVal_canon (b : Circle))))
example := C77_Circle sampleCircle (canon sampleCircle) sampleCircle_wf (Stable.keep sampleCircle_wf) (alike_canon _) 0 4 true false

theorem C77_NetclassFlag [TextRule] (a b : NetclassFlag) (ha : a.WF) (hb : b.WF) (h : Alike a b) (i i' : Nat) (nl nl' : Bool) :
    SameMeaning (a.toSexpr i nl) (b.toSexpr i' nl') :=
  meaning_of (C48_NetclassFlag a ha i nl) (C48_NetclassFlag b hb i' nl') ((NetclassFlag.toVal_canon (a : NetclassFlag)).symm.trans ((congrArg (NetclassFlag.toVal) h.canon).trans (NetclassFlag.toVal_canon (b : NetclassFlag))))
example := C77_NetclassFlag sampleNetclassFlag (canon sampleNetclassFlag) sampleNetclassFlag_wf (Stable.keep sampleNetclassFlag_wf) (alike_canon _) 0 4 true false

theorem C77_Schematic [TextRule] (a b : Schematic) (ha : a.WF) (hb : b.WF) (h : Alike { a with filePath := none } { b with filePath := none }) (i i' : Nat) (nl nl' : Bool) :
    SameMeaning (a.toSexpr i nl) (b.toSexpr i' nl') :=
  meaning_of (C48_Schematic a ha i nl) (C48_Schematic b hb i' nl') ((Schematic.toVal_canon ({ a with filePath := none } : Schematic) { ha with }).symm.trans ((congrArg (Schematic.toVal) h.canon).trans (Schematic.toVal_canon ({ b with filePath := none } : Schematic) { hb with })))
example := C77_Schematic sampleSchematic (canon sampleSchematic) sampleSchematic_wf (Stable.keep sampleSchematic_wf) (alike_canon _) 0 4 true false

theorem C77_GrText [TextRule] (a b : GrText) (ha : a.WF) (hb : b.WF) (h : Alike a b) (i i' : Nat) (nl nl' : Bool) :
    SameMeaning (.ok (a.toSexpr i nl)) (.ok (b.toSexpr i' nl')) :=
  meaning_of (C48_GrText a ha i nl) (C48_GrText b hb i' nl') ((GrText.toVal_canon (a : GrText)).symm.trans ((congrArg (GrText.toVal) h.canon).trans (GrText.toVal_canon (b : GrText))))
example := C77_GrText sampleGrText (canon sampleGrText) sampleGrText_wf (Stable.keep sampleGrText_wf) (alike_canon _) 0 4 true false

theorem C77_GrTextBox [TextRule] (a b : GrTextBox) (ha : a.WF) (hb : b.WF) (h : Alike a b) (i i' : Nat) (nl nl' : Bool) :
    SameMeaning (a.toSexpr i nl) (b.toSexpr i' nl') :=
  meaning_of (C48_GrTextBox a ha i nl) (C48_GrTextBox b hb i' nl') ((GrTextBox.toVal_canon (a : GrTextBox)).symm.trans ((congrArg (GrTextBox.toVal) h.canon).trans (GrTextBox.toVal_canon (b : GrTextBox))))
example := C77_GrTextBox sampleGrTextBox (canon sampleGrTextBox) sampleGrTextBox_wf (Stable.keep sampleGrTextBox_wf) (alike_canon _) 0 4 true false

theorem C77_GrLine [TextRule] (a b : GrLine) (ha : a.WF) (hb : b.WF) (h : Alike a b) (i i' : Nat) (nl nl' : Bool) :
    SameMeaning (.ok (a.toSexpr i nl)) (.ok (b.toSexpr i' nl')) :=
  meaning_of (C48_GrLine a ha i nl) (C48_GrLine b hb i' nl') ((GrLine.toVal_canon (a : GrLine)).symm.trans ((congrArg (GrLine.toVal) h.canon).trans (GrLine.toVal_canon (b : GrLine))))
example := C77_GrLine sampleGrLine (canon sampleGrLine) sampleGrLine_wf (Stable.keep sampleGrLine_wf) (alike_canon _) 0 4 true false

theorem C77_GrRect [TextRule] (a b : GrRect) (ha : a.WF) (hb : b.WF) (h : Alike a b) (i i' : Nat) (nl nl' : Bool) :
    SameMeaning (.ok (a.toSexpr i nl)) (.ok (b.toSexpr i' nl')) :=
  meaning_of (C48_GrRect a ha i nl) (C48_GrRect b hb i' nl') ((GrRect.toVal_canon (a : GrRect)).symm.trans ((congrArg (GrRect.toVal) h.canon).trans (GrRect.toVal_canon (b : GrRect))))
example := C77_GrRect sampleGrRect (canon sampleGrRect) sampleGrRect_wf (Stable.keep sampleGrRect_wf) (alike_canon _) 0 4 true false

theorem C77_GrCircle [TextRule] (a b : GrCircle) (ha : a.WF) (hb : b.WF) (h : Alike a b) (i i' : Nat) (nl nl' : Bool) :
    SameMeaning (.ok (a.toSexpr i nl)) (.ok (b.toSexpr i' nl')) :=
  meaning_of (C48_GrCircle a ha i nl) (C48_GrCircle b hb i' nl') ((GrCircle.toVal_canon (a : GrCircle)).symm.trans ((congrArg (GrCircle.toVal) h.canon).trans (GrCircle.toVal_canon (b : GrCircle))))
example := C77_GrCircle sampleGrCircle (canon sampleGrCircle) sampleGrCircle_wf (Stable.keep sampleGrCircle_wf) (alike_canon _) 0 4 true false

theorem C77_GrArc [TextRule] (a b : GrArc) (ha : a.WF) (hb : b.WF) (h : Alike a b) (i i' : Nat) (nl nl' : Bool) :
    SameMeaning (.ok (a.toSexpr i nl)) (.ok (b.toSexpr i' nl')) :=
  meaning_of (C48_GrArc a ha i nl) (C48_GrArc b hb i' nl') ((GrArc.toVal_canon (a : GrArc)).symm.trans ((congrArg (GrArc.toVal) h.canon).trans (GrArc.toVal_canon (b : GrArc))))
example := C77_GrArc sampleGrArc (canon sampleGrArc) sampleGrArc_wf (Stable.keep sampleGrArc_wf) (alike_canon _) 0 4 true false

theorem C77_GrPoly [TextRule] (a b : GrPoly) (ha : a.WF) (hb : b.WF) (h : Alike a b) (i i' : Nat) (nl nl' : Bool) (pn pn' : Bool) :
    SameMeaning (.ok (a.toSexpr i nl pn)) (.ok (b.toSexpr i' nl' pn')) :=
  meaning_of (C48_GrPoly a ha i nl pn) (C48_GrPoly b hb i' nl' pn') ((GrPoly.toVal_canon (a : GrPoly)).symm.trans ((congrArg (GrPoly.toVal) h.canon).trans (GrPoly.toVal_canon (b : GrPoly))))
example := C77_GrPoly sampleGrPoly (canon sampleGrPoly) sampleGrPoly_wf (Stable.keep sampleGrPoly_wf) (alike_canon _) 0 4 true false true false

theorem C77_GrCurve [TextRule] (a b : GrCurve) (ha : a.WF) (hb : b.WF) (h : Alike a b) (i i' : Nat) (nl nl' : Bool) :
    SameMeaning (.ok (a.toSexpr i nl)) (.ok (b.toSexpr i' nl')) :=
  meaning_of (C48_GrCurve a ha i nl) (C48_GrCurve b hb i' nl') ((GrCurve.toVal_canon (a : GrCurve)).symm.trans ((congrArg (GrCurve.toVal) h.canon).trans (GrCurve.toVal_canon (b : GrCurve))))
example := C77_GrCurve sampleGrCurve (canon sampleGrCurve) sampleGrCurve_wf (Stable.keep sampleGrCurve_wf) (alike_canon _) 0 4 true false

theorem C77_FpText [TextRule] (a b : FpText) (ha : a.WF) (hb : b.WF) (h : Alike a b) (i i' : Nat) (nl nl' : Bool) :
    SameMeaning (.ok (a.toSexpr i nl)) (.ok (b.toSexpr i' nl')) :=
  meaning_of (C48_FpText a ha i nl) (C48_FpText b hb i' nl') ((FpText.toVal_canon (a : FpText)).symm.trans ((congrArg (FpText.toVal) h.canon).trans (FpText.toVal_canon (b : FpText))))
example := C77_FpText sampleFpText (canon sampleFpText) sampleFpText_wf (Stable.keep sampleFpText_wf) (alike_canon _) 0 4 true false

theorem C77_FpLine [TextRule] (a b : FpLine) (ha : a.WF) (hb : b.WF) (h : Alike a b) (i i' : Nat) (nl nl' : Bool) :
    SameMeaning (.ok (a.toSexpr i nl)) (.ok (b.toSexpr i' nl')) :=
  meaning_of (C48_FpLine a ha i nl) (C48_FpLine b hb i' nl') ((FpLine.toVal_canon (a : FpLine)).symm.trans ((congrArg (FpLine.toVal) h.canon).trans (FpLine.toVal_canon (b : FpLine))))
example := C77_FpLine sampleFpLine (canon sampleFpLine) sampleFpLine_wf (Stable.keep sampleFpLine_wf) (alike_canon _) 0 4 true false

theorem C77_FpRect [TextRule] (a b : FpRect) (ha : a.WF) (hb : b.WF) (h : Alike a b) (i i' : Nat) (nl nl' : Bool) :
    SameMeaning (.ok (a.toSexpr i nl)) (.ok (b.toSexpr i' nl')) :=
  meaning_of (C48_FpRect a ha i nl) (C48_FpRect b hb i' nl') ((FpRect.toVal_canon (a : FpRect)).symm.trans ((congrArg (FpRect.toVal) h.canon).trans (FpRect.toVal_canon (b : FpRect))))
example := C77_FpRect sampleFpRect (canon sampleFpRect) sampleFpRect_wf (Stable.keep sampleFpRect_wf) (alike_canon _) 0 4 true false

theorem C77_FpTextBox [TextRule] (a b : FpTextBox) (ha : a.WF) (hb : b.WF) (h : Alike a b) (i i' : Nat) (nl nl' : Bool) :
    SameMeaning (a.toSexpr i nl) (b.toSexpr i' nl') :=
  meaning_of (C48_FpTextBox a ha i nl) (C48_FpTextBox b hb i' nl') ((FpTextBox.toVal_canon (a : FpTextBox)).symm.trans ((congrArg (FpTextBox.toVal) h.canon).trans (FpTextBox.toVal_canon (b : FpTextBox))))
example := C77_FpTextBox sampleFpTextBox (canon sampleFpTextBox) sampleFpTextBox_wf (Stable.keep sampleFpTextBox_wf) (alike_canon _) 0 4 true false

theorem C77_FpCircle [TextRule] (a b : FpCircle) (ha : a.WF) (hb : b.WF) (h : Alike a b) (i i' : Nat) (nl nl' : Bool) :
    SameMeaning (.ok (a.toSexpr i nl)) (.ok (b.toSexpr i' nl')) :=
  meaning_of (C48_FpCircle a ha i nl) (C48_FpCircle b hb i' nl') ((FpCircle.toVal_canon (a : FpCircle)).symm.trans ((congrArg (FpCircle.toVal) h.canon).trans (FpCircle.toVal_canon (b : FpCircle))))
example := C77_FpCircle sampleFpCircle (canon sampleFpCircle) sampleFpCircle_wf (Stable.keep sampleFpCircle_wf) (alike_canon _) 0 4 true false

theorem C77_FpArc [TextRule] (a b : FpArc) (ha : a.WF) (hb : b.WF) (h : Alike a b) (i i' : Nat) (nl nl' : Bool) :
    SameMeaning (.ok (a.toSexpr i nl)) (.ok (b.toSexpr i' nl')) :=
  meaning_of (C48_FpArc a ha i nl) (C48_FpArc b hb i' nl') ((FpArc.toVal_canon (a : FpArc)).symm.trans ((congrArg (FpArc.toVal) h.canon).trans (FpArc.toVal_canon (b : FpArc))))
example := C77_FpArc sampleFpArc (canon sampleFpArc) sampleFpArc_wf (Stable.keep sampleFpArc_wf) (alike_canon _) 0 4 true false

theorem C77_FpPoly [TextRule] (a b : FpPoly) (ha : a.WF) (hb : b.WF) (h : Alike a b) (i i' : Nat) (nl nl' : Bool) :
    SameMeaning (.ok (a.toSexpr i nl)) (.ok (b.toSexpr i' nl')) :=
  meaning_of (C48_FpPoly a ha i nl) (C48_FpPoly b hb i' nl') ((FpPoly.toVal_canon (a : FpPoly)).symm.trans ((congrArg (FpPoly.toVal) h.canon).trans (FpPoly.toVal_canon (b : FpPoly))))
example := C77_FpPoly sampleFpPoly (canon sampleFpPoly) sampleFpPoly_wf (Stable.keep sampleFpPoly_wf) (alike_canon _) 0 4 true false

theorem C77_FpCurve [TextRule] (a b : FpCurve) (ha : a.WF) (hb : b.WF) (h : Alike a b) (i i' : Nat) (nl nl' : Bool) :
    SameMeaning (.ok (a.toSexpr i nl)) (.ok (b.toSexpr i' nl')) :=
  meaning_of (C48_FpCurve a ha i nl) (C48_FpCurve b hb i' nl') ((FpCurve.toVal_canon (a : FpCurve)).symm.trans ((congrArg (FpCurve.toVal) h.canon).trans (FpCurve.toVal_canon (b : FpCurve))))
example := C77_FpCurve sampleFpCurve (canon sampleFpCurve) sampleFpCurve_wf (Stable.keep sampleFpCurve_wf) (alike_canon _) 0 4 true false

theorem C77_KeepoutSettings [TextRule] (a b : KeepoutSettings) (ha : a.WF) (hb : b.WF) (h : Alike a b) (i i' : Nat) (nl nl' : Bool) :
    SameMeaning (.ok (a.toSexpr i nl)) (.ok (b.toSexpr i' nl')) :=
  meaning_of (C48_KeepoutSettings a ha i nl) (C48_KeepoutSettings b hb i' nl') ((KeepoutSettings.toVal_canon (a : KeepoutSettings)).symm.trans ((congrArg (KeepoutSettings.toVal) h.canon).trans (KeepoutSettings.toVal_canon (b : KeepoutSettings))))
example := C77_KeepoutSettings sampleKeepoutSettings (canon sampleKeepoutSettings) sampleKeepoutSettings_wf (Stable.keep sampleKeepoutSettings_wf) (alike_canon _) 0 4 true false

theorem C77_FillSettings [TextRule] (a b : FillSettings) (ha : a.WF) (hb : b.WF) (h : Alike a b) (i i' : Nat) (nl nl' : Bool) :
    SameMeaning (.ok (a.toSexpr i nl)) (.ok (b.toSexpr i' nl')) :=
  meaning_of (C48_FillSettings a ha i nl) (C48_FillSettings b hb i' nl') ((FillSettings.toVal_canon (a : FillSettings)).symm.trans ((congrArg (FillSettings.toVal) h.canon).trans (FillSettings.toVal_canon (b : FillSettings))))
example := C77_FillSettings sampleFillSettings (canon sampleFillSettings) sampleFillSettings_wf (Stable.keep sampleFillSettings_wf) (alike_canon _) 0 4 true false

theorem C77_ZonePolygon [TextRule] (a b : ZonePolygon) (ha : a.WF) (hb : b.WF) (h : Alike a b) (i i' : Nat) (nl nl' : Bool) :
    SameMeaning (.ok (a.toSexpr i nl)) (.ok (b.toSexpr i' nl')) :=
  meaning_of (C48_ZonePolygon a ha i nl) (C48_ZonePolygon b hb i' nl') ((ZonePolygon.toVal_canon (a : ZonePolygon)).symm.trans ((congrArg (ZonePolygon.toVal) h.canon).trans (ZonePolygon.toVal_canon (b : ZonePolygon))))
example := C77_ZonePolygon sampleZonePolygon (canon sampleZonePolygon) sampleZonePolygon_wf (Stable.keep sampleZonePolygon_wf) (alike_canon _) 0 4 true false

theorem C77_FilledPolygon [TextRule] (a b : FilledPolygon) (ha : a.WF) (hb : b.WF) (h : Alike a b) (i i' : Nat) (nl nl' : Bool) :
    SameMeaning (.ok (a.toSexpr i nl)) (.ok (b.toSexpr i' nl')) :=
  meaning_of (C48_FilledPolygon a ha i nl) (C48_FilledPolygon b hb i' nl') ((FilledPolygon.toVal_canon (a : FilledPolygon)).symm.trans ((congrArg (FilledPolygon.toVal) h.canon).trans (FilledPolygon.toVal_canon (b : FilledPolygon))))
example := C77_FilledPolygon sampleFilledPolygon (canon sampleFilledPolygon) sampleFilledPolygon_wf (Stable.keep sampleFilledPolygon_wf) (alike_canon _) 0 4 true false

theorem C77_FillSegments [TextRule] (a b : FillSegments) (ha : a.WF) (hb : b.WF) (h : Alike a b) (i i' : Nat) (nl nl' : Bool) :
    SameMeaning (.ok (a.toSexpr i nl)) (.ok (b.toSexpr i' nl')) :=
  meaning_of (C48_FillSegments a ha i nl) (C48_FillSegments b hb i' nl') ((FillSegments.toVal_canon (a : FillSegments)).symm.trans ((congrArg (FillSegments.toVal) h.canon).trans (FillSegments.toVal_canon (b : FillSegments))))
example := C77_FillSegments sampleFillSegments (canon sampleFillSegments) sampleFillSegments_wf (Stable.keep sampleFillSegments_wf) (alike_canon _) 0 4 true false

theorem C77_Zone [TextRule] (a b : Zone) (ha : a.WF) (hb : b.WF) (h : Alike a b) (i i' : Nat) (nl nl' : Bool) :
    SameMeaning (a.toSexpr i nl) (b.toSexpr i' nl') :=
  meaning_of (C48_Zone a ha i nl) (C48_Zone b hb i' nl') ((Zone.toVal_canon (a : Zone)).symm.trans ((congrArg (Zone.toVal) h.canon).trans (Zone.toVal_canon (b : Zone))))
example := C77_Zone sampleZone (canon sampleZone) sampleZone_wf (Stable.keep sampleZone_wf) (alike_canon _) 0 4 true false

theorem C77_Attributes [TextRule] (a b : Attributes) (ha : a.WF) (hb : b.WF) (hea : a.isDefault = false) (heb : b.isDefault = false) (h : Alike a b) (i i' : Nat) (nl nl' : Bool) :
    SameMeaning (.ok (a.toSexpr i nl)) (.ok (b.toSexpr i' nl')) :=
  meaning_of (C48_Attributes a ha hea i nl) (C48_Attributes b hb heb i' nl') ((Attributes.toVal_canon (a : Attributes)).symm.trans ((congrArg (Attributes.toVal) h.canon).trans (Attributes.toVal_canon (b : Attributes))))
example := C77_Attributes sampleAttributes (canon sampleAttributes) sampleAttributes_wf (Stable.keep sampleAttributes_wf) rfl rfl (alike_canon _) 0 4 true false

theorem C77_Model [TextRule] (a b : Model) (ha : a.WF) (hb : b.WF) (h : Alike a b) (i i' : Nat) (nl nl' : Bool) :
    SameMeaning (.ok (a.toSexpr i nl)) (.ok (b.toSexpr i' nl')) :=
  meaning_of (C48_Model a ha i nl) (C48_Model b hb i' nl') ((Model.toVal_canon (a : Model)).symm.trans ((congrArg (Model.toVal) h.canon).trans (Model.toVal_canon (b : Model))))
example := C77_Model sampleModel (canon sampleModel) sampleModel_wf (Stable.keep sampleModel_wf) (alike_canon _) 0 4 true false

theorem C77_DrillDefinition [TextRule] (a b : DrillDefinition) (ha : a.WF) (hb : b.WF) (h : Alike a b) (i i' : Nat) (nl nl' : Bool) :
    SameMeaning (.ok (a.toSexpr i nl)) (.ok (b.toSexpr i' nl')) :=
  meaning_of (C48_DrillDefinition a ha i nl) (C48_DrillDefinition b hb i' nl') ((DrillDefinition.toVal_canon (a : DrillDefinition)).symm.trans ((congrArg (DrillDefinition.toVal) h.canon).trans (DrillDefinition.toVal_canon (b : DrillDefinition))))
example := C77_DrillDefinition sampleDrillDefinition (canon sampleDrillDefinition) sampleDrillDefinition_wf (Stable.keep sampleDrillDefinition_wf) (alike_canon _) 0 4 true false

theorem C77_PadOptions [TextRule] (a b : PadOptions) (ha : a.WF) (hb : b.WF) (h : Alike a b) (i i' : Nat) (nl nl' : Bool) :
    SameMeaning (.ok (a.toSexpr i nl)) (.ok (b.toSexpr i' nl')) :=
  meaning_of (C48_PadOptions a ha i nl) (C48_PadOptions b hb i' nl') ((PadOptions.toVal_canon (a : PadOptions)).symm.trans ((congrArg (PadOptions.toVal) h.canon).trans (PadOptions.toVal_canon (b : PadOptions))))
example := C77_PadOptions samplePadOptions (canon samplePadOptions) samplePadOptions_wf (Stable.keep samplePadOptions_wf) (alike_canon _) 0 4 true false

theorem C77_Pad [TextRule] (a b : Pad) (ha : a.WF) (hb : b.WF) (h : Alike a b) (i i' : Nat) (nl nl' : Bool) :
    SameMeaning (a.toSexpr i nl) (b.toSexpr i' nl') :=
  meaning_of (C48_Pad a ha i nl) (C48_Pad b hb i' nl') ((Pad.toVal_canon (a : Pad)).symm.trans ((congrArg (Pad.toVal) h.canon).trans (Pad.toVal_canon (b : Pad))))
example := C77_Pad samplePad (canon samplePad) samplePad_wf (Stable.keep samplePad_wf) (alike_canon _) 0 4 true false

theorem C77_Footprint [TextRule] (a b : Footprint) (ha : a.WF) (hb : b.WF) (h : Alike { a with filePath := none } { b with filePath := none }) (i i' : Nat) (nl nl' : Bool) (lf lf' : Bool) :
    SameMeaning (a.toSexpr i nl lf) (b.toSexpr i' nl' lf') :=
  meaning_of (C48_Footprint a ha i nl lf) (C48_Footprint b hb i' nl' lf') ((Footprint.toVal_canon ({ a with filePath := none } : Footprint) { ha with }).symm.trans ((congrArg (Footprint.toVal) h.canon).trans (Footprint.toVal_canon ({ b with filePath := none } : Footprint) { hb with })))
example := C77_Footprint sampleFootprint (canon sampleFootprint) sampleFootprint_wf (Stable.keep sampleFootprint_wf) (alike_canon _) 0 4 true false true false

theorem C77_GeneralSettings [TextRule] (a b : GeneralSettings) (ha : a.WF) (hb : b.WF) (h : Alike a b) (i i' : Nat) (nl nl' : Bool) :
    SameMeaning (.ok (a.toSexpr i nl)) (.ok (b.toSexpr i' nl')) :=
  meaning_of (C48_GeneralSettings a ha i nl) (C48_GeneralSettings b hb i' nl') ((GeneralSettings.toVal_canon (a : GeneralSettings)).symm.trans ((congrArg (GeneralSettings.toVal) h.canon).trans (GeneralSettings.toVal_canon (b : GeneralSettings))))
example := C77_GeneralSettings sampleGeneralSettings (canon sampleGeneralSettings) sampleGeneralSettings_wf (Stable.keep sampleGeneralSettings_wf) (alike_canon _) 0 4 true false

theorem C77_LayerToken [TextRule] (a b : LayerToken) (ha : a.WF) (hb : b.WF) (h : Alike a b) (i i' : Nat) (nl nl' : Bool) :
    SameMeaning (.ok (a.toSexpr i nl)) (.ok (b.toSexpr i' nl')) :=
  meaning_of (C48_LayerToken a ha i nl) (C48_LayerToken b hb i' nl') ((LayerToken.toVal_canon (a : LayerToken)).symm.trans ((congrArg (LayerToken.toVal) h.canon).trans (LayerToken.toVal_canon (b : LayerToken))))
example := C77_LayerToken sampleLayerToken (canon sampleLayerToken) sampleLayerToken_wf (Stable.keep sampleLayerToken_wf) (alike_canon _) 0 4 true false

theorem C77_StackupLayer [TextRule] (a b : StackupLayer) (ha : a.WF) (hb : b.WF) (h : Alike a b) (i i' : Nat) (nl nl' : Bool) :
    SameMeaning (.ok (a.toSexpr i nl)) (.ok (b.toSexpr i' nl')) :=
  meaning_of (C48_StackupLayer a ha i nl) (C48_StackupLayer b hb i' nl') ((StackupLayer.toVal_canon (a : StackupLayer)).symm.trans ((congrArg (StackupLayer.toVal) h.canon).trans (StackupLayer.toVal_canon (b : StackupLayer))))
example := C77_StackupLayer sampleStackupLayer (canon sampleStackupLayer) sampleStackupLayer_wf (Stable.keep sampleStackupLayer_wf) (alike_canon _) 0 4 true false

theorem C77_Stackup [TextRule] (a b : Stackup) (ha : a.WF) (hb : b.WF) (h : Alike a b) (i i' : Nat) (nl nl' : Bool) :
    SameMeaning (.ok (a.toSexpr i nl)) (.ok (b.toSexpr i' nl')) :=
  meaning_of (C48_Stackup a ha i nl) (C48_Stackup b hb i' nl') ((Stackup.toVal_canon (a : Stackup)).symm.trans ((congrArg (Stackup.toVal) h.canon).trans (Stackup.toVal_canon (b : Stackup))))
example := C77_Stackup sampleStackup (canon sampleStackup) sampleStackup_wf (Stable.keep sampleStackup_wf) (alike_canon _) 0 4 true false

theorem C77_PlotSettings [TextRule] (a b : PlotSettings) (ha : a.WF) (hb : b.WF) (h : Alike a b) (i i' : Nat) (nl nl' : Bool) :
    SameMeaning (a.toSexpr i nl) (b.toSexpr i' nl') :=
  meaning_of (C48_PlotSettings a ha i nl) (C48_PlotSettings b hb i' nl') ((PlotSettings.toVal_canon (a : PlotSettings)).symm.trans ((congrArg (PlotSettings.toVal) h.canon).trans (PlotSettings.toVal_canon (b : PlotSettings))))
example := C77_PlotSettings samplePlotSettings (canon samplePlotSettings) samplePlotSettings_wf (Stable.keep samplePlotSettings_wf) (alike_canon _) 0 4 true false

theorem C77_SetupData [TextRule] (a b : SetupData) (ha : a.WF) (hb : b.WF) (h : Alike a b) (i i' : Nat) (nl nl' : Bool) :
    SameMeaning (a.toSexpr i nl) (b.toSexpr i' nl') :=
  meaning_of (C48_SetupData a ha i nl) (C48_SetupData b hb i' nl') ((SetupData.toVal_canon (a : SetupData)).symm.trans ((congrArg (SetupData.toVal) h.canon).trans (SetupData.toVal_canon (b : SetupData))))
example := C77_SetupData sampleSetupData (canon sampleSetupData) sampleSetupData_wf (Stable.keep sampleSetupData_wf) (alike_canon _) 0 4 true false

theorem C77_Segment [TextRule] (a b : Segment) (ha : a.WF) (hb : b.WF) (h : Alike a b) (i i' : Nat) (nl nl' : Bool) :
    SameMeaning (.ok (a.toSexpr i nl)) (.ok (b.toSexpr i' nl')) :=
  meaning_of (C48_Segment a ha i nl) (C48_Segment b hb i' nl') ((Segment.toVal_canon (a : Segment)).symm.trans ((congrArg (Segment.toVal) h.canon).trans (Segment.toVal_canon (b : Segment))))
example := C77_Segment sampleSegment (canon sampleSegment) sampleSegment_wf (Stable.keep sampleSegment_wf) (alike_canon _) 0 4 true false

theorem C77_Via [TextRule] (a b : Via) (ha : a.WF) (hb : b.WF) (h : Alike a b) (i i' : Nat) (nl nl' : Bool) :
    SameMeaning (.ok (a.toSexpr i nl)) (.ok (b.toSexpr i' nl')) :=
  meaning_of (C48_Via a ha i nl) (C48_Via b hb i' nl') ((Via.toVal_canon (a : Via)).symm.trans ((congrArg (Via.toVal) h.canon).trans (Via.toVal_canon (b : Via))))
example := C77_Via sampleVia (canon sampleVia) sampleVia_wf (Stable.keep sampleVia_wf) (alike_canon _) 0 4 true false

theorem C77_TraceArc [TextRule] (a b : TraceArc) (ha : a.WF) (hb : b.WF) (h : Alike a b) (i i' : Nat) (nl nl' : Bool) :
    SameMeaning (.ok (a.toSexpr i nl)) (.ok (b.toSexpr i' nl')) :=
  meaning_of (C48_TraceArc a ha i nl) (C48_TraceArc b hb i' nl') ((TraceArc.toVal_canon (a : TraceArc)).symm.trans ((congrArg (TraceArc.toVal) h.canon).trans (TraceArc.toVal_canon (b : TraceArc))))
example := C77_TraceArc sampleTraceArc (canon sampleTraceArc) sampleTraceArc_wf (Stable.keep sampleTraceArc_wf) (alike_canon _) 0 4 true false

theorem C77_Target [TextRule] (a b : Target) (ha : a.WF) (hb : b.WF) (h : Alike a b) (i i' : Nat) (nl nl' : Bool) :
    SameMeaning (.ok (a.toSexpr i nl)) (.ok (b.toSexpr i' nl')) :=
  meaning_of (C48_Target a ha i nl) (C48_Target b hb i' nl') ((Target.toVal_canon (a : Target)).symm.trans ((congrArg (Target.toVal) h.canon).trans (Target.toVal_canon (b : Target))))
example := C77_Target sampleTarget (canon sampleTarget) sampleTarget_wf (Stable.keep sampleTarget_wf) (alike_canon _) 0 4 true false

theorem C77_DimensionFormat [TextRule] (a b : DimensionFormat) (ha : a.WF) (hb : b.WF) (h : Alike a b) (i i' : Nat) (nl nl' : Bool) :
    SameMeaning (.ok (a.toSexpr i nl)) (.ok (b.toSexpr i' nl')) :=
  meaning_of (C48_DimensionFormat a ha i nl) (C48_DimensionFormat b hb i' nl') ((DimensionFormat.toVal_canon (a : DimensionFormat)).symm.trans ((congrArg (DimensionFormat.toVal) h.canon).trans (DimensionFormat.toVal_canon (b : DimensionFormat))))
example := C77_DimensionFormat sampleDimensionFormat (canon sampleDimensionFormat) sampleDimensionFormat_wf (Stable.keep sampleDimensionFormat_wf) (alike_canon _) 0 4 true false

theorem C77_DimensionStyle [TextRule] (a b : DimensionStyle) (ha : a.WF) (hb : b.WF) (h : Alike a b) (i i' : Nat) (nl nl' : Bool) :
    SameMeaning (.ok (a.toSexpr i nl)) (.ok (b.toSexpr i' nl')) :=
  meaning_of (C48_DimensionStyle a ha i nl) (C48_DimensionStyle b hb i' nl') ((DimensionStyle.toVal_canon (a : DimensionStyle)).symm.trans ((congrArg (DimensionStyle.toVal) h.canon).trans (DimensionStyle.toVal_canon (b : DimensionStyle))))
example := C77_DimensionStyle sampleDimensionStyle (canon sampleDimensionStyle) sampleDimensionStyle_wf (Stable.keep sampleDimensionStyle_wf) (alike_canon _) 0 4 true false

theorem C77_Dimension [TextRule] (a b : Dimension) (ha : a.WF) (hb : b.WF) (h : Alike a b) (i i' : Nat) (nl nl' : Bool) :
    SameMeaning (a.toSexpr i nl) (b.toSexpr i' nl') :=
  meaning_of (C48_Dimension a ha i nl) (C48_Dimension b hb i' nl') ((Dimension.toVal_canon (a : Dimension)).symm.trans ((congrArg (Dimension.toVal) h.canon).trans (Dimension.toVal_canon (b : Dimension))))
example := C77_Dimension sampleDimension (canon sampleDimension) sampleDimension_wf (Stable.keep sampleDimension_wf) (alike_canon _) 0 4 true false

theorem Board.toVal_paths (o : Board) : Board.toVal { o with footprints := o.footprints.map fun f => { f with filePath := none }, filePath := none } = Board.toVal o := by
  simp only [Board.toVal, List.map_map]
  rfl

theorem Board.wf_paths [TextRule] {o : Board} (h : o.WF) : Board.WF { o with footprints := o.footprints.map fun f => { f with filePath := none }, filePath := none } :=
  { h with
    footprints := fun v hv => by
      obtain ⟨f, hf, rfl⟩ := List.mem_map.1 hv
      have := h.footprints f hf
      exact { this with } }

theorem C77_Board [TextRule] (a b : Board) (ha : a.WF) (hb : b.WF) (h : Alike (α := Board) { a with footprints := a.footprints.map fun f => { f with filePath := none }, filePath := none } { b with footprints := b.footprints.map fun f => { f with filePath := none }, filePath := none }) (i i' : Nat) (nl nl' : Bool) :
    SameMeaning (a.toSexpr i nl) (b.toSexpr i' nl') :=
  meaning_of (C48_Board a ha i nl) (C48_Board b hb i' nl') (((Board.toVal_paths a).symm.trans (Board.toVal_canon _ (Board.wf_paths ha)).symm).trans ((congrArg Board.toVal h.canon).trans ((Board.toVal_canon _ (Board.wf_paths hb)).trans (Board.toVal_paths b))))
example := C77_Board sampleBoard (canon sampleBoard) sampleBoard_wf (Stable.keep sampleBoard_wf) (alike_canon _) 0 4 true false

theorem C77_Line [TextRule] (a b : WksShape) (ha : a.WF) (hb : b.WF) (h : Alike a b) (i i' : Nat) (nl nl' : Bool) :
    SameMeaning (.ok (a.toSexpr k!"line" i nl)) (.ok (b.toSexpr k!"line" i' nl')) :=
  meaning_of (C48_Line a ha i nl) (C48_Line b hb i' nl') ((WksShape.toVal_canon k!"line" (a : WksShape)).symm.trans ((congrArg (fun o => WksShape.toVal k!"line" o) h.canon).trans (WksShape.toVal_canon k!"line" (b : WksShape))))
example := C77_Line sampleWksShape (canon sampleWksShape) sampleWksShape_wf (Stable.keep sampleWksShape_wf) (alike_canon _) 0 4 true false

theorem C77_Rect [TextRule] (a b : WksShape) (ha : a.WF) (hb : b.WF) (h : Alike a b) (i i' : Nat) (nl nl' : Bool) :
    SameMeaning (.ok (a.toSexpr k!"rect" i nl)) (.ok (b.toSexpr k!"rect" i' nl')) :=
  meaning_of (C48_Rect a ha i nl) (C48_Rect b hb i' nl') ((WksShape.toVal_canon k!"rect" (a : WksShape)).symm.trans ((congrArg (fun o => WksShape.toVal k!"rect" o) h.canon).trans (WksShape.toVal_canon k!"rect" (b : WksShape))))
example := C77_Rect sampleWksShape (canon sampleWksShape) sampleWksShape_wf (Stable.keep sampleWksShape_wf) (alike_canon _) 0 4 true false

theorem C77_DesignRules [TextRule] (a b : DesignRules) (ha : a.WF) (hb : b.WF) (h : Alike { a with filePath := none } { b with filePath := none }) (i i' : Nat) (nl nl' : Bool) :
    SameMeaning (a.toSexpr i nl >>= fun s => .ok ('(' :: (s ++ [')']))) (b.toSexpr i' nl' >>= fun s => .ok ('(' :: (s ++ [')']))) :=
  meaning_of (C48_DesignRules a ha i nl) (C48_DesignRules b hb i' nl') (congrArg Val.list ((DesignRules.toVals_canon ({ a with filePath := none } : DesignRules)).symm.trans ((congrArg (DesignRules.toVals) h.canon).trans (DesignRules.toVals_canon ({ b with filePath := none } : DesignRules)))))
example := C77_DesignRules sampleDesignRules (canon sampleDesignRules) sampleDesignRules_wf (Stable.keep sampleDesignRules_wf) (alike_canon _) 0 4 true false

/-- Two different objects that are equal: the width is the float 1.0 in one and the int 1 in the other. The texts differ, their content
does not. -/
example := C77_Segment { sampleSegment with width := .flt (.fin false 4503599627370496 (-52)) } { sampleSegment with width := .int 1 }
  { sampleSegment_wf with width := ⟨false, k!"1", k!"0", by decide, by decide, by decide, by decide, by decide +kernel, by decide +kernel⟩ }
  { sampleSegment_wf with width := ok_int (by decide) } (alike_canon _) 0 0 true true
example : Segment.toSexpr { sampleSegment with width := .flt (.fin false 4503599627370496 (-52)) } ≠ Segment.toSexpr { sampleSegment with width := .int 1 } := by
  decide +kernel

end Kiutils
