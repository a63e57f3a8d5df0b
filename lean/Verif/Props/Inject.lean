import Verif.Props.RoundTrip
/-!
# C68: different objects have different texts

If what is written for two well-formed objects of a class means the same, whatever the layout, the objects are equal. So no two
different objects are saved as the same text, and no edit of a well-formed object is lost silently. (Equal texts mean the same:
the brackets of the text of a well-formed object match, C24.) Attributes that are not part of the text are left out as in C13–C20
and C41.
-/
namespace Kiutils

/-- Python's `a == b`: both equal one and the same third object. (`PyEq.eq` is only the part of `==` that the round trip needs; that
`Alike` is the whole of it is shown by `C77_values` and `C77_eq` in `Props/EqualTexts`.) -/
def Alike {α : Type} [PyEq α] (a b : α) : Prop := ∃ c, PyEq.eq a c ∧ PyEq.eq b c

theorem Reloads.alike {α : Type} [PyEq α] {m m' : PyM Str} {load : Val → PyM α} {a b : α} (ha : Reloads m load a) (hb : Reloads m' load b)
    (h : SameMeaning m m') : Alike a b := by
  obtain ⟨v, hv, hv'⟩ := h
  obtain ⟨c, hc, he⟩ := ha
  obtain ⟨c', hc', he'⟩ := hb
  rw [hv] at hc
  rw [hv'] at hc'
  cases hc.symm.trans hc'
  exact ⟨c, he, he'⟩

/-- The text of an object that can be loaded again means something, so equal texts mean the same. -/
theorem Reloads.meaningful {α : Type} [PyEq α] {m : PyM Str} {load : Val → PyM α} {a : α} (ha : Reloads m load a) : SameMeaning m m := by
  obtain ⟨c, hc, -⟩ := ha
  cases hv : m >>= parseSexp with
  | error e => rw [hv] at hc; cases hc
  | ok v => exact ⟨v, hv, hv⟩

/-- Design rules have a reader of their own, so their texts themselves are compared. -/
theorem C68_DesignRules [TextRule] (a b : DesignRules) (ha : a.WF) (hb : b.WF) (i j : Nat) (nl nl' : Bool) (h : a.toSexpr i nl = b.toSexpr j nl') :
    Alike { a with filePath := none } { b with filePath := none } := by
  obtain ⟨c, hc, he⟩ := C14_DesignRules a ha i nl
  obtain ⟨c', hc', he'⟩ := C14_DesignRules b hb j nl'
  rw [h] at hc
  cases hc.symm.trans hc'
  exact ⟨c, he, he'⟩
example := C68_DesignRules sampleDesignRules { sampleDesignRules with filePath := some k!"b.kicad_dru" } sampleDesignRules_wf
  ⟨sampleDesignRules_wf.1, sampleDesignRules_wf.2⟩ 0 0 false false rfl

theorem C68_Line [TextRule] (a b : WksShape) (ha : a.WF) (hb : b.WF) (i i' : Nat) (nl nl' : Bool)
    (h : SameMeaning (.ok (a.toSexpr k!"line" i nl)) (.ok (b.toSexpr k!"line" i' nl'))) :
    Alike a
      b :=
  (C15_Line a ha i nl).alike (C15_Line b hb i' nl') h
example := C68_Line sampleWksShape sampleWksShape sampleWksShape_wf sampleWksShape_wf 0 0 true true (C15_Line sampleWksShape sampleWksShape_wf 0 true).meaningful

theorem C68_Rect [TextRule] (a b : WksShape) (ha : a.WF) (hb : b.WF) (i i' : Nat) (nl nl' : Bool)
    (h : SameMeaning (.ok (a.toSexpr k!"rect" i nl)) (.ok (b.toSexpr k!"rect" i' nl'))) :
    Alike a
      b :=
  (C15_Rect a ha i nl).alike (C15_Rect b hb i' nl') h
example := C68_Rect sampleWksShape sampleWksShape sampleWksShape_wf sampleWksShape_wf 0 0 true true (C15_Rect sampleWksShape sampleWksShape_wf 0 true).meaningful

theorem C68_Coordinate [TextRule] (a b : Coordinate) (ha : a.WF) (hb : b.WF) (i i' : Nat) (nl nl' : Bool)
    (h : SameMeaning (.ok (a.toSexpr i nl)) (.ok (b.toSexpr i' nl'))) :
    Alike a
      b :=
  (C20_Coordinate a ha i nl).alike (C20_Coordinate b hb i' nl') h
example := C68_Coordinate sampleCoordinate sampleCoordinate sampleCoordinate_wf sampleCoordinate_wf 0 4 true false (C12_Coordinate sampleCoordinate sampleCoordinate_wf 0 true 4 false)

theorem C68_ColorRGBA [TextRule] (a b : ColorRGBA) (ha : a.WF) (hb : b.WF) (i i' : Nat) (nl nl' : Bool)
    (h : SameMeaning (.ok (a.toSexpr i nl)) (.ok (b.toSexpr i' nl'))) :
    Alike a
      b :=
  (C20_ColorRGBA a ha i nl).alike (C20_ColorRGBA b hb i' nl') h
example := C68_ColorRGBA sampleColorRGBA sampleColorRGBA sampleColorRGBA_wf sampleColorRGBA_wf 0 4 true false (C12_ColorRGBA sampleColorRGBA sampleColorRGBA_wf 0 true 4 false)

theorem C68_Stroke [TextRule] (a b : Stroke) (ha : a.WF) (hb : b.WF) (i i' : Nat) (nl nl' : Bool)
    (h : SameMeaning (.ok (a.toSexpr i nl)) (.ok (b.toSexpr i' nl'))) :
    Alike a
      b :=
  (C20_Stroke a ha i nl).alike (C20_Stroke b hb i' nl') h
example := C68_Stroke sampleStroke sampleStroke sampleStroke_wf sampleStroke_wf 0 4 true false (C12_Stroke sampleStroke sampleStroke_wf 0 true 4 false)

theorem C68_Font [TextRule] (a b : Font) (ha : a.WF) (hb : b.WF) (i i' : Nat) (nl nl' : Bool)
    (h : SameMeaning (.ok (a.toSexpr i nl)) (.ok (b.toSexpr i' nl'))) :
    Alike a
      b :=
  (C20_Font a ha i nl).alike (C20_Font b hb i' nl') h
example := C68_Font sampleFont sampleFont sampleFont_wf sampleFont_wf 0 4 true false (C12_Font sampleFont sampleFont_wf 0 true 4 false)

theorem C68_Justify [TextRule] (a b : Justify) (ha : a.WF) (hb : b.WF) (ha' : a.isEmpty = false) (hb' : b.isEmpty = false) (i i' : Nat) (nl nl' : Bool)
    (h : SameMeaning (.ok (a.toSexpr i nl)) (.ok (b.toSexpr i' nl'))) :
    Alike a
      b :=
  (C20_Justify a ha ha' i nl).alike (C20_Justify b hb hb' i' nl') h
example := C68_Justify sampleJustify sampleJustify sampleJustify_wf sampleJustify_wf rfl rfl 0 4 true false (C12_Justify sampleJustify sampleJustify_wf rfl 0 true 4 false)

theorem C68_Effects [TextRule] (a b : Effects) (ha : a.WF) (hb : b.WF) (i i' : Nat) (nl nl' : Bool)
    (h : SameMeaning (.ok (a.toSexpr i nl)) (.ok (b.toSexpr i' nl'))) :
    Alike a
      b :=
  (C20_Effects a ha i nl).alike (C20_Effects b hb i' nl') h
example := C68_Effects sampleEffects sampleEffects sampleEffects_wf sampleEffects_wf 0 4 true false (C12_Effects sampleEffects sampleEffects_wf 0 true 4 false)

theorem C68_Net [TextRule] (a b : Net) (ha : a.WF) (hb : b.WF) (i i' : Nat) (nl nl' : Bool)
    (h : SameMeaning (.ok (a.toSexpr i nl)) (.ok (b.toSexpr i' nl'))) :
    Alike a
      b :=
  (C20_Net a ha i nl).alike (C20_Net b hb i' nl') h
example := C68_Net sampleNet sampleNet sampleNet_wf sampleNet_wf 0 4 true false (C12_Net sampleNet sampleNet_wf 0 true 4 false)

/-- The other way round: nets with different numbers have texts that mean different things. -/
example (i i' : Nat) (nl nl' : Bool) :
    ¬ SameMeaning (.ok (({ number := .int 1, name := .str k!"GND" } : Net).toSexpr i nl)) (.ok (({ number := .int 2, name := .str k!"GND" } : Net).toSexpr i' nl')) :=
  fun h => by
    obtain ⟨c, h1, h2⟩ := C68_Net _ _ ⟨ok_int (by decide), by textOk⟩ ⟨ok_int (by decide), by textOk⟩ i i' nl nl' h
    have h1 : Val.Eq (.int 1) c.number := h1.1
    have h2 : Val.Eq (.int 2) c.number := h2.1
    cases h : c.number <;> rw [h] at h1 h2 <;> cases h1 <;> cases h2

theorem C68_Group [TextRule] (a b : Group) (ha : a.WF) (hb : b.WF) (i i' : Nat) (nl nl' : Bool)
    (h : SameMeaning (.ok (a.toSexpr i nl)) (.ok (b.toSexpr i' nl'))) :
    Alike a
      b :=
  (C20_Group a ha i nl).alike (C20_Group b hb i' nl') h
example := C68_Group sampleGroup sampleGroup sampleGroup_wf sampleGroup_wf 0 4 true false (C12_Group sampleGroup sampleGroup_wf 0 true 4 false)

theorem C68_PageSettings [TextRule] (a b : PageSettings) (ha : a.WF) (hb : b.WF) (i i' : Nat) (nl nl' : Bool)
    (h : SameMeaning (a.toSexpr i nl) (b.toSexpr i' nl')) :
    Alike a
      b :=
  (C20_PageSettings a ha i nl).alike (C20_PageSettings b hb i' nl') h
example := C68_PageSettings samplePageSettings samplePageSettings samplePageSettings_wf samplePageSettings_wf 0 4 true false (C12_PageSettings samplePageSettings samplePageSettings_wf 0 true 4 false)

theorem C68_TitleBlock [TextRule] (a b : TitleBlock) (ha : a.WF) (hb : b.WF) (i i' : Nat) (nl nl' : Bool)
    (h : SameMeaning (.ok (a.toSexpr i nl)) (.ok (b.toSexpr i' nl'))) :
    Alike a
      b :=
  (C20_TitleBlock a ha i nl).alike (C20_TitleBlock b hb i' nl') h
example := C68_TitleBlock sampleTitleBlock sampleTitleBlock sampleTitleBlock_wf sampleTitleBlock_wf 0 4 true false (C12_TitleBlock sampleTitleBlock sampleTitleBlock_wf 0 true 4 false)

theorem C68_Property [TextRule] (a b : Property) (ha : a.WF) (hb : b.WF) (i i' : Nat) (nl nl' : Bool)
    (h : SameMeaning (.ok (a.toSexpr i nl)) (.ok (b.toSexpr i' nl'))) :
    Alike a
      b :=
  (C20_Property a ha i nl).alike (C20_Property b hb i' nl') h
example := C68_Property sampleProperty sampleProperty sampleProperty_wf sampleProperty_wf 0 4 true false (C12_Property sampleProperty sampleProperty_wf 0 true 4 false)

theorem C68_RenderCachePolygon [TextRule] (a b : RenderCachePolygon) (ha : a.WF) (hb : b.WF) (i i' : Nat) (nl nl' : Bool)
    (h : SameMeaning (.ok (a.toSexpr i nl)) (.ok (b.toSexpr i' nl'))) :
    Alike a
      b :=
  (C20_RenderCachePolygon a ha i nl).alike (C20_RenderCachePolygon b hb i' nl') h
example := C68_RenderCachePolygon sampleRenderCachePolygon sampleRenderCachePolygon sampleRenderCachePolygon_wf sampleRenderCachePolygon_wf 0 4 true false (C12_RenderCachePolygon sampleRenderCachePolygon sampleRenderCachePolygon_wf 0 true 4 false)

theorem C68_RenderCache [TextRule] (a b : RenderCache) (ha : a.WF) (hb : b.WF) (i i' : Nat) (nl nl' : Bool)
    (h : SameMeaning (.ok (a.toSexpr i nl)) (.ok (b.toSexpr i' nl'))) :
    Alike a
      b :=
  (C20_RenderCache a ha i nl).alike (C20_RenderCache b hb i' nl') h
example := C68_RenderCache sampleRenderCache sampleRenderCache sampleRenderCache_wf sampleRenderCache_wf 0 4 true false (C12_RenderCache sampleRenderCache sampleRenderCache_wf 0 true 4 false)

theorem C68_Fill [TextRule] (a b : Fill) (ha : a.WF) (hb : b.WF) (i i' : Nat) (nl nl' : Bool)
    (h : SameMeaning (.ok (a.toSexpr i nl)) (.ok (b.toSexpr i' nl'))) :
    Alike a
      b :=
  (C20_Fill a ha i nl).alike (C20_Fill b hb i' nl') h
example := C68_Fill sampleFill sampleFill sampleFill_wf sampleFill_wf 0 4 true false (C12_Fill sampleFill sampleFill_wf 0 true 4 false)

theorem C68_Image [TextRule] (a b : Image) (ha : a.WF) (hb : b.WF) (i i' : Nat) (nl nl' : Bool)
    (h : SameMeaning (.ok (a.toSexpr i nl)) (.ok (b.toSexpr i' nl'))) :
    Alike a
      b :=
  (C20_Image a ha i nl).alike (C20_Image b hb i' nl') h
example := C68_Image sampleImage sampleImage sampleImage_wf sampleImage_wf 0 4 true false (C12_Image sampleImage sampleImage_wf 0 true 4 false)

theorem C68_Library [TextRule] (a b : Library) (ha : a.WF) (hb : b.WF) (i i' : Nat) (nl nl' : Bool)
    (h : SameMeaning (.ok (a.toSexpr i nl)) (.ok (b.toSexpr i' nl'))) :
    Alike a
      b :=
  (C13_Library a ha i nl).alike (C13_Library b hb i' nl') h
example := C68_Library sampleLibrary sampleLibrary sampleLibrary_wf sampleLibrary_wf 0 4 true false (C12_Library sampleLibrary sampleLibrary_wf 0 true 4 false)

theorem C68_LibTable [TextRule] (a b : LibTable) (ha : a.WF) (hb : b.WF) (i i' : Nat) (nl nl' : Bool)
    (h : SameMeaning (.ok (a.toSexpr i nl)) (.ok (b.toSexpr i' nl'))) :
    Alike { a with filePath := none }
      { b with filePath := none } :=
  (C13_LibTable a ha i nl).alike (C13_LibTable b hb i' nl') h
example := C68_LibTable sampleLibTable sampleLibTable sampleLibTable_wf sampleLibTable_wf 0 4 true false (C12_LibTable sampleLibTable sampleLibTable_wf 0 true 4 false)

theorem C68_Constraint [TextRule] (a b : Constraint) (ha : a.WF) (hb : b.WF) (i i' : Nat) (nl nl' : Bool)
    (h : SameMeaning (a.toSexpr i nl) (b.toSexpr i' nl')) :
    Alike a
      b :=
  (C14_Constraint a ha i nl).alike (C14_Constraint b hb i' nl') h
example := C68_Constraint sampleConstraint sampleConstraint sampleConstraint_wf sampleConstraint_wf 0 4 true false (C12_Constraint sampleConstraint sampleConstraint_wf 0 true 4 false)

theorem C68_Rule [TextRule] (a b : Rule) (ha : a.WF) (hb : b.WF) (i i' : Nat)
    (h : SameMeaning (a.toSexpr i) (b.toSexpr i')) :
    Alike a
      b :=
  (C14_Rule a ha i).alike (C14_Rule b hb i') h
example := C68_Rule sampleRule sampleRule sampleRule_wf sampleRule_wf 0 4 (C12_Rule sampleRule sampleRule_wf 0 4)

theorem C68_WksFontSize [TextRule] (a b : WksFontSize) (ha : a.WF) (hb : b.WF) (i i' : Nat) (nl nl' : Bool)
    (h : SameMeaning (.ok (a.toSexpr i nl)) (.ok (b.toSexpr i' nl'))) :
    Alike a
      b :=
  (C15_WksFontSize a ha i nl).alike (C15_WksFontSize b hb i' nl') h
example := C68_WksFontSize sampleWksFontSize sampleWksFontSize sampleWksFontSize_wf sampleWksFontSize_wf 0 4 true false (C12_WksFontSize sampleWksFontSize sampleWksFontSize_wf 0 true 4 false)

theorem C68_Bitmap [TextRule] (a b : Bitmap) (ha : a.WF) (hb : b.WF) (i i' : Nat) (nl nl' : Bool)
    (h : SameMeaning (.ok (a.toSexpr i nl)) (.ok (b.toSexpr i' nl'))) :
    Alike a
      b :=
  (C15_Bitmap a ha i nl).alike (C15_Bitmap b hb i' nl') h
example := C68_Bitmap sampleBitmap sampleBitmap sampleBitmap_wf sampleBitmap_wf 0 4 true false (C12_Bitmap sampleBitmap sampleBitmap_wf 0 true 4 false)

theorem C68_TbText [TextRule] (a b : TbText) (ha : a.WF) (hb : b.WF) (i i' : Nat) (nl nl' : Bool)
    (h : SameMeaning (.ok (a.toSexpr i nl)) (.ok (b.toSexpr i' nl'))) :
    Alike a
      b :=
  (C15_TbText a ha i nl).alike (C15_TbText b hb i' nl') h
example := C68_TbText sampleTbText sampleTbText sampleTbText_wf sampleTbText_wf 0 4 true false (C12_TbText sampleTbText sampleTbText_wf 0 true 4 false)

theorem C68_TextSize [TextRule] (a b : TextSize) (ha : a.WF) (hb : b.WF) (i i' : Nat) (nl nl' : Bool)
    (h : SameMeaning (.ok (a.toSexpr i nl)) (.ok (b.toSexpr i' nl'))) :
    Alike a
      b :=
  (C15_TextSize a ha i nl).alike (C15_TextSize b hb i' nl') h
example := C68_TextSize sampleTextSize sampleTextSize sampleTextSize_wf sampleTextSize_wf 0 4 true false (C12_TextSize sampleTextSize sampleTextSize_wf 0 true 4 false)

theorem C68_Setup [TextRule] (a b : Setup) (ha : a.WF) (hb : b.WF) (i i' : Nat) (nl nl' : Bool)
    (h : SameMeaning (.ok (a.toSexpr i nl)) (.ok (b.toSexpr i' nl'))) :
    Alike a
      b :=
  (C15_Setup a ha i nl).alike (C15_Setup b hb i' nl') h
example := C68_Setup sampleSetup sampleSetup sampleSetup_wf sampleSetup_wf 0 4 true false (C12_Setup sampleSetup sampleSetup_wf 0 true 4 false)

theorem C68_WorkSheet [TextRule] (a b : WorkSheet) (ha : a.WF) (hb : b.WF) (i i' : Nat) (nl nl' : Bool)
    (h : SameMeaning (a.toSexpr i nl) (b.toSexpr i' nl')) :
    Alike { a with filePath := none }
      { b with filePath := none } :=
  (C15_WorkSheet a ha i nl).alike (C15_WorkSheet b hb i' nl') h
example := C68_WorkSheet sampleWorkSheet sampleWorkSheet sampleWorkSheet_wf sampleWorkSheet_wf 0 4 true false (C12_WorkSheet sampleWorkSheet sampleWorkSheet_wf 0 true 4 false)

theorem C68_SyArc [TextRule] (a b : SyArc) (ha : a.WF) (hb : b.WF) (i i' : Nat) (nl nl' : Bool)
    (h : SameMeaning (.ok (a.toSexpr i nl)) (.ok (b.toSexpr i' nl'))) :
    Alike a
      b :=
  (C41_SyArc a ha i nl).alike (C41_SyArc b hb i' nl') h
example := C68_SyArc sampleSyArc sampleSyArc sampleSyArc_wf sampleSyArc_wf 0 4 true false (C12_SyArc sampleSyArc sampleSyArc_wf 0 true 4 false)

theorem C68_SyCircle [TextRule] (a b : SyCircle) (ha : a.WF) (hb : b.WF) (i i' : Nat) (nl nl' : Bool)
    (h : SameMeaning (.ok (a.toSexpr i nl)) (.ok (b.toSexpr i' nl'))) :
    Alike a
      b :=
  (C41_SyCircle a ha i nl).alike (C41_SyCircle b hb i' nl') h
example := C68_SyCircle sampleSyCircle sampleSyCircle sampleSyCircle_wf sampleSyCircle_wf 0 4 true false (C12_SyCircle sampleSyCircle sampleSyCircle_wf 0 true 4 false)

theorem C68_SyPolyLine [TextRule] (a b : SyPolyLine) (ha : a.WF) (hb : b.WF) (i i' : Nat) (nl nl' : Bool)
    (h : SameMeaning (.ok (a.toSexpr i nl)) (.ok (b.toSexpr i' nl'))) :
    Alike a
      b :=
  (C41_SyPolyLine a ha i nl).alike (C41_SyPolyLine b hb i' nl') h
example := C68_SyPolyLine sampleSyPolyLine sampleSyPolyLine sampleSyPolyLine_wf sampleSyPolyLine_wf 0 4 true false (C12_SyPolyLine sampleSyPolyLine sampleSyPolyLine_wf 0 true 4 false)

theorem C68_SyRect [TextRule] (a b : SyRect) (ha : a.WF) (hb : b.WF) (i i' : Nat) (nl nl' : Bool)
    (h : SameMeaning (.ok (a.toSexpr i nl)) (.ok (b.toSexpr i' nl'))) :
    Alike a
      b :=
  (C41_SyRect a ha i nl).alike (C41_SyRect b hb i' nl') h
example := C68_SyRect sampleSyRect sampleSyRect sampleSyRect_wf sampleSyRect_wf 0 4 true false (C12_SyRect sampleSyRect sampleSyRect_wf 0 true 4 false)

theorem C68_SyText [TextRule] (a b : SyText) (ha : a.WF) (hb : b.WF) (i i' : Nat) (nl nl' : Bool)
    (h : SameMeaning (.ok (a.toSexpr i nl)) (.ok (b.toSexpr i' nl'))) :
    Alike a
      b :=
  (C41_SyText a ha i nl).alike (C41_SyText b hb i' nl') h
example := C68_SyText sampleSyText sampleSyText sampleSyText_wf sampleSyText_wf 0 4 true false (C12_SyText sampleSyText sampleSyText_wf 0 true 4 false)

theorem C68_SyTextBox [TextRule] (a b : SyTextBox) (ha : a.WF) (hb : b.WF) (i i' : Nat) (nl nl' : Bool)
    (h : SameMeaning (.ok (a.toSexpr i nl)) (.ok (b.toSexpr i' nl'))) :
    Alike a
      b :=
  (C41_SyTextBox a ha i nl).alike (C41_SyTextBox b hb i' nl') h
example := C68_SyTextBox sampleSyTextBox sampleSyTextBox sampleSyTextBox_wf sampleSyTextBox_wf 0 4 true false (C12_SyTextBox sampleSyTextBox sampleSyTextBox_wf 0 true 4 false)

theorem C68_SymbolAlternativePin [TextRule] (a b : SymbolAlternativePin) (ha : a.WF) (hb : b.WF) (i i' : Nat) (nl nl' : Bool)
    (h : SameMeaning (.ok (a.toSexpr i nl)) (.ok (b.toSexpr i' nl'))) :
    Alike a
      b :=
  (C41_SymbolAlternativePin a ha i nl).alike (C41_SymbolAlternativePin b hb i' nl') h
example := C68_SymbolAlternativePin sampleSymbolAlternativePin sampleSymbolAlternativePin sampleSymbolAlternativePin_wf sampleSymbolAlternativePin_wf 0 4 true false (C12_SymbolAlternativePin sampleSymbolAlternativePin sampleSymbolAlternativePin_wf 0 true 4 false)

theorem C68_SymbolPin [TextRule] (a b : SymbolPin) (ha : a.WF) (hb : b.WF) (i i' : Nat) (nl nl' : Bool)
    (h : SameMeaning (.ok (a.toSexpr i nl)) (.ok (b.toSexpr i' nl'))) :
    Alike a
      b :=
  (C41_SymbolPin a ha i nl).alike (C41_SymbolPin b hb i' nl') h
example := C68_SymbolPin sampleSymbolPin sampleSymbolPin sampleSymbolPin_wf sampleSymbolPin_wf 0 4 true false (C12_SymbolPin sampleSymbolPin sampleSymbolPin_wf 0 true 4 false)

theorem C68_Symbol [TextRule] (a b : Symbol) (ha : a.WF) (hb : b.WF) (i i' : Nat) (nl nl' : Bool)
    (h : SameMeaning (.ok (a.toSexpr i nl)) (.ok (b.toSexpr i' nl'))) :
    Alike a
      b :=
  (C16_Symbol a ha i nl).alike (C16_Symbol b hb i' nl') h
example := C68_Symbol sampleSymbol sampleSymbol sampleSymbol_wf sampleSymbol_wf 0 4 true false (C12_Symbol sampleSymbol sampleSymbol_wf 0 true 4 false)

theorem C68_SymbolLib [TextRule] (a b : SymbolLib) (ha : a.WF) (hb : b.WF) (i i' : Nat) (nl nl' : Bool)
    (h : SameMeaning (.ok (a.toSexpr i nl)) (.ok (b.toSexpr i' nl'))) :
    Alike { a with filePath := none }
      { b with filePath := none } :=
  (C16_SymbolLib a ha i nl).alike (C16_SymbolLib b hb i' nl') h
example := C68_SymbolLib sampleSymbolLib sampleSymbolLib sampleSymbolLib_wf sampleSymbolLib_wf 0 4 true false (C12_SymbolLib sampleSymbolLib sampleSymbolLib_wf 0 true 4 false)

theorem C68_Junction [TextRule] (a b : Junction) (ha : a.WF) (hb : b.WF) (i i' : Nat) (nl nl' : Bool)
    (h : SameMeaning (a.toSexpr i nl) (b.toSexpr i' nl')) :
    Alike { a with diameter := .int 0 }
      { b with diameter := .int 0 } :=
  (C22_Junction_partial a ha i nl).alike (C22_Junction_partial b hb i' nl') h
example := C68_Junction sampleJunction sampleJunction sampleJunction_wf sampleJunction_wf 0 4 true false (C12_Junction sampleJunction sampleJunction_wf 0 true 4 false)

theorem C68_NoConnect [TextRule] (a b : NoConnect) (ha : a.WF) (hb : b.WF) (i i' : Nat) (nl nl' : Bool)
    (h : SameMeaning (.ok (a.toSexpr i nl)) (.ok (b.toSexpr i' nl'))) :
    Alike a
      b :=
  (C41_NoConnect a ha i nl).alike (C41_NoConnect b hb i' nl') h
example := C68_NoConnect sampleNoConnect sampleNoConnect sampleNoConnect_wf sampleNoConnect_wf 0 4 true false (C12_NoConnect sampleNoConnect sampleNoConnect_wf 0 true 4 false)

theorem C68_BusEntry [TextRule] (a b : BusEntry) (ha : a.WF) (hb : b.WF) (i i' : Nat) (nl nl' : Bool)
    (h : SameMeaning (.ok (a.toSexpr i nl)) (.ok (b.toSexpr i' nl'))) :
    Alike a
      b :=
  (C41_BusEntry a ha i nl).alike (C41_BusEntry b hb i' nl') h
example := C68_BusEntry sampleBusEntry sampleBusEntry sampleBusEntry_wf sampleBusEntry_wf 0 4 true false (C12_BusEntry sampleBusEntry sampleBusEntry_wf 0 true 4 false)

theorem C68_BusAlias [TextRule] (a b : BusAlias) (ha : a.WF) (hb : b.WF) (i i' : Nat) (nl nl' : Bool)
    (h : SameMeaning (.ok (a.toSexpr i nl)) (.ok (b.toSexpr i' nl'))) :
    Alike a
      b :=
  (C41_BusAlias a ha i nl).alike (C41_BusAlias b hb i' nl') h
example := C68_BusAlias sampleBusAlias sampleBusAlias sampleBusAlias_wf sampleBusAlias_wf 0 4 true false (C12_BusAlias sampleBusAlias sampleBusAlias_wf 0 true 4 false)

theorem C68_Connection [TextRule] (a b : Connection) (ha : a.WF) (hb : b.WF) (i i' : Nat) (nl nl' : Bool)
    (h : SameMeaning (.ok (a.toSexpr i nl)) (.ok (b.toSexpr i' nl'))) :
    Alike a
      b :=
  (C41_Connection a ha i nl).alike (C41_Connection b hb i' nl') h
example := C68_Connection sampleConnection sampleConnection sampleConnection_wf sampleConnection_wf 0 4 true false (C12_Connection sampleConnection sampleConnection_wf 0 true 4 false)

theorem C68_PolyLine [TextRule] (a b : PolyLine) (ha : a.WF) (hb : b.WF) (i i' : Nat) (nl nl' : Bool)
    (h : SameMeaning (.ok (a.toSexpr i nl)) (.ok (b.toSexpr i' nl'))) :
    Alike a
      b :=
  (C41_PolyLine a ha i nl).alike (C41_PolyLine b hb i' nl') h
example := C68_PolyLine samplePolyLine samplePolyLine samplePolyLine_wf samplePolyLine_wf 0 4 true false (C12_PolyLine samplePolyLine samplePolyLine_wf 0 true 4 false)

theorem C68_Text [TextRule] (a b : Text) (ha : a.WF) (hb : b.WF) (i i' : Nat) (nl nl' : Bool)
    (h : SameMeaning (a.toSexpr i nl) (b.toSexpr i' nl')) :
    Alike a
      b :=
  (C41_Text a ha i nl).alike (C41_Text b hb i' nl') h
example := C68_Text sampleText sampleText sampleText_wf sampleText_wf 0 4 true false (C12_Text sampleText sampleText_wf 0 true 4 false)

theorem C68_TextBox [TextRule] (a b : TextBox) (ha : a.WF) (hb : b.WF) (i i' : Nat) (nl nl' : Bool)
    (h : SameMeaning (.ok (a.toSexpr i nl)) (.ok (b.toSexpr i' nl'))) :
    Alike a
      b :=
  (C41_TextBox a ha i nl).alike (C41_TextBox b hb i' nl') h
example := C68_TextBox sampleTextBox sampleTextBox sampleTextBox_wf sampleTextBox_wf 0 4 true false (C12_TextBox sampleTextBox sampleTextBox_wf 0 true 4 false)

theorem C68_LocalLabel [TextRule] (a b : LocalLabel) (ha : a.WF) (hb : b.WF) (i i' : Nat) (nl nl' : Bool)
    (h : SameMeaning (.ok (a.toSexpr i nl)) (.ok (b.toSexpr i' nl'))) :
    Alike a
      b :=
  (C41_LocalLabel a ha i nl).alike (C41_LocalLabel b hb i' nl') h
example := C68_LocalLabel sampleLocalLabel sampleLocalLabel sampleLocalLabel_wf sampleLocalLabel_wf 0 4 true false (C12_LocalLabel sampleLocalLabel sampleLocalLabel_wf 0 true 4 false)

theorem C68_GlobalLabel [TextRule] (a b : GlobalLabel) (ha : a.WF) (hb : b.WF) (i i' : Nat) (nl nl' : Bool)
    (h : SameMeaning (.ok (a.toSexpr i nl)) (.ok (b.toSexpr i' nl'))) :
    Alike a
      b :=
  (C41_GlobalLabel a ha i nl).alike (C41_GlobalLabel b hb i' nl') h
example := C68_GlobalLabel sampleGlobalLabel sampleGlobalLabel sampleGlobalLabel_wf sampleGlobalLabel_wf 0 4 true false (C12_GlobalLabel sampleGlobalLabel sampleGlobalLabel_wf 0 true 4 false)

theorem C68_HierarchicalLabel [TextRule] (a b : HierarchicalLabel) (ha : a.WF) (hb : b.WF) (i i' : Nat) (nl nl' : Bool)
    (h : SameMeaning (.ok (a.toSexpr i nl)) (.ok (b.toSexpr i' nl'))) :
    Alike a
      b :=
  (C41_HierarchicalLabel a ha i nl).alike (C41_HierarchicalLabel b hb i' nl') h
example := C68_HierarchicalLabel sampleHierarchicalLabel sampleHierarchicalLabel sampleHierarchicalLabel_wf sampleHierarchicalLabel_wf 0 4 true false (C12_HierarchicalLabel sampleHierarchicalLabel sampleHierarchicalLabel_wf 0 true 4 false)

theorem C68_SymbolProjectPath [TextRule] (a b : SymbolProjectPath) (ha : a.WF) (hb : b.WF) (i i' : Nat) (nl nl' : Bool)
    (h : SameMeaning (.ok (a.toSexpr i nl)) (.ok (b.toSexpr i' nl'))) :
    Alike a
      b :=
  (C41_SymbolProjectPath a ha i nl).alike (C41_SymbolProjectPath b hb i' nl') h
example := C68_SymbolProjectPath sampleSymbolProjectPath sampleSymbolProjectPath sampleSymbolProjectPath_wf sampleSymbolProjectPath_wf 0 4 true false (C12_SymbolProjectPath sampleSymbolProjectPath sampleSymbolProjectPath_wf 0 true 4 false)

theorem C68_SymbolProjectInstance [TextRule] (a b : SymbolProjectInstance) (ha : a.WF) (hb : b.WF) (i i' : Nat) (nl nl' : Bool)
    (h : SameMeaning (.ok (a.toSexpr i nl)) (.ok (b.toSexpr i' nl'))) :
    Alike a
      b :=
  (C41_SymbolProjectInstance a ha i nl).alike (C41_SymbolProjectInstance b hb i' nl') h
example := C68_SymbolProjectInstance sampleSymbolProjectInstance sampleSymbolProjectInstance sampleSymbolProjectInstance_wf sampleSymbolProjectInstance_wf 0 4 true false (C12_SymbolProjectInstance sampleSymbolProjectInstance sampleSymbolProjectInstance_wf 0 true 4 false)

theorem C68_SchematicSymbol [TextRule] (a b : SchematicSymbol) (ha : a.WF) (hb : b.WF) (i i' : Nat) (nl nl' : Bool)
    (h : SameMeaning (.ok (a.toSexpr i nl)) (.ok (b.toSexpr i' nl'))) :
    Alike a
      b :=
  (C41_SchematicSymbol a ha i nl).alike (C41_SchematicSymbol b hb i' nl') h
example := C68_SchematicSymbol sampleSchematicSymbol sampleSchematicSymbol sampleSchematicSymbol_wf sampleSchematicSymbol_wf 0 4 true false (C12_SchematicSymbol sampleSchematicSymbol sampleSchematicSymbol_wf 0 true 4 false)

theorem C68_HierarchicalPin [TextRule] (a b : HierarchicalPin) (ha : a.WF) (hb : b.WF) (i i' : Nat) (nl nl' : Bool)
    (h : SameMeaning (.ok (a.toSexpr i nl)) (.ok (b.toSexpr i' nl'))) :
    Alike a
      b :=
  (C41_HierarchicalPin a ha i nl).alike (C41_HierarchicalPin b hb i' nl') h
example := C68_HierarchicalPin sampleHierarchicalPin sampleHierarchicalPin sampleHierarchicalPin_wf sampleHierarchicalPin_wf 0 4 true false (C12_HierarchicalPin sampleHierarchicalPin sampleHierarchicalPin_wf 0 true 4 false)

theorem C68_HierarchicalSheetProjectPath [TextRule] (a b : HierarchicalSheetProjectPath) (ha : a.WF) (hb : b.WF) (i i' : Nat) (nl nl' : Bool)
    (h : SameMeaning (.ok (a.toSexpr i nl)) (.ok (b.toSexpr i' nl'))) :
    Alike a
      b :=
  (C41_HierarchicalSheetProjectPath a ha i nl).alike (C41_HierarchicalSheetProjectPath b hb i' nl') h
example := C68_HierarchicalSheetProjectPath sampleHierarchicalSheetProjectPath sampleHierarchicalSheetProjectPath sampleHierarchicalSheetProjectPath_wf sampleHierarchicalSheetProjectPath_wf 0 4 true false (C12_HierarchicalSheetProjectPath sampleHierarchicalSheetProjectPath sampleHierarchicalSheetProjectPath_wf 0 true 4 false)

theorem C68_HierarchicalSheetProjectInstance [TextRule] (a b : HierarchicalSheetProjectInstance) (ha : a.WF) (hb : b.WF) (i i' : Nat) (nl nl' : Bool)
    (h : SameMeaning (.ok (a.toSexpr i nl)) (.ok (b.toSexpr i' nl'))) :
    Alike a
      b :=
  (C41_HierarchicalSheetProjectInstance a ha i nl).alike (C41_HierarchicalSheetProjectInstance b hb i' nl') h
example := C68_HierarchicalSheetProjectInstance sampleHierarchicalSheetProjectInstance sampleHierarchicalSheetProjectInstance sampleHierarchicalSheetProjectInstance_wf sampleHierarchicalSheetProjectInstance_wf 0 4 true false (C12_HierarchicalSheetProjectInstance sampleHierarchicalSheetProjectInstance sampleHierarchicalSheetProjectInstance_wf 0 true 4 false)

theorem C68_HierarchicalSheet [TextRule] (a b : HierarchicalSheet) (ha : a.WF) (hb : b.WF) (i i' : Nat) (nl nl' : Bool)
    (h : SameMeaning (a.toSexpr i nl) (b.toSexpr i' nl')) :
    Alike { a with fill := { a.fill with precision := some 4 } }
      { b with fill := { b.fill with precision := some 4 } } :=
  (C41_HierarchicalSheet a ha i nl).alike (C41_HierarchicalSheet b hb i' nl') h
example := C68_HierarchicalSheet sampleHierarchicalSheet sampleHierarchicalSheet sampleHierarchicalSheet_wf sampleHierarchicalSheet_wf 0 4 true false (C12_HierarchicalSheet sampleHierarchicalSheet sampleHierarchicalSheet_wf 0 true 4 false)

theorem C68_HierarchicalSheetInstance [TextRule] (a b : HierarchicalSheetInstance) (ha : a.WF) (hb : b.WF) (i i' : Nat) (nl nl' : Bool)
    (h : SameMeaning (.ok (a.toSexpr i nl)) (.ok (b.toSexpr i' nl'))) :
    Alike a
      b :=
  (C41_HierarchicalSheetInstance a ha i nl).alike (C41_HierarchicalSheetInstance b hb i' nl') h
example := C68_HierarchicalSheetInstance sampleHierarchicalSheetInstance sampleHierarchicalSheetInstance sampleHierarchicalSheetInstance_wf sampleHierarchicalSheetInstance_wf 0 4 true false (C12_HierarchicalSheetInstance sampleHierarchicalSheetInstance sampleHierarchicalSheetInstance_wf 0 true 4 false)

theorem C68_SymbolInstance [TextRule] (a b : SymbolInstance) (ha : a.WF) (hb : b.WF) (i i' : Nat) (nl nl' : Bool)
    (h : SameMeaning (.ok (a.toSexpr i nl)) (.ok (b.toSexpr i' nl'))) :
    Alike a
      b :=
  (C41_SymbolInstance a ha i nl).alike (C41_SymbolInstance b hb i' nl') h
example := C68_SymbolInstance sampleSymbolInstance sampleSymbolInstance sampleSymbolInstance_wf sampleSymbolInstance_wf 0 4 true false (C12_SymbolInstance sampleSymbolInstance sampleSymbolInstance_wf 0 true 4 false)

theorem C68_Rectangle [TextRule] (a b : Rectangle) (ha : a.WF) (hb : b.WF) (i i' : Nat) (nl nl' : Bool)
    (h : SameMeaning (.ok (a.toSexpr i nl)) (.ok (b.toSexpr i' nl'))) :
    Alike a
      b :=
  (C41_Rectangle a ha i nl).alike (C41_Rectangle b hb i' nl') h
example := C68_Rectangle sampleRectangle sampleRectangle sampleRectangle_wf sampleRectangle_wf 0 4 true false (C12_Rectangle sampleRectangle sampleRectangle_wf 0 true 4 false)

theorem C68_Arc [TextRule] (a b : Arc) (ha : a.WF) (hb : b.WF) (i i' : Nat) (nl nl' : Bool)
    (h : SameMeaning (.ok (a.toSexpr i nl)) (.ok (b.toSexpr i' nl'))) :
    Alike a
      b :=
  (C41_Arc a ha i nl).alike (C41_Arc b hb i' nl') h
example := C68_Arc sampleArc sampleArc sampleArc_wf sampleArc_wf 0 4 true false (C12_Arc sampleArc sampleArc_wf 0 true 4 false)

theorem C68_Circle [TextRule] (a b : Circle) (ha : a.WF) (hb : b.WF) (i i' : Nat) (nl nl' : Bool)
    (h : SameMeaning (.ok (a.toSexpr i nl)) (.ok (b.toSexpr i' nl'))) :
    Alike a
      b :=
  (C41_Circle a ha i nl).alike (C41_Circle b hb i' nl') h
example := C68_Circle sampleCircle sampleCircle sampleCircle_wf sampleCircle_wf 0 4 true false (C12_Circle sampleCircle sampleCircle_wf 0 true 4 false)

theorem C68_NetclassFlag [TextRule] (a b : NetclassFlag) (ha : a.WF) (hb : b.WF) (i i' : Nat) (nl nl' : Bool)
    (h : SameMeaning (a.toSexpr i nl) (b.toSexpr i' nl')) :
    Alike a
      b :=
  (C41_NetclassFlag a ha i nl).alike (C41_NetclassFlag b hb i' nl') h
example := C68_NetclassFlag sampleNetclassFlag sampleNetclassFlag sampleNetclassFlag_wf sampleNetclassFlag_wf 0 4 true false (C12_NetclassFlag sampleNetclassFlag sampleNetclassFlag_wf 0 true 4 false)

theorem C68_Schematic [TextRule] (a b : Schematic) (ha : a.WF) (hb : b.WF) (i i' : Nat) (nl nl' : Bool)
    (h : SameMeaning (a.toSexpr i nl) (b.toSexpr i' nl')) :
    Alike (α := Schematic) { a with junctions := a.junctions.map fun j => { j with diameter := .int 0 }, sheets := a.sheets.map fun s => { s with fill := { s.fill with precision := some 4 } }, filePath := none }
      { b with junctions := b.junctions.map fun j => { j with diameter := .int 0 }, sheets := b.sheets.map fun s => { s with fill := { s.fill with precision := some 4 } }, filePath := none } :=
  (C17_Schematic a ha i nl).alike (C17_Schematic b hb i' nl') h
example := C68_Schematic sampleSchematic sampleSchematic sampleSchematic_wf sampleSchematic_wf 0 4 true false (C12_Schematic sampleSchematic sampleSchematic_wf 0 true 4 false)

theorem C68_GrText [TextRule] (a b : GrText) (ha : a.WF) (hb : b.WF) (i i' : Nat) (nl nl' : Bool)
    (h : SameMeaning (.ok (a.toSexpr i nl)) (.ok (b.toSexpr i' nl'))) :
    Alike a
      b :=
  (C41_GrText a ha i nl).alike (C41_GrText b hb i' nl') h
example := C68_GrText sampleGrText sampleGrText sampleGrText_wf sampleGrText_wf 0 4 true false (C12_GrText sampleGrText sampleGrText_wf 0 true 4 false)

theorem C68_GrTextBox [TextRule] (a b : GrTextBox) (ha : a.WF) (hb : b.WF) (i i' : Nat) (nl nl' : Bool)
    (h : SameMeaning (a.toSexpr i nl) (b.toSexpr i' nl')) :
    Alike a
      b :=
  (C41_GrTextBox a ha i nl).alike (C41_GrTextBox b hb i' nl') h
example := C68_GrTextBox sampleGrTextBox sampleGrTextBox sampleGrTextBox_wf sampleGrTextBox_wf 0 4 true false (C12_GrTextBox sampleGrTextBox sampleGrTextBox_wf 0 true 4 false)

theorem C68_GrLine [TextRule] (a b : GrLine) (ha : a.WF) (hb : b.WF) (i i' : Nat) (nl nl' : Bool)
    (h : SameMeaning (.ok (a.toSexpr i nl)) (.ok (b.toSexpr i' nl'))) :
    Alike a
      b :=
  (C41_GrLine a ha i nl).alike (C41_GrLine b hb i' nl') h
example := C68_GrLine sampleGrLine sampleGrLine sampleGrLine_wf sampleGrLine_wf 0 4 true false (C12_GrLine sampleGrLine sampleGrLine_wf 0 true 4 false)

theorem C68_GrRect [TextRule] (a b : GrRect) (ha : a.WF) (hb : b.WF) (i i' : Nat) (nl nl' : Bool)
    (h : SameMeaning (.ok (a.toSexpr i nl)) (.ok (b.toSexpr i' nl'))) :
    Alike a
      b :=
  (C41_GrRect a ha i nl).alike (C41_GrRect b hb i' nl') h
example := C68_GrRect sampleGrRect sampleGrRect sampleGrRect_wf sampleGrRect_wf 0 4 true false (C12_GrRect sampleGrRect sampleGrRect_wf 0 true 4 false)

theorem C68_GrCircle [TextRule] (a b : GrCircle) (ha : a.WF) (hb : b.WF) (i i' : Nat) (nl nl' : Bool)
    (h : SameMeaning (.ok (a.toSexpr i nl)) (.ok (b.toSexpr i' nl'))) :
    Alike a
      b :=
  (C41_GrCircle a ha i nl).alike (C41_GrCircle b hb i' nl') h
example := C68_GrCircle sampleGrCircle sampleGrCircle sampleGrCircle_wf sampleGrCircle_wf 0 4 true false (C12_GrCircle sampleGrCircle sampleGrCircle_wf 0 true 4 false)

theorem C68_GrArc [TextRule] (a b : GrArc) (ha : a.WF) (hb : b.WF) (i i' : Nat) (nl nl' : Bool)
    (h : SameMeaning (.ok (a.toSexpr i nl)) (.ok (b.toSexpr i' nl'))) :
    Alike a
      b :=
  (C41_GrArc a ha i nl).alike (C41_GrArc b hb i' nl') h
example := C68_GrArc sampleGrArc sampleGrArc sampleGrArc_wf sampleGrArc_wf 0 4 true false (C12_GrArc sampleGrArc sampleGrArc_wf 0 true 4 false)

theorem C68_GrPoly [TextRule] (a b : GrPoly) (ha : a.WF) (hb : b.WF) (i i' : Nat) (nl nl' : Bool) (pn pn' : Bool)
    (h : SameMeaning (.ok (a.toSexpr i nl pn)) (.ok (b.toSexpr i' nl' pn'))) :
    Alike a
      b :=
  (C41_GrPoly a ha i nl pn).alike (C41_GrPoly b hb i' nl' pn') h
example := C68_GrPoly sampleGrPoly sampleGrPoly sampleGrPoly_wf sampleGrPoly_wf 0 4 true false true false (C12_GrPoly sampleGrPoly sampleGrPoly_wf 0 true true 4 false false)

theorem C68_GrCurve [TextRule] (a b : GrCurve) (ha : a.WF) (hb : b.WF) (i i' : Nat) (nl nl' : Bool)
    (h : SameMeaning (.ok (a.toSexpr i nl)) (.ok (b.toSexpr i' nl'))) :
    Alike a
      b :=
  (C41_GrCurve a ha i nl).alike (C41_GrCurve b hb i' nl') h
example := C68_GrCurve sampleGrCurve sampleGrCurve sampleGrCurve_wf sampleGrCurve_wf 0 4 true false (C12_GrCurve sampleGrCurve sampleGrCurve_wf 0 true 4 false)

theorem C68_FpText [TextRule] (a b : FpText) (ha : a.WF) (hb : b.WF) (i i' : Nat) (nl nl' : Bool)
    (h : SameMeaning (.ok (a.toSexpr i nl)) (.ok (b.toSexpr i' nl'))) :
    Alike a
      b :=
  (C41_FpText a ha i nl).alike (C41_FpText b hb i' nl') h
example := C68_FpText sampleFpText sampleFpText sampleFpText_wf sampleFpText_wf 0 4 true false (C12_FpText sampleFpText sampleFpText_wf 0 true 4 false)

theorem C68_FpLine [TextRule] (a b : FpLine) (ha : a.WF) (hb : b.WF) (i i' : Nat) (nl nl' : Bool)
    (h : SameMeaning (.ok (a.toSexpr i nl)) (.ok (b.toSexpr i' nl'))) :
    Alike a
      b :=
  (C41_FpLine a ha i nl).alike (C41_FpLine b hb i' nl') h
example := C68_FpLine sampleFpLine sampleFpLine sampleFpLine_wf sampleFpLine_wf 0 4 true false (C12_FpLine sampleFpLine sampleFpLine_wf 0 true 4 false)

theorem C68_FpRect [TextRule] (a b : FpRect) (ha : a.WF) (hb : b.WF) (i i' : Nat) (nl nl' : Bool)
    (h : SameMeaning (.ok (a.toSexpr i nl)) (.ok (b.toSexpr i' nl'))) :
    Alike a
      b :=
  (C41_FpRect a ha i nl).alike (C41_FpRect b hb i' nl') h
example := C68_FpRect sampleFpRect sampleFpRect sampleFpRect_wf sampleFpRect_wf 0 4 true false (C12_FpRect sampleFpRect sampleFpRect_wf 0 true 4 false)

theorem C68_FpTextBox [TextRule] (a b : FpTextBox) (ha : a.WF) (hb : b.WF) (i i' : Nat) (nl nl' : Bool)
    (h : SameMeaning (a.toSexpr i nl) (b.toSexpr i' nl')) :
    Alike a
      b :=
  (C41_FpTextBox a ha i nl).alike (C41_FpTextBox b hb i' nl') h
example := C68_FpTextBox sampleFpTextBox sampleFpTextBox sampleFpTextBox_wf sampleFpTextBox_wf 0 4 true false (C12_FpTextBox sampleFpTextBox sampleFpTextBox_wf 0 true 4 false)

theorem C68_FpCircle [TextRule] (a b : FpCircle) (ha : a.WF) (hb : b.WF) (i i' : Nat) (nl nl' : Bool)
    (h : SameMeaning (.ok (a.toSexpr i nl)) (.ok (b.toSexpr i' nl'))) :
    Alike a
      b :=
  (C41_FpCircle a ha i nl).alike (C41_FpCircle b hb i' nl') h
example := C68_FpCircle sampleFpCircle sampleFpCircle sampleFpCircle_wf sampleFpCircle_wf 0 4 true false (C12_FpCircle sampleFpCircle sampleFpCircle_wf 0 true 4 false)

theorem C68_FpArc [TextRule] (a b : FpArc) (ha : a.WF) (hb : b.WF) (i i' : Nat) (nl nl' : Bool)
    (h : SameMeaning (.ok (a.toSexpr i nl)) (.ok (b.toSexpr i' nl'))) :
    Alike a
      b :=
  (C41_FpArc a ha i nl).alike (C41_FpArc b hb i' nl') h
example := C68_FpArc sampleFpArc sampleFpArc sampleFpArc_wf sampleFpArc_wf 0 4 true false (C12_FpArc sampleFpArc sampleFpArc_wf 0 true 4 false)

theorem C68_FpPoly [TextRule] (a b : FpPoly) (ha : a.WF) (hb : b.WF) (i i' : Nat) (nl nl' : Bool)
    (h : SameMeaning (.ok (a.toSexpr i nl)) (.ok (b.toSexpr i' nl'))) :
    Alike a
      b :=
  (C41_FpPoly a ha i nl).alike (C41_FpPoly b hb i' nl') h
example := C68_FpPoly sampleFpPoly sampleFpPoly sampleFpPoly_wf sampleFpPoly_wf 0 4 true false (C12_FpPoly sampleFpPoly sampleFpPoly_wf 0 true 4 false)

theorem C68_FpCurve [TextRule] (a b : FpCurve) (ha : a.WF) (hb : b.WF) (i i' : Nat) (nl nl' : Bool)
    (h : SameMeaning (.ok (a.toSexpr i nl)) (.ok (b.toSexpr i' nl'))) :
    Alike a
      b :=
  (C41_FpCurve a ha i nl).alike (C41_FpCurve b hb i' nl') h
example := C68_FpCurve sampleFpCurve sampleFpCurve sampleFpCurve_wf sampleFpCurve_wf 0 4 true false (C12_FpCurve sampleFpCurve sampleFpCurve_wf 0 true 4 false)

theorem C68_KeepoutSettings [TextRule] (a b : KeepoutSettings) (ha : a.WF) (hb : b.WF) (i i' : Nat) (nl nl' : Bool)
    (h : SameMeaning (.ok (a.toSexpr i nl)) (.ok (b.toSexpr i' nl'))) :
    Alike a
      b :=
  (C41_KeepoutSettings a ha i nl).alike (C41_KeepoutSettings b hb i' nl') h
example := C68_KeepoutSettings sampleKeepoutSettings sampleKeepoutSettings sampleKeepoutSettings_wf sampleKeepoutSettings_wf 0 4 true false (C12_KeepoutSettings sampleKeepoutSettings sampleKeepoutSettings_wf 0 true 4 false)

theorem C68_FillSettings [TextRule] (a b : FillSettings) (ha : a.WF) (hb : b.WF) (i i' : Nat) (nl nl' : Bool)
    (h : SameMeaning (.ok (a.toSexpr i nl)) (.ok (b.toSexpr i' nl'))) :
    Alike a
      b :=
  (C41_FillSettings a ha i nl).alike (C41_FillSettings b hb i' nl') h
example := C68_FillSettings sampleFillSettings sampleFillSettings sampleFillSettings_wf sampleFillSettings_wf 0 4 true false (C12_FillSettings sampleFillSettings sampleFillSettings_wf 0 true 4 false)

theorem C68_ZonePolygon [TextRule] (a b : ZonePolygon) (ha : a.WF) (hb : b.WF) (i i' : Nat) (nl nl' : Bool)
    (h : SameMeaning (.ok (a.toSexpr i nl)) (.ok (b.toSexpr i' nl'))) :
    Alike a
      b :=
  (C41_ZonePolygon a ha i nl).alike (C41_ZonePolygon b hb i' nl') h
example := C68_ZonePolygon sampleZonePolygon sampleZonePolygon sampleZonePolygon_wf sampleZonePolygon_wf 0 4 true false (C12_ZonePolygon sampleZonePolygon sampleZonePolygon_wf 0 true 4 false)

theorem C68_FilledPolygon [TextRule] (a b : FilledPolygon) (ha : a.WF) (hb : b.WF) (i i' : Nat) (nl nl' : Bool)
    (h : SameMeaning (.ok (a.toSexpr i nl)) (.ok (b.toSexpr i' nl'))) :
    Alike a
      b :=
  (C41_FilledPolygon a ha i nl).alike (C41_FilledPolygon b hb i' nl') h
example := C68_FilledPolygon sampleFilledPolygon sampleFilledPolygon sampleFilledPolygon_wf sampleFilledPolygon_wf 0 4 true false (C12_FilledPolygon sampleFilledPolygon sampleFilledPolygon_wf 0 true 4 false)

theorem C68_FillSegments [TextRule] (a b : FillSegments) (ha : a.WF) (hb : b.WF) (i i' : Nat) (nl nl' : Bool)
    (h : SameMeaning (.ok (a.toSexpr i nl)) (.ok (b.toSexpr i' nl'))) :
    Alike a
      b :=
  (C41_FillSegments a ha i nl).alike (C41_FillSegments b hb i' nl') h
example := C68_FillSegments sampleFillSegments sampleFillSegments sampleFillSegments_wf sampleFillSegments_wf 0 4 true false (C12_FillSegments sampleFillSegments sampleFillSegments_wf 0 true 4 false)

theorem C68_Zone [TextRule] (a b : Zone) (ha : a.WF) (hb : b.WF) (i i' : Nat) (nl nl' : Bool)
    (h : SameMeaning (a.toSexpr i nl) (b.toSexpr i' nl')) :
    Alike a
      b :=
  (C41_Zone a ha i nl).alike (C41_Zone b hb i' nl') h
example := C68_Zone sampleZone sampleZone sampleZone_wf sampleZone_wf 0 4 true false (C12_Zone sampleZone sampleZone_wf 0 true 4 false)

theorem C68_Attributes [TextRule] (a b : Attributes) (ha : a.WF) (hb : b.WF) (ha' : a.isDefault = false) (hb' : b.isDefault = false) (i i' : Nat) (nl nl' : Bool)
    (h : SameMeaning (.ok (a.toSexpr i nl)) (.ok (b.toSexpr i' nl'))) :
    Alike a
      b :=
  (C41_Attributes a ha ha' i nl).alike (C41_Attributes b hb hb' i' nl') h
example := C68_Attributes sampleAttributes sampleAttributes sampleAttributes_wf sampleAttributes_wf rfl rfl 0 4 true false (C12_Attributes sampleAttributes sampleAttributes_wf rfl 0 true 4 false)

theorem C68_Model [TextRule] (a b : Model) (ha : a.WF) (hb : b.WF) (i i' : Nat) (nl nl' : Bool)
    (h : SameMeaning (.ok (a.toSexpr i nl)) (.ok (b.toSexpr i' nl'))) :
    Alike a
      b :=
  (C41_Model a ha i nl).alike (C41_Model b hb i' nl') h
example := C68_Model sampleModel sampleModel sampleModel_wf sampleModel_wf 0 4 true false (C12_Model sampleModel sampleModel_wf 0 true 4 false)

theorem C68_DrillDefinition [TextRule] (a b : DrillDefinition) (ha : a.WF) (hb : b.WF) (i i' : Nat) (nl nl' : Bool)
    (h : SameMeaning (.ok (a.toSexpr i nl)) (.ok (b.toSexpr i' nl'))) :
    Alike a
      b :=
  (C41_DrillDefinition a ha i nl).alike (C41_DrillDefinition b hb i' nl') h
example := C68_DrillDefinition sampleDrillDefinition sampleDrillDefinition sampleDrillDefinition_wf sampleDrillDefinition_wf 0 4 true false (C12_DrillDefinition sampleDrillDefinition sampleDrillDefinition_wf 0 true 4 false)

theorem C68_PadOptions [TextRule] (a b : PadOptions) (ha : a.WF) (hb : b.WF) (i i' : Nat) (nl nl' : Bool)
    (h : SameMeaning (.ok (a.toSexpr i nl)) (.ok (b.toSexpr i' nl'))) :
    Alike a
      b :=
  (C41_PadOptions a ha i nl).alike (C41_PadOptions b hb i' nl') h
example := C68_PadOptions samplePadOptions samplePadOptions samplePadOptions_wf samplePadOptions_wf 0 4 true false (C12_PadOptions samplePadOptions samplePadOptions_wf 0 true 4 false)

theorem C68_Pad [TextRule] (a b : Pad) (ha : a.WF) (hb : b.WF) (i i' : Nat) (nl nl' : Bool)
    (h : SameMeaning (a.toSexpr i nl) (b.toSexpr i' nl')) :
    Alike a
      b :=
  (C41_Pad a ha i nl).alike (C41_Pad b hb i' nl') h
example := C68_Pad samplePad samplePad samplePad_wf samplePad_wf 0 4 true false (C12_Pad samplePad samplePad_wf 0 true 4 false)

theorem C68_Footprint [TextRule] (a b : Footprint) (ha : a.WF) (hb : b.WF) (i i' : Nat) (nl nl' : Bool) (lf lf' : Bool)
    (h : SameMeaning (a.toSexpr i nl lf) (b.toSexpr i' nl' lf')) :
    Alike { a with filePath := none }
      { b with filePath := none } :=
  (C18_Footprint a ha (.int 0) i nl lf).alike (C18_Footprint b hb (.int 0) i' nl' lf') h
example := C68_Footprint sampleFootprint sampleFootprint sampleFootprint_wf sampleFootprint_wf 0 4 true false true false (C12_Footprint sampleFootprint sampleFootprint_wf 0 true true 4 false false)

theorem C68_GeneralSettings [TextRule] (a b : GeneralSettings) (ha : a.WF) (hb : b.WF) (i i' : Nat) (nl nl' : Bool)
    (h : SameMeaning (.ok (a.toSexpr i nl)) (.ok (b.toSexpr i' nl'))) :
    Alike a
      b :=
  (C41_GeneralSettings a ha i nl).alike (C41_GeneralSettings b hb i' nl') h
example := C68_GeneralSettings sampleGeneralSettings sampleGeneralSettings sampleGeneralSettings_wf sampleGeneralSettings_wf 0 4 true false (C12_GeneralSettings sampleGeneralSettings sampleGeneralSettings_wf 0 true 4 false)

theorem C68_LayerToken [TextRule] (a b : LayerToken) (ha : a.WF) (hb : b.WF) (i i' : Nat) (nl nl' : Bool)
    (h : SameMeaning (.ok (a.toSexpr i nl)) (.ok (b.toSexpr i' nl'))) :
    Alike a
      b :=
  (C41_LayerToken a ha i nl).alike (C41_LayerToken b hb i' nl') h
example := C68_LayerToken sampleLayerToken sampleLayerToken sampleLayerToken_wf sampleLayerToken_wf 0 4 true false (C12_LayerToken sampleLayerToken sampleLayerToken_wf 0 true 4 false)

theorem C68_StackupLayer [TextRule] (a b : StackupLayer) (ha : a.WF) (hb : b.WF) (i i' : Nat) (nl nl' : Bool)
    (h : SameMeaning (.ok (a.toSexpr i nl)) (.ok (b.toSexpr i' nl'))) :
    Alike a
      b :=
  (C41_StackupLayer a ha i nl).alike (C41_StackupLayer b hb i' nl') h
example := C68_StackupLayer sampleStackupLayer sampleStackupLayer sampleStackupLayer_wf sampleStackupLayer_wf 0 4 true false (C12_StackupLayer sampleStackupLayer sampleStackupLayer_wf 0 true 4 false)

theorem C68_Stackup [TextRule] (a b : Stackup) (ha : a.WF) (hb : b.WF) (i i' : Nat) (nl nl' : Bool)
    (h : SameMeaning (.ok (a.toSexpr i nl)) (.ok (b.toSexpr i' nl'))) :
    Alike a
      b :=
  (C41_Stackup a ha i nl).alike (C41_Stackup b hb i' nl') h
example := C68_Stackup sampleStackup sampleStackup sampleStackup_wf sampleStackup_wf 0 4 true false (C12_Stackup sampleStackup sampleStackup_wf 0 true 4 false)

theorem C68_PlotSettings [TextRule] (a b : PlotSettings) (ha : a.WF) (hb : b.WF) (i i' : Nat) (nl nl' : Bool)
    (h : SameMeaning (a.toSexpr i nl) (b.toSexpr i' nl')) :
    Alike { a with useAuxOrigin := false }
      { b with useAuxOrigin := false } :=
  (C40_PlotSettings_partial a ha i nl).alike (C40_PlotSettings_partial b hb i' nl') h
example := C68_PlotSettings samplePlotSettings samplePlotSettings samplePlotSettings_wf samplePlotSettings_wf 0 4 true false (C12_PlotSettings samplePlotSettings samplePlotSettings_wf 0 true 4 false)

theorem C68_SetupData [TextRule] (a b : SetupData) (ha : a.WF) (hb : b.WF) (i i' : Nat) (nl nl' : Bool)
    (h : SameMeaning (a.toSexpr i nl) (b.toSexpr i' nl')) :
    Alike (α := SetupData) { a with plotSettings := a.plotSettings.map fun p => { p with useAuxOrigin := false } }
      { b with plotSettings := b.plotSettings.map fun p => { p with useAuxOrigin := false } } :=
  (C41_SetupData a ha i nl).alike (C41_SetupData b hb i' nl') h
example := C68_SetupData sampleSetupData sampleSetupData sampleSetupData_wf sampleSetupData_wf 0 4 true false (C12_SetupData sampleSetupData sampleSetupData_wf 0 true 4 false)

theorem C68_Segment [TextRule] (a b : Segment) (ha : a.WF) (hb : b.WF) (i i' : Nat) (nl nl' : Bool)
    (h : SameMeaning (.ok (a.toSexpr i nl)) (.ok (b.toSexpr i' nl'))) :
    Alike a
      b :=
  (C41_Segment a ha i nl).alike (C41_Segment b hb i' nl') h
example := C68_Segment sampleSegment sampleSegment sampleSegment_wf sampleSegment_wf 0 4 true false (C12_Segment sampleSegment sampleSegment_wf 0 true 4 false)

theorem C68_Via [TextRule] (a b : Via) (ha : a.WF) (hb : b.WF) (i i' : Nat) (nl nl' : Bool)
    (h : SameMeaning (.ok (a.toSexpr i nl)) (.ok (b.toSexpr i' nl'))) :
    Alike a
      b :=
  (C41_Via a ha i nl).alike (C41_Via b hb i' nl') h
example := C68_Via sampleVia sampleVia sampleVia_wf sampleVia_wf 0 4 true false (C12_Via sampleVia sampleVia_wf 0 true 4 false)

theorem C68_TraceArc [TextRule] (a b : TraceArc) (ha : a.WF) (hb : b.WF) (i i' : Nat) (nl nl' : Bool)
    (h : SameMeaning (.ok (a.toSexpr i nl)) (.ok (b.toSexpr i' nl'))) :
    Alike a
      b :=
  (C41_TraceArc a ha i nl).alike (C41_TraceArc b hb i' nl') h
example := C68_TraceArc sampleTraceArc sampleTraceArc sampleTraceArc_wf sampleTraceArc_wf 0 4 true false (C12_TraceArc sampleTraceArc sampleTraceArc_wf 0 true 4 false)

theorem C68_Target [TextRule] (a b : Target) (ha : a.WF) (hb : b.WF) (i i' : Nat) (nl nl' : Bool)
    (h : SameMeaning (.ok (a.toSexpr i nl)) (.ok (b.toSexpr i' nl'))) :
    Alike a
      b :=
  (C41_Target a ha i nl).alike (C41_Target b hb i' nl') h
example := C68_Target sampleTarget sampleTarget sampleTarget_wf sampleTarget_wf 0 4 true false (C12_Target sampleTarget sampleTarget_wf 0 true 4 false)

theorem C68_DimensionFormat [TextRule] (a b : DimensionFormat) (ha : a.WF) (hb : b.WF) (i i' : Nat) (nl nl' : Bool)
    (h : SameMeaning (.ok (a.toSexpr i nl)) (.ok (b.toSexpr i' nl'))) :
    Alike a
      b :=
  (C41_DimensionFormat a ha i nl).alike (C41_DimensionFormat b hb i' nl') h
example := C68_DimensionFormat sampleDimensionFormat sampleDimensionFormat sampleDimensionFormat_wf sampleDimensionFormat_wf 0 4 true false (C12_DimensionFormat sampleDimensionFormat sampleDimensionFormat_wf 0 true 4 false)

theorem C68_DimensionStyle [TextRule] (a b : DimensionStyle) (ha : a.WF) (hb : b.WF) (i i' : Nat) (nl nl' : Bool)
    (h : SameMeaning (.ok (a.toSexpr i nl)) (.ok (b.toSexpr i' nl'))) :
    Alike a
      b :=
  (C41_DimensionStyle a ha i nl).alike (C41_DimensionStyle b hb i' nl') h
example := C68_DimensionStyle sampleDimensionStyle sampleDimensionStyle sampleDimensionStyle_wf sampleDimensionStyle_wf 0 4 true false (C12_DimensionStyle sampleDimensionStyle sampleDimensionStyle_wf 0 true 4 false)

theorem C68_Dimension [TextRule] (a b : Dimension) (ha : a.WF) (hb : b.WF) (i i' : Nat) (nl nl' : Bool)
    (h : SameMeaning (a.toSexpr i nl) (b.toSexpr i' nl')) :
    Alike a
      b :=
  (C41_Dimension a ha i nl).alike (C41_Dimension b hb i' nl') h
example := C68_Dimension sampleDimension sampleDimension sampleDimension_wf sampleDimension_wf 0 4 true false (C12_Dimension sampleDimension sampleDimension_wf 0 true 4 false)

theorem C68_Board [TextRule] (a b : Board) (ha : a.WF) (hb : b.WF) (i i' : Nat) (nl nl' : Bool)
    (h : SameMeaning (a.toSexpr i nl) (b.toSexpr i' nl')) :
    Alike (α := Board) { a with setup := { a.setup with plotSettings := a.setup.plotSettings.map fun p => { p with useAuxOrigin := false } }, footprints := a.footprints.map fun f => { f with filePath := none }, filePath := none }
      { b with setup := { b.setup with plotSettings := b.setup.plotSettings.map fun p => { p with useAuxOrigin := false } }, footprints := b.footprints.map fun f => { f with filePath := none }, filePath := none } :=
  (C19_Board a ha (.int 0) i nl).alike (C19_Board b hb (.int 0) i' nl') h
example := C68_Board sampleBoard sampleBoard sampleBoard_wf sampleBoard_wf 0 4 true false (C12_Board sampleBoard sampleBoard_wf 0 true 4 false)

end Kiutils
