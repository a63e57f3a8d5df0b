import Verif.Props.RoundTrip
/-!
# The file format (C48, C49)

`Verif/Format/*.lean` describes the format of every class by a tree, `o.toVal`: which token stands where, what is inside, what is left
out. C48: what `to_sexpr` writes is this tree. C49: every text of this tree, in whatever layout, is loaded as the object.
-/
namespace Kiutils

/-- `parse_sexp` reads the text as the tree `v`. -/
def Denotes (text : PyM Str) (v : Val) : Prop := (text >>= parseSexp) = .ok v

/-- The text is one of the texts of the list `v` (`Prints` of `Props/Text.lean`: any white space, words with or without quotes, numbers
in plain notation). -/
def TextOf [TextRule] (v : Val) (s : Str) : Prop := ∃ l, v = .list l ∧ Prints l s

/-- Reading the text with `parse_sexp` and loading the result succeeds and gives an object equal to `o`. -/
def Loads {α : Type} [PyEq α] (s : Str) (load : Val → PyM α) (o : α) : Prop :=
  ∃ o', (parseSexp s >>= load) = .ok o' ∧ PyEq.eq o o'

theorem loads_of [TextRule] {α : Type} [Canon α] [PyEq α] [CanonEq α] {s : Str} {v : Val} {load : Val → PyM α} {e : α} (hs : TextOf v s)
    (hl : load v = .ok (canon e)) : Loads s load e := by
  obtain ⟨l, rfl, h⟩ := hs
  refine ⟨canon e, ?_, canonEq e⟩
  rw [C06_tree_round_trip l s h]
  exact hl

theorem C48_Coordinate [TextRule] (o : Coordinate) (h : o.WF) (i : Nat) (nl : Bool) : Denotes (.ok (o.toSexpr i nl)) o.toVal :=
  (Lexes.one fun _ _ hs => Coordinate.lx h hs).parse
example := C48_Coordinate sampleCoordinate sampleCoordinate_wf

theorem C49_Coordinate (o : Coordinate)  (s : Str) (hs : TextOf o.toVal s) :
    Loads s Coordinate.fromSexpr
      o :=
  loads_of hs Coordinate.from_toVal
example := C49_Coordinate sampleCoordinate

theorem C48_ColorRGBA [TextRule] (o : ColorRGBA) (h : o.WF) (i : Nat) (nl : Bool) : Denotes (.ok (o.toSexpr i nl)) o.toVal :=
  (Lexes.one fun _ _ hs => ColorRGBA.lx h hs).parse
example := C48_ColorRGBA sampleColorRGBA sampleColorRGBA_wf

theorem C49_ColorRGBA [TextRule] (o : ColorRGBA) (h : o.WF) (s : Str) (hs : TextOf o.toVal s) :
    Loads s ColorRGBA.fromSexpr
      o :=
  loads_of hs (ColorRGBA.from_toVal h)
example := C49_ColorRGBA sampleColorRGBA sampleColorRGBA_wf

theorem C48_Stroke [TextRule] (o : Stroke) (h : o.WF) (i : Nat) (nl : Bool) : Denotes (.ok (o.toSexpr i nl)) o.toVal :=
  (Lexes.one fun _ _ hs => Stroke.lx h hs).parse
example := C48_Stroke sampleStroke sampleStroke_wf

theorem C49_Stroke [TextRule] (o : Stroke) (h : o.WF) (s : Str) (hs : TextOf o.toVal s) :
    Loads s Stroke.fromSexpr
      o :=
  loads_of hs (Stroke.from_toVal h)
example := C49_Stroke sampleStroke sampleStroke_wf

theorem C48_Font [TextRule] (o : Font) (h : o.WF) (i : Nat) (nl : Bool) : Denotes (.ok (o.toSexpr i nl)) o.toVal :=
  (Lexes.one fun _ _ hs => Font.lx h hs).parse
example := C48_Font sampleFont sampleFont_wf

theorem C49_Font [TextRule] (o : Font) (h : o.WF) (s : Str) (hs : TextOf o.toVal s) :
    Loads s Font.fromSexpr
      o :=
  loads_of hs (Font.from_toVal h)
example := C49_Font sampleFont sampleFont_wf

theorem C48_Justify [TextRule] (o : Justify) (h : o.WF) (he : o.isEmpty = false) (i : Nat) (nl : Bool) : Denotes (.ok (o.toSexpr i nl)) o.toVal :=
  (Lexes.one fun _ _ hs => Justify.lx h he hs).parse
example := C48_Justify sampleJustify sampleJustify_wf rfl

theorem C49_Justify [TextRule] (o : Justify) (h : o.WF) (s : Str) (hs : TextOf o.toVal s) :
    Loads s Justify.fromSexpr
      o :=
  loads_of hs (Justify.from_toVal h)
example := C49_Justify sampleJustify sampleJustify_wf

theorem C48_Effects [TextRule] (o : Effects) (h : o.WF) (i : Nat) (nl : Bool) : Denotes (.ok (o.toSexpr i nl)) o.toVal :=
  (Lexes.one fun _ _ hs => Effects.lx h hs).parse
example := C48_Effects sampleEffects sampleEffects_wf

theorem C49_Effects [TextRule] (o : Effects) (h : o.WF) (s : Str) (hs : TextOf o.toVal s) :
    Loads s Effects.fromSexpr
      o :=
  loads_of hs (Effects.from_toVal h)
example := C49_Effects sampleEffects sampleEffects_wf

theorem C48_Net [TextRule] (o : Net) (h : o.WF) (i : Nat) (nl : Bool) : Denotes (.ok (o.toSexpr i nl)) o.toVal :=
  (Lexes.one fun _ _ hs => Net.lx h hs).parse
example := C48_Net sampleNet sampleNet_wf

theorem C49_Net (o : Net)  (s : Str) (hs : TextOf o.toVal s) :
    Loads s Net.fromSexpr
      o :=
  loads_of hs Net.from_toVal
example := C49_Net sampleNet

theorem C48_Group [TextRule] (o : Group) (h : o.WF) (i : Nat) (nl : Bool) : Denotes (.ok (o.toSexpr i nl)) o.toVal :=
  (Lexes.one fun _ _ hs => Group.lx h hs).parse
example := C48_Group sampleGroup sampleGroup_wf

theorem C49_Group [TextRule] (o : Group) (h : o.WF) (s : Str) (hs : TextOf o.toVal s) :
    Loads s Group.fromSexpr
      o :=
  loads_of hs (Group.from_toVal h)
example := C49_Group sampleGroup sampleGroup_wf

theorem C48_PageSettings [TextRule] (o : PageSettings) (h : o.WF) (i : Nat) (nl : Bool) : Denotes (o.toSexpr i nl) o.toVal :=
  (PageSettings.lx h i nl).parse
example := C48_PageSettings samplePageSettings samplePageSettings_wf

theorem C49_PageSettings [TextRule] (o : PageSettings) (h : o.WF) (s : Str) (hs : TextOf o.toVal s) :
    Loads s PageSettings.fromSexpr
      o :=
  loads_of hs (PageSettings.from_toVal h)
example := C49_PageSettings samplePageSettings samplePageSettings_wf

theorem C48_TitleBlock [TextRule] (o : TitleBlock) (h : o.WF) (i : Nat) (nl : Bool) : Denotes (.ok (o.toSexpr i nl)) o.toVal :=
  (Lexes.one fun _ _ hs => TitleBlock.lx h hs).parse
example := C48_TitleBlock sampleTitleBlock sampleTitleBlock_wf

theorem C49_TitleBlock [TextRule] (o : TitleBlock) (h : o.WF) (s : Str) (hs : TextOf o.toVal s) :
    Loads s TitleBlock.fromSexpr
      o :=
  loads_of hs (TitleBlock.from_toVal h)
example := C49_TitleBlock sampleTitleBlock sampleTitleBlock_wf

theorem C48_Property [TextRule] (o : Property) (h : o.WF) (i : Nat) (nl : Bool) : Denotes (.ok (o.toSexpr i nl)) o.toVal :=
  (Lexes.one fun _ _ hs => Property.lx h hs).parse
example := C48_Property sampleProperty sampleProperty_wf

theorem C49_Property [TextRule] (o : Property) (h : o.WF) (s : Str) (hs : TextOf o.toVal s) :
    Loads s Property.fromSexpr
      o :=
  loads_of hs (Property.from_toVal h)
example := C49_Property sampleProperty sampleProperty_wf

theorem C48_RenderCachePolygon [TextRule] (o : RenderCachePolygon) (h : o.WF) (i : Nat) (nl : Bool) : Denotes (.ok (o.toSexpr i nl)) o.toVal :=
  (Lexes.one fun _ _ hs => RenderCachePolygon.lx h hs).parse
example := C48_RenderCachePolygon sampleRenderCachePolygon sampleRenderCachePolygon_wf

theorem C49_RenderCachePolygon [TextRule] (o : RenderCachePolygon) (h : o.WF) (s : Str) (hs : TextOf o.toVal s) :
    Loads s RenderCachePolygon.fromSexpr
      o :=
  loads_of hs (RenderCachePolygon.from_toVal h)
example := C49_RenderCachePolygon sampleRenderCachePolygon sampleRenderCachePolygon_wf

theorem C48_RenderCache [TextRule] (o : RenderCache) (h : o.WF) (i : Nat) (nl : Bool) : Denotes (.ok (o.toSexpr i nl)) o.toVal :=
  (Lexes.one fun _ _ hs => RenderCache.lx h hs).parse
example := C48_RenderCache sampleRenderCache sampleRenderCache_wf

theorem C49_RenderCache [TextRule] (o : RenderCache) (h : o.WF) (s : Str) (hs : TextOf o.toVal s) :
    Loads s RenderCache.fromSexpr
      o :=
  loads_of hs (RenderCache.from_toVal h)
example := C49_RenderCache sampleRenderCache sampleRenderCache_wf

theorem C48_Fill [TextRule] (o : Fill) (h : o.WF) (i : Nat) (nl : Bool) : Denotes (.ok (o.toSexpr i nl)) o.toVal :=
  (Lexes.one fun _ _ hs => Fill.lx h hs).parse
example := C48_Fill sampleFill sampleFill_wf

theorem C49_Fill [TextRule] (o : Fill) (h : o.WF) (s : Str) (hs : TextOf o.toVal s) :
    Loads s Fill.fromSexpr
      o :=
  loads_of hs (Fill.from_toVal h)
example := C49_Fill sampleFill sampleFill_wf

theorem C48_Image [TextRule] (o : Image) (h : o.WF) (i : Nat) (nl : Bool) : Denotes (.ok (o.toSexpr i nl)) o.toVal :=
  (Lexes.one fun _ _ hs => Image.lx h hs).parse
example := C48_Image sampleImage sampleImage_wf

theorem C49_Image [TextRule] (o : Image) (h : o.WF) (s : Str) (hs : TextOf o.toVal s) :
    Loads s Image.fromSexpr
      o :=
  loads_of hs (Image.from_toVal h)
example := C49_Image sampleImage sampleImage_wf

theorem C48_Library [TextRule] (o : Library) (h : o.WF) (i : Nat) (nl : Bool) : Denotes (.ok (o.toSexpr i nl)) o.toVal :=
  (Lexes.one fun _ _ hs => Library.lx h hs).parse
example := C48_Library sampleLibrary sampleLibrary_wf

theorem C49_Library [TextRule] (o : Library) (h : o.WF) (s : Str) (hs : TextOf o.toVal s) :
    Loads s Library.fromSexpr
      o :=
  loads_of hs (Library.from_toVal h)
example := C49_Library sampleLibrary sampleLibrary_wf

theorem C48_LibTable [TextRule] (o : LibTable) (h : o.WF) (i : Nat) (nl : Bool) : Denotes (.ok (o.toSexpr i nl)) o.toVal :=
  (Lexes.one fun _ _ hs => LibTable.lx h hs).parse
example := C48_LibTable sampleLibTable sampleLibTable_wf

theorem C49_LibTable [TextRule] (o : LibTable) (h : o.WF) (s : Str) (hs : TextOf o.toVal s) :
    Loads s LibTable.fromSexpr
      { o with filePath := none } :=
  loads_of hs (LibTable.from_toVal h)
example := C49_LibTable sampleLibTable sampleLibTable_wf

theorem C48_Constraint [TextRule] (o : Constraint) (h : o.WF) (i : Nat) (nl : Bool) : Denotes (o.toSexpr i nl) o.toVal :=
  (Constraint.lx h i nl).parse
example := C48_Constraint sampleConstraint sampleConstraint_wf

theorem C49_Constraint [TextRule] (o : Constraint) (h : o.WF) (s : Str) (hs : TextOf o.toVal s) :
    Loads s Constraint.fromSexpr
      o :=
  loads_of hs (Constraint.from_toVal h)
example := C49_Constraint sampleConstraint sampleConstraint_wf

theorem C48_Rule [TextRule] (o : Rule) (h : o.WF) (i : Nat) : Denotes (o.toSexpr i) o.toVal :=
  (Rule.lx h i).parse
example := C48_Rule sampleRule sampleRule_wf

theorem C49_Rule [TextRule] (o : Rule) (h : o.WF) (s : Str) (hs : TextOf o.toVal s) :
    Loads s Rule.fromSexpr
      o :=
  loads_of hs (Rule.from_toVal h)
example := C49_Rule sampleRule sampleRule_wf

theorem C48_WksFontSize [TextRule] (o : WksFontSize) (h : o.WF) (i : Nat) (nl : Bool) : Denotes (.ok (o.toSexpr i nl)) o.toVal :=
  (Lexes.one fun _ _ hs => WksFontSize.lx h hs).parse
example := C48_WksFontSize sampleWksFontSize sampleWksFontSize_wf

theorem C49_WksFontSize (o : WksFontSize)  (s : Str) (hs : TextOf o.toVal s) :
    Loads s WksFontSize.fromSexpr
      o :=
  loads_of hs WksFontSize.from_toVal
example := C49_WksFontSize sampleWksFontSize

theorem C48_Bitmap [TextRule] (o : Bitmap) (h : o.WF) (i : Nat) (nl : Bool) : Denotes (.ok (o.toSexpr i nl)) o.toVal :=
  (Lexes.one fun _ _ hs => Bitmap.lx h hs).parse
example := C48_Bitmap sampleBitmap sampleBitmap_wf

theorem C49_Bitmap [TextRule] (o : Bitmap) (h : o.WF) (s : Str) (hs : TextOf o.toVal s) :
    Loads s Bitmap.fromSexpr
      o :=
  loads_of hs (Bitmap.from_toVal h)
example := C49_Bitmap sampleBitmap sampleBitmap_wf

theorem C48_TbText [TextRule] (o : TbText) (h : o.WF) (i : Nat) (nl : Bool) : Denotes (.ok (o.toSexpr i nl)) o.toVal :=
  (Lexes.one fun _ _ hs => TbText.lx h hs).parse
example := C48_TbText sampleTbText sampleTbText_wf

theorem C49_TbText [TextRule] (o : TbText) (h : o.WF) (s : Str) (hs : TextOf o.toVal s) :
    Loads s TbText.fromSexpr
      o :=
  loads_of hs (TbText.from_toVal h)
example := C49_TbText sampleTbText sampleTbText_wf

theorem C48_TextSize [TextRule] (o : TextSize) (h : o.WF) (i : Nat) (nl : Bool) : Denotes (.ok (o.toSexpr i nl)) o.toVal :=
  (Lexes.one fun _ _ hs => TextSize.lx h hs).parse
example := C48_TextSize sampleTextSize sampleTextSize_wf

theorem C49_TextSize (o : TextSize)  (s : Str) (hs : TextOf o.toVal s) :
    Loads s TextSize.fromSexpr
      o :=
  loads_of hs TextSize.from_toVal
example := C49_TextSize sampleTextSize

theorem C48_Setup [TextRule] (o : Setup) (h : o.WF) (i : Nat) (nl : Bool) : Denotes (.ok (o.toSexpr i nl)) o.toVal :=
  (Lexes.one fun _ _ hs => Setup.lx h hs).parse
example := C48_Setup sampleSetup sampleSetup_wf

theorem C49_Setup (o : Setup)  (s : Str) (hs : TextOf o.toVal s) :
    Loads s Setup.fromSexpr
      o :=
  loads_of hs Setup.from_toVal
example := C49_Setup sampleSetup

theorem C48_WorkSheet [TextRule] (o : WorkSheet) (h : o.WF) (i : Nat) (nl : Bool) : Denotes (o.toSexpr i nl) o.toVal :=
  (WorkSheet.lx h i nl).parse
example := C48_WorkSheet sampleWorkSheet sampleWorkSheet_wf

theorem C49_WorkSheet [TextRule] (o : WorkSheet) (h : o.WF) (s : Str) (hs : TextOf o.toVal s) :
    Loads s WorkSheet.fromSexpr
      { o with filePath := none } :=
  loads_of hs (WorkSheet.from_toVal h)
example := C49_WorkSheet sampleWorkSheet sampleWorkSheet_wf

theorem C48_SyArc [TextRule] (o : SyArc) (h : o.WF) (i : Nat) (nl : Bool) : Denotes (.ok (o.toSexpr i nl)) o.toVal :=
  (Lexes.one fun _ _ hs => SyArc.lx h hs).parse
example := C48_SyArc sampleSyArc sampleSyArc_wf

theorem C49_SyArc [TextRule] (o : SyArc) (h : o.WF) (s : Str) (hs : TextOf o.toVal s) :
    Loads s SyArc.fromSexpr
      o :=
  loads_of hs (SyArc.from_toVal h)
example := C49_SyArc sampleSyArc sampleSyArc_wf

theorem C48_SyCircle [TextRule] (o : SyCircle) (h : o.WF) (i : Nat) (nl : Bool) : Denotes (.ok (o.toSexpr i nl)) o.toVal :=
  (Lexes.one fun _ _ hs => SyCircle.lx h hs).parse
example := C48_SyCircle sampleSyCircle sampleSyCircle_wf

theorem C49_SyCircle [TextRule] (o : SyCircle) (h : o.WF) (s : Str) (hs : TextOf o.toVal s) :
    Loads s SyCircle.fromSexpr
      o :=
  loads_of hs (SyCircle.from_toVal h)
example := C49_SyCircle sampleSyCircle sampleSyCircle_wf

theorem C48_SyPolyLine [TextRule] (o : SyPolyLine) (h : o.WF) (i : Nat) (nl : Bool) : Denotes (.ok (o.toSexpr i nl)) o.toVal :=
  (Lexes.one fun _ _ hs => SyPolyLine.lx h hs).parse
example := C48_SyPolyLine sampleSyPolyLine sampleSyPolyLine_wf

theorem C49_SyPolyLine [TextRule] (o : SyPolyLine) (h : o.WF) (s : Str) (hs : TextOf o.toVal s) :
    Loads s SyPolyLine.fromSexpr
      o :=
  loads_of hs (SyPolyLine.from_toVal h)
example := C49_SyPolyLine sampleSyPolyLine sampleSyPolyLine_wf

theorem C48_SyRect [TextRule] (o : SyRect) (h : o.WF) (i : Nat) (nl : Bool) : Denotes (.ok (o.toSexpr i nl)) o.toVal :=
  (Lexes.one fun _ _ hs => SyRect.lx h hs).parse
example := C48_SyRect sampleSyRect sampleSyRect_wf

theorem C49_SyRect [TextRule] (o : SyRect) (h : o.WF) (s : Str) (hs : TextOf o.toVal s) :
    Loads s SyRect.fromSexpr
      o :=
  loads_of hs (SyRect.from_toVal h)
example := C49_SyRect sampleSyRect sampleSyRect_wf

theorem C48_SyText [TextRule] (o : SyText) (h : o.WF) (i : Nat) (nl : Bool) : Denotes (.ok (o.toSexpr i nl)) o.toVal :=
  (Lexes.one fun _ _ hs => SyText.lx h hs).parse
example := C48_SyText sampleSyText sampleSyText_wf

theorem C49_SyText [TextRule] (o : SyText) (h : o.WF) (s : Str) (hs : TextOf o.toVal s) :
    Loads s SyText.fromSexpr
      o :=
  loads_of hs (SyText.from_toVal h)
example := C49_SyText sampleSyText sampleSyText_wf

theorem C48_SyTextBox [TextRule] (o : SyTextBox) (h : o.WF) (i : Nat) (nl : Bool) : Denotes (.ok (o.toSexpr i nl)) o.toVal :=
  (Lexes.one fun _ _ hs => SyTextBox.lx h hs).parse
example := C48_SyTextBox sampleSyTextBox sampleSyTextBox_wf

theorem C49_SyTextBox [TextRule] (o : SyTextBox) (h : o.WF) (s : Str) (hs : TextOf o.toVal s) :
    Loads s SyTextBox.fromSexpr
      o :=
  loads_of hs (SyTextBox.from_toVal h)
example := C49_SyTextBox sampleSyTextBox sampleSyTextBox_wf

theorem C48_SymbolAlternativePin [TextRule] (o : SymbolAlternativePin) (h : o.WF) (i : Nat) (nl : Bool) : Denotes (.ok (o.toSexpr i nl)) o.toVal :=
  (Lexes.one fun _ _ hs => SymbolAlternativePin.lx h hs).parse
example := C48_SymbolAlternativePin sampleSymbolAlternativePin sampleSymbolAlternativePin_wf

theorem C49_SymbolAlternativePin (o : SymbolAlternativePin)  (s : Str) (hs : TextOf o.toVal s) :
    Loads s SymbolAlternativePin.fromSexpr
      o :=
  loads_of hs SymbolAlternativePin.from_toVal
example := C49_SymbolAlternativePin sampleSymbolAlternativePin

theorem C48_SymbolPin [TextRule] (o : SymbolPin) (h : o.WF) (i : Nat) (nl : Bool) : Denotes (.ok (o.toSexpr i nl)) o.toVal :=
  (Lexes.one fun _ _ hs => SymbolPin.lx h hs).parse
example := C48_SymbolPin sampleSymbolPin sampleSymbolPin_wf

theorem C49_SymbolPin [TextRule] (o : SymbolPin) (h : o.WF) (s : Str) (hs : TextOf o.toVal s) :
    Loads s SymbolPin.fromSexpr
      o :=
  loads_of hs (SymbolPin.from_toVal h)
example := C49_SymbolPin sampleSymbolPin sampleSymbolPin_wf

theorem C48_Symbol [TextRule] (o : Symbol) (h : o.WF) (i : Nat) (nl : Bool) : Denotes (.ok (o.toSexpr i nl)) o.toVal :=
  (Lexes.one fun _ _ hs => Symbol.lx h hs).parse
example := C48_Symbol sampleSymbol sampleSymbol_wf

theorem C49_Symbol [TextRule] (o : Symbol) (h : o.WF) (s : Str) (hs : TextOf o.toVal s) :
    Loads s Symbol.fromSexpr
      o :=
  loads_of hs (Symbol.from_toVal h)
example := C49_Symbol sampleSymbol sampleSymbol_wf

theorem C48_SymbolLib [TextRule] (o : SymbolLib) (h : o.WF) (i : Nat) (nl : Bool) : Denotes (.ok (o.toSexpr i nl)) o.toVal :=
  (Lexes.one fun _ _ hs => SymbolLib.lx h hs).parse
example := C48_SymbolLib sampleSymbolLib sampleSymbolLib_wf

theorem C49_SymbolLib [TextRule] (o : SymbolLib) (h : o.WF) (s : Str) (hs : TextOf o.toVal s) :
    Loads s SymbolLib.fromSexpr
      { o with filePath := none } :=
  loads_of hs (SymbolLib.from_toVal h)
example := C49_SymbolLib sampleSymbolLib sampleSymbolLib_wf

theorem C48_Junction [TextRule] (o : Junction) (h : o.WF) (i : Nat) (nl : Bool) : Denotes (o.toSexpr i nl) o.toVal :=
  (Junction.lexes h i nl).parse
example := C48_Junction sampleJunction sampleJunction_wf

theorem C49_Junction [TextRule] (o : Junction) (h : o.WF) (s : Str) (hs : TextOf o.toVal s) :
    Loads s Junction.fromSexpr
      { o with diameter := .int 0 } :=
  loads_of hs (Junction.from_toVal h)
example := C49_Junction sampleJunction sampleJunction_wf

theorem C48_NoConnect [TextRule] (o : NoConnect) (h : o.WF) (i : Nat) (nl : Bool) : Denotes (.ok (o.toSexpr i nl)) o.toVal :=
  (Lexes.one fun _ _ hs => NoConnect.lx h hs).parse
example := C48_NoConnect sampleNoConnect sampleNoConnect_wf

theorem C49_NoConnect [TextRule] (o : NoConnect) (h : o.WF) (s : Str) (hs : TextOf o.toVal s) :
    Loads s NoConnect.fromSexpr
      o :=
  loads_of hs (NoConnect.from_toVal h)
example := C49_NoConnect sampleNoConnect sampleNoConnect_wf

theorem C48_BusEntry [TextRule] (o : BusEntry) (h : o.WF) (i : Nat) (nl : Bool) : Denotes (.ok (o.toSexpr i nl)) o.toVal :=
  (Lexes.one fun _ _ hs => BusEntry.lx h hs).parse
example := C48_BusEntry sampleBusEntry sampleBusEntry_wf

theorem C49_BusEntry [TextRule] (o : BusEntry) (h : o.WF) (s : Str) (hs : TextOf o.toVal s) :
    Loads s BusEntry.fromSexpr
      o :=
  loads_of hs (BusEntry.from_toVal h)
example := C49_BusEntry sampleBusEntry sampleBusEntry_wf

theorem C48_BusAlias [TextRule] (o : BusAlias) (h : o.WF) (i : Nat) (nl : Bool) : Denotes (.ok (o.toSexpr i nl)) o.toVal :=
  (Lexes.one fun _ _ hs => BusAlias.lx h hs).parse
example := C48_BusAlias sampleBusAlias sampleBusAlias_wf

theorem C49_BusAlias (o : BusAlias)  (s : Str) (hs : TextOf o.toVal s) :
    Loads s BusAlias.fromSexpr
      o :=
  loads_of hs BusAlias.from_toVal
example := C49_BusAlias sampleBusAlias

theorem C48_Connection [TextRule] (o : Connection) (h : o.WF) (i : Nat) (nl : Bool) : Denotes (.ok (o.toSexpr i nl)) o.toVal :=
  (Lexes.one fun _ _ hs => Connection.lx h hs).parse
example := C48_Connection sampleConnection sampleConnection_wf

theorem C49_Connection [TextRule] (o : Connection) (h : o.WF) (s : Str) (hs : TextOf o.toVal s) :
    Loads s Connection.fromSexpr
      o :=
  loads_of hs (Connection.from_toVal h)
example := C49_Connection sampleConnection sampleConnection_wf

theorem C48_PolyLine [TextRule] (o : PolyLine) (h : o.WF) (i : Nat) (nl : Bool) : Denotes (.ok (o.toSexpr i nl)) o.toVal :=
  (Lexes.one fun _ _ hs => PolyLine.lx h hs).parse
example := C48_PolyLine samplePolyLine samplePolyLine_wf

theorem C49_PolyLine [TextRule] (o : PolyLine) (h : o.WF) (s : Str) (hs : TextOf o.toVal s) :
    Loads s PolyLine.fromSexpr
      o :=
  loads_of hs (PolyLine.from_toVal h)
example := C49_PolyLine samplePolyLine samplePolyLine_wf

theorem C48_Text [TextRule] (o : Text) (h : o.WF) (i : Nat) (nl : Bool) : Denotes (o.toSexpr i nl) o.toVal :=
  (Text.lexes h i nl).parse
example := C48_Text sampleText sampleText_wf

theorem C49_Text [TextRule] (o : Text) (h : o.WF) (s : Str) (hs : TextOf o.toVal s) :
    Loads s Text.fromSexpr
      o :=
  loads_of hs (Text.from_toVal h)
example := C49_Text sampleText sampleText_wf

theorem C48_TextBox [TextRule] (o : TextBox) (h : o.WF) (i : Nat) (nl : Bool) : Denotes (.ok (o.toSexpr i nl)) o.toVal :=
  (Lexes.one fun _ _ hs => TextBox.lx h hs).parse
example := C48_TextBox sampleTextBox sampleTextBox_wf

theorem C49_TextBox [TextRule] (o : TextBox) (h : o.WF) (s : Str) (hs : TextOf o.toVal s) :
    Loads s TextBox.fromSexpr
      o :=
  loads_of hs (TextBox.from_toVal h)
example := C49_TextBox sampleTextBox sampleTextBox_wf

theorem C48_LocalLabel [TextRule] (o : LocalLabel) (h : o.WF) (i : Nat) (nl : Bool) : Denotes (.ok (o.toSexpr i nl)) o.toVal :=
  (Lexes.one fun _ _ hs => LocalLabel.lx h hs).parse
example := C48_LocalLabel sampleLocalLabel sampleLocalLabel_wf

theorem C49_LocalLabel [TextRule] (o : LocalLabel) (h : o.WF) (s : Str) (hs : TextOf o.toVal s) :
    Loads s LocalLabel.fromSexpr
      o :=
  loads_of hs (LocalLabel.from_toVal h)
example := C49_LocalLabel sampleLocalLabel sampleLocalLabel_wf

theorem C48_GlobalLabel [TextRule] (o : GlobalLabel) (h : o.WF) (i : Nat) (nl : Bool) : Denotes (.ok (o.toSexpr i nl)) o.toVal :=
  (Lexes.one fun _ _ hs => GlobalLabel.lx h hs).parse
example := C48_GlobalLabel sampleGlobalLabel sampleGlobalLabel_wf

theorem C49_GlobalLabel [TextRule] (o : GlobalLabel) (h : o.WF) (s : Str) (hs : TextOf o.toVal s) :
    Loads s GlobalLabel.fromSexpr
      o :=
  loads_of hs (GlobalLabel.from_toVal h)
example := C49_GlobalLabel sampleGlobalLabel sampleGlobalLabel_wf

theorem C48_HierarchicalLabel [TextRule] (o : HierarchicalLabel) (h : o.WF) (i : Nat) (nl : Bool) : Denotes (.ok (o.toSexpr i nl)) o.toVal :=
  (Lexes.one fun _ _ hs => HierarchicalLabel.lx h hs).parse
example := C48_HierarchicalLabel sampleHierarchicalLabel sampleHierarchicalLabel_wf

theorem C49_HierarchicalLabel [TextRule] (o : HierarchicalLabel) (h : o.WF) (s : Str) (hs : TextOf o.toVal s) :
    Loads s HierarchicalLabel.fromSexpr
      o :=
  loads_of hs (HierarchicalLabel.from_toVal h)
example := C49_HierarchicalLabel sampleHierarchicalLabel sampleHierarchicalLabel_wf

theorem C48_SymbolProjectPath [TextRule] (o : SymbolProjectPath) (h : o.WF) (i : Nat) (nl : Bool) : Denotes (.ok (o.toSexpr i nl)) o.toVal :=
  (Lexes.one fun _ _ hs => SymbolProjectPath.lx h hs).parse
example := C48_SymbolProjectPath sampleSymbolProjectPath sampleSymbolProjectPath_wf

theorem C49_SymbolProjectPath [TextRule] (o : SymbolProjectPath) (h : o.WF) (s : Str) (hs : TextOf o.toVal s) :
    Loads s SymbolProjectPath.fromSexpr
      o :=
  loads_of hs (SymbolProjectPath.from_toVal h)
example := C49_SymbolProjectPath sampleSymbolProjectPath sampleSymbolProjectPath_wf

theorem C48_SymbolProjectInstance [TextRule] (o : SymbolProjectInstance) (h : o.WF) (i : Nat) (nl : Bool) : Denotes (.ok (o.toSexpr i nl)) o.toVal :=
  (Lexes.one fun _ _ hs => SymbolProjectInstance.lx h hs).parse
example := C48_SymbolProjectInstance sampleSymbolProjectInstance sampleSymbolProjectInstance_wf

theorem C49_SymbolProjectInstance [TextRule] (o : SymbolProjectInstance) (h : o.WF) (s : Str) (hs : TextOf o.toVal s) :
    Loads s SymbolProjectInstance.fromSexpr
      o :=
  loads_of hs (SymbolProjectInstance.from_toVal h)
example := C49_SymbolProjectInstance sampleSymbolProjectInstance sampleSymbolProjectInstance_wf

theorem C48_SchematicSymbol [TextRule] (o : SchematicSymbol) (h : o.WF) (i : Nat) (nl : Bool) : Denotes (.ok (o.toSexpr i nl)) o.toVal :=
  (Lexes.one fun _ _ hs => SchematicSymbol.lx h hs).parse
example := C48_SchematicSymbol sampleSchematicSymbol sampleSchematicSymbol_wf

theorem C49_SchematicSymbol [TextRule] (o : SchematicSymbol) (h : o.WF) (s : Str) (hs : TextOf o.toVal s) :
    Loads s SchematicSymbol.fromSexpr
      o :=
  loads_of hs (SchematicSymbol.from_toVal h)
example := C49_SchematicSymbol sampleSchematicSymbol sampleSchematicSymbol_wf

theorem C48_HierarchicalPin [TextRule] (o : HierarchicalPin) (h : o.WF) (i : Nat) (nl : Bool) : Denotes (.ok (o.toSexpr i nl)) o.toVal :=
  (Lexes.one fun _ _ hs => HierarchicalPin.lx h hs).parse
example := C48_HierarchicalPin sampleHierarchicalPin sampleHierarchicalPin_wf

theorem C49_HierarchicalPin [TextRule] (o : HierarchicalPin) (h : o.WF) (s : Str) (hs : TextOf o.toVal s) :
    Loads s HierarchicalPin.fromSexpr
      o :=
  loads_of hs (HierarchicalPin.from_toVal h)
example := C49_HierarchicalPin sampleHierarchicalPin sampleHierarchicalPin_wf

theorem C48_HierarchicalSheetProjectPath [TextRule] (o : HierarchicalSheetProjectPath) (h : o.WF) (i : Nat) (nl : Bool) : Denotes (.ok (o.toSexpr i nl)) o.toVal :=
  (Lexes.one fun _ _ hs => HierarchicalSheetProjectPath.lx h hs).parse
example := C48_HierarchicalSheetProjectPath sampleHierarchicalSheetProjectPath sampleHierarchicalSheetProjectPath_wf

theorem C49_HierarchicalSheetProjectPath [TextRule] (o : HierarchicalSheetProjectPath) (h : o.WF) (s : Str) (hs : TextOf o.toVal s) :
    Loads s HierarchicalSheetProjectPath.fromSexpr
      o :=
  loads_of hs (HierarchicalSheetProjectPath.from_toVal h)
example := C49_HierarchicalSheetProjectPath sampleHierarchicalSheetProjectPath sampleHierarchicalSheetProjectPath_wf

theorem C48_HierarchicalSheetProjectInstance [TextRule] (o : HierarchicalSheetProjectInstance) (h : o.WF) (i : Nat) (nl : Bool) : Denotes (.ok (o.toSexpr i nl)) o.toVal :=
  (Lexes.one fun _ _ hs => HierarchicalSheetProjectInstance.lx h hs).parse
example := C48_HierarchicalSheetProjectInstance sampleHierarchicalSheetProjectInstance sampleHierarchicalSheetProjectInstance_wf

theorem C49_HierarchicalSheetProjectInstance [TextRule] (o : HierarchicalSheetProjectInstance) (h : o.WF) (s : Str) (hs : TextOf o.toVal s) :
    Loads s HierarchicalSheetProjectInstance.fromSexpr
      o :=
  loads_of hs (HierarchicalSheetProjectInstance.from_toVal h)
example := C49_HierarchicalSheetProjectInstance sampleHierarchicalSheetProjectInstance sampleHierarchicalSheetProjectInstance_wf

theorem C48_HierarchicalSheet [TextRule] (o : HierarchicalSheet) (h : o.WF) (i : Nat) (nl : Bool) : Denotes (o.toSexpr i nl) o.toVal :=
  (HierarchicalSheet.lexes h i nl).parse
example := C48_HierarchicalSheet sampleHierarchicalSheet sampleHierarchicalSheet_wf

theorem C49_HierarchicalSheet [TextRule] (o : HierarchicalSheet) (h : o.WF) (s : Str) (hs : TextOf o.toVal s) :
    Loads s HierarchicalSheet.fromSexpr
      { o with fill := { o.fill with precision := some 4 } } :=
  loads_of hs (HierarchicalSheet.from_toVal h)
example := C49_HierarchicalSheet sampleHierarchicalSheet sampleHierarchicalSheet_wf

theorem C48_HierarchicalSheetInstance [TextRule] (o : HierarchicalSheetInstance) (h : o.WF) (i : Nat) (nl : Bool) : Denotes (.ok (o.toSexpr i nl)) o.toVal :=
  (Lexes.one fun _ _ hs => HierarchicalSheetInstance.lx h hs).parse
example := C48_HierarchicalSheetInstance sampleHierarchicalSheetInstance sampleHierarchicalSheetInstance_wf

theorem C49_HierarchicalSheetInstance [TextRule] (o : HierarchicalSheetInstance) (h : o.WF) (s : Str) (hs : TextOf o.toVal s) :
    Loads s HierarchicalSheetInstance.fromSexpr
      o :=
  loads_of hs (HierarchicalSheetInstance.from_toVal h)
example := C49_HierarchicalSheetInstance sampleHierarchicalSheetInstance sampleHierarchicalSheetInstance_wf

theorem C48_SymbolInstance [TextRule] (o : SymbolInstance) (h : o.WF) (i : Nat) (nl : Bool) : Denotes (.ok (o.toSexpr i nl)) o.toVal :=
  (Lexes.one fun _ _ hs => SymbolInstance.lx h hs).parse
example := C48_SymbolInstance sampleSymbolInstance sampleSymbolInstance_wf

theorem C49_SymbolInstance [TextRule] (o : SymbolInstance) (h : o.WF) (s : Str) (hs : TextOf o.toVal s) :
    Loads s SymbolInstance.fromSexpr
      o :=
  loads_of hs (SymbolInstance.from_toVal h)
example := C49_SymbolInstance sampleSymbolInstance sampleSymbolInstance_wf

theorem C48_Rectangle [TextRule] (o : Rectangle) (h : o.WF) (i : Nat) (nl : Bool) : Denotes (.ok (o.toSexpr i nl)) o.toVal :=
  (Lexes.one fun _ _ hs => Rectangle.lx h hs).parse
example := C48_Rectangle sampleRectangle sampleRectangle_wf

theorem C49_Rectangle [TextRule] (o : Rectangle) (h : o.WF) (s : Str) (hs : TextOf o.toVal s) :
    Loads s Rectangle.fromSexpr
      o :=
  loads_of hs (Rectangle.from_toVal h)
example := C49_Rectangle sampleRectangle sampleRectangle_wf

theorem C48_Arc [TextRule] (o : Arc) (h : o.WF) (i : Nat) (nl : Bool) : Denotes (.ok (o.toSexpr i nl)) o.toVal :=
  (Lexes.one fun _ _ hs => Arc.lx h hs).parse
example := C48_Arc sampleArc sampleArc_wf

theorem C49_Arc [TextRule] (o : Arc) (h : o.WF) (s : Str) (hs : TextOf o.toVal s) :
    Loads s Arc.fromSexpr
      o :=
  loads_of hs (Arc.from_toVal h)
example := C49_Arc sampleArc sampleArc_wf

theorem C48_Circle [TextRule] (o : Circle) (h : o.WF) (i : Nat) (nl : Bool) : Denotes (.ok (o.toSexpr i nl)) o.toVal :=
  (Lexes.one fun _ _ hs => Circle.lx h hs).parse
example := C48_Circle sampleCircle sampleCircle_wf

theorem C49_Circle [TextRule] (o : Circle) (h : o.WF) (s : Str) (hs : TextOf o.toVal s) :
    Loads s Circle.fromSexpr
      o :=
  loads_of hs (Circle.from_toVal h)
example := C49_Circle sampleCircle sampleCircle_wf

theorem C48_NetclassFlag [TextRule] (o : NetclassFlag) (h : o.WF) (i : Nat) (nl : Bool) : Denotes (o.toSexpr i nl) o.toVal :=
  (NetclassFlag.lexes h i nl).parse
example := C48_NetclassFlag sampleNetclassFlag sampleNetclassFlag_wf

theorem C49_NetclassFlag [TextRule] (o : NetclassFlag) (h : o.WF) (s : Str) (hs : TextOf o.toVal s) :
    Loads s NetclassFlag.fromSexpr
      o :=
  loads_of hs (NetclassFlag.from_toVal h)
example := C49_NetclassFlag sampleNetclassFlag sampleNetclassFlag_wf

theorem C48_Schematic [TextRule] (o : Schematic) (h : o.WF) (i : Nat) (nl : Bool) : Denotes (o.toSexpr i nl) o.toVal :=
  (Schematic.lexes h i nl).parse
example := C48_Schematic sampleSchematic sampleSchematic_wf

theorem C49_Schematic [TextRule] (o : Schematic) (h : o.WF) (s : Str) (hs : TextOf o.toVal s) :
    Loads s Schematic.fromSexpr
      { o with
        junctions := o.junctions.map fun j => { j with diameter := .int 0 }
        sheets := o.sheets.map fun s => { s with fill := { s.fill with precision := some 4 } }
        filePath := none } :=
  loads_of hs (Schematic.from_toVal h)
example := C49_Schematic sampleSchematic sampleSchematic_wf

theorem C48_GrText [TextRule] (o : GrText) (h : o.WF) (i : Nat) (nl : Bool) : Denotes (.ok (o.toSexpr i nl)) o.toVal :=
  (Lexes.one fun _ _ hs => GrText.lx h hs).parse
example := C48_GrText sampleGrText sampleGrText_wf

theorem C49_GrText [TextRule] (o : GrText) (h : o.WF) (s : Str) (hs : TextOf o.toVal s) :
    Loads s GrText.fromSexpr
      o :=
  loads_of hs (GrText.from_toVal h)
example := C49_GrText sampleGrText sampleGrText_wf

theorem C48_GrTextBox [TextRule] (o : GrTextBox) (h : o.WF) (i : Nat) (nl : Bool) : Denotes (o.toSexpr i nl) o.toVal :=
  (GrTextBox.lexes h i nl).parse
example := C48_GrTextBox sampleGrTextBox sampleGrTextBox_wf

theorem C49_GrTextBox [TextRule] (o : GrTextBox) (h : o.WF) (s : Str) (hs : TextOf o.toVal s) :
    Loads s GrTextBox.fromSexpr
      o :=
  loads_of hs (GrTextBox.from_toVal h)
example := C49_GrTextBox sampleGrTextBox sampleGrTextBox_wf

theorem C48_GrLine [TextRule] (o : GrLine) (h : o.WF) (i : Nat) (nl : Bool) : Denotes (.ok (o.toSexpr i nl)) o.toVal :=
  (Lexes.one fun _ _ hs => GrLine.lx h hs).parse
example := C48_GrLine sampleGrLine sampleGrLine_wf

theorem C49_GrLine [TextRule] (o : GrLine) (h : o.WF) (s : Str) (hs : TextOf o.toVal s) :
    Loads s GrLine.fromSexpr
      o :=
  loads_of hs (GrLine.from_toVal h)
example := C49_GrLine sampleGrLine sampleGrLine_wf

theorem C48_GrRect [TextRule] (o : GrRect) (h : o.WF) (i : Nat) (nl : Bool) : Denotes (.ok (o.toSexpr i nl)) o.toVal :=
  (Lexes.one fun _ _ hs => GrRect.lx h hs).parse
example := C48_GrRect sampleGrRect sampleGrRect_wf

theorem C49_GrRect [TextRule] (o : GrRect) (h : o.WF) (s : Str) (hs : TextOf o.toVal s) :
    Loads s GrRect.fromSexpr
      o :=
  loads_of hs (GrRect.from_toVal h)
example := C49_GrRect sampleGrRect sampleGrRect_wf

theorem C48_GrCircle [TextRule] (o : GrCircle) (h : o.WF) (i : Nat) (nl : Bool) : Denotes (.ok (o.toSexpr i nl)) o.toVal :=
  (Lexes.one fun _ _ hs => GrCircle.lx h hs).parse
example := C48_GrCircle sampleGrCircle sampleGrCircle_wf

theorem C49_GrCircle [TextRule] (o : GrCircle) (h : o.WF) (s : Str) (hs : TextOf o.toVal s) :
    Loads s GrCircle.fromSexpr
      o :=
  loads_of hs (GrCircle.from_toVal h)
example := C49_GrCircle sampleGrCircle sampleGrCircle_wf

theorem C48_GrArc [TextRule] (o : GrArc) (h : o.WF) (i : Nat) (nl : Bool) : Denotes (.ok (o.toSexpr i nl)) o.toVal :=
  (Lexes.one fun _ _ hs => GrArc.lx h hs).parse
example := C48_GrArc sampleGrArc sampleGrArc_wf

theorem C49_GrArc [TextRule] (o : GrArc) (h : o.WF) (s : Str) (hs : TextOf o.toVal s) :
    Loads s GrArc.fromSexpr
      o :=
  loads_of hs (GrArc.from_toVal h)
example := C49_GrArc sampleGrArc sampleGrArc_wf

theorem C48_GrPoly [TextRule] (o : GrPoly) (h : o.WF) (i : Nat) (nl pn : Bool) : Denotes (.ok (o.toSexpr i nl pn)) o.toVal :=
  (Lexes.one fun _ _ hs => GrPoly.lx h hs).parse
example := C48_GrPoly sampleGrPoly sampleGrPoly_wf

theorem C49_GrPoly [TextRule] (o : GrPoly) (h : o.WF) (s : Str) (hs : TextOf o.toVal s) :
    Loads s GrPoly.fromSexpr
      o :=
  loads_of hs (GrPoly.from_toVal h)
example := C49_GrPoly sampleGrPoly sampleGrPoly_wf

theorem C48_GrCurve [TextRule] (o : GrCurve) (h : o.WF) (i : Nat) (nl : Bool) : Denotes (.ok (o.toSexpr i nl)) o.toVal :=
  (Lexes.one fun _ _ hs => GrCurve.lx h hs).parse
example := C48_GrCurve sampleGrCurve sampleGrCurve_wf

theorem C49_GrCurve [TextRule] (o : GrCurve) (h : o.WF) (s : Str) (hs : TextOf o.toVal s) :
    Loads s GrCurve.fromSexpr
      o :=
  loads_of hs (GrCurve.from_toVal h)
example := C49_GrCurve sampleGrCurve sampleGrCurve_wf

theorem C48_FpText [TextRule] (o : FpText) (h : o.WF) (i : Nat) (nl : Bool) : Denotes (.ok (o.toSexpr i nl)) o.toVal :=
  (Lexes.one fun _ _ hs => FpText.lx h hs).parse
example := C48_FpText sampleFpText sampleFpText_wf

theorem C49_FpText [TextRule] (o : FpText) (h : o.WF) (s : Str) (hs : TextOf o.toVal s) :
    Loads s FpText.fromSexpr
      o :=
  loads_of hs (FpText.from_toVal h)
example := C49_FpText sampleFpText sampleFpText_wf

theorem C48_FpLine [TextRule] (o : FpLine) (h : o.WF) (i : Nat) (nl : Bool) : Denotes (.ok (o.toSexpr i nl)) o.toVal :=
  (Lexes.one fun _ _ hs => FpLine.lx h hs).parse
example := C48_FpLine sampleFpLine sampleFpLine_wf

theorem C49_FpLine [TextRule] (o : FpLine) (h : o.WF) (s : Str) (hs : TextOf o.toVal s) :
    Loads s FpLine.fromSexpr
      o :=
  loads_of hs (FpLine.from_toVal h)
example := C49_FpLine sampleFpLine sampleFpLine_wf

theorem C48_FpRect [TextRule] (o : FpRect) (h : o.WF) (i : Nat) (nl : Bool) : Denotes (.ok (o.toSexpr i nl)) o.toVal :=
  (Lexes.one fun _ _ hs => FpRect.lx h hs).parse
example := C48_FpRect sampleFpRect sampleFpRect_wf

theorem C49_FpRect [TextRule] (o : FpRect) (h : o.WF) (s : Str) (hs : TextOf o.toVal s) :
    Loads s FpRect.fromSexpr
      o :=
  loads_of hs (FpRect.from_toVal h)
example := C49_FpRect sampleFpRect sampleFpRect_wf

theorem C48_FpTextBox [TextRule] (o : FpTextBox) (h : o.WF) (i : Nat) (nl : Bool) : Denotes (o.toSexpr i nl) o.toVal :=
  (FpTextBox.lexes h i nl).parse
example := C48_FpTextBox sampleFpTextBox sampleFpTextBox_wf

theorem C49_FpTextBox [TextRule] (o : FpTextBox) (h : o.WF) (s : Str) (hs : TextOf o.toVal s) :
    Loads s FpTextBox.fromSexpr
      o :=
  loads_of hs (FpTextBox.from_toVal h)
example := C49_FpTextBox sampleFpTextBox sampleFpTextBox_wf

theorem C48_FpCircle [TextRule] (o : FpCircle) (h : o.WF) (i : Nat) (nl : Bool) : Denotes (.ok (o.toSexpr i nl)) o.toVal :=
  (Lexes.one fun _ _ hs => FpCircle.lx h hs).parse
example := C48_FpCircle sampleFpCircle sampleFpCircle_wf

theorem C49_FpCircle [TextRule] (o : FpCircle) (h : o.WF) (s : Str) (hs : TextOf o.toVal s) :
    Loads s FpCircle.fromSexpr
      o :=
  loads_of hs (FpCircle.from_toVal h)
example := C49_FpCircle sampleFpCircle sampleFpCircle_wf

theorem C48_FpArc [TextRule] (o : FpArc) (h : o.WF) (i : Nat) (nl : Bool) : Denotes (.ok (o.toSexpr i nl)) o.toVal :=
  (Lexes.one fun _ _ hs => FpArc.lx h hs).parse
example := C48_FpArc sampleFpArc sampleFpArc_wf

theorem C49_FpArc [TextRule] (o : FpArc) (h : o.WF) (s : Str) (hs : TextOf o.toVal s) :
    Loads s FpArc.fromSexpr
      o :=
  loads_of hs (FpArc.from_toVal h)
example := C49_FpArc sampleFpArc sampleFpArc_wf

theorem C48_FpPoly [TextRule] (o : FpPoly) (h : o.WF) (i : Nat) (nl : Bool) : Denotes (.ok (o.toSexpr i nl)) o.toVal :=
  (Lexes.one fun _ _ hs => FpPoly.lx h hs).parse
example := C48_FpPoly sampleFpPoly sampleFpPoly_wf

theorem C49_FpPoly [TextRule] (o : FpPoly) (h : o.WF) (s : Str) (hs : TextOf o.toVal s) :
    Loads s FpPoly.fromSexpr
      o :=
  loads_of hs (FpPoly.from_toVal h)
example := C49_FpPoly sampleFpPoly sampleFpPoly_wf

theorem C48_FpCurve [TextRule] (o : FpCurve) (h : o.WF) (i : Nat) (nl : Bool) : Denotes (.ok (o.toSexpr i nl)) o.toVal :=
  (Lexes.one fun _ _ hs => FpCurve.lx h hs).parse
example := C48_FpCurve sampleFpCurve sampleFpCurve_wf

theorem C49_FpCurve [TextRule] (o : FpCurve) (h : o.WF) (s : Str) (hs : TextOf o.toVal s) :
    Loads s FpCurve.fromSexpr
      o :=
  loads_of hs (FpCurve.from_toVal h)
example := C49_FpCurve sampleFpCurve sampleFpCurve_wf

theorem C48_KeepoutSettings [TextRule] (o : KeepoutSettings) (h : o.WF) (i : Nat) (nl : Bool) : Denotes (.ok (o.toSexpr i nl)) o.toVal :=
  (Lexes.one fun _ _ hs => KeepoutSettings.lx h hs).parse
example := C48_KeepoutSettings sampleKeepoutSettings sampleKeepoutSettings_wf

theorem C49_KeepoutSettings [TextRule] (o : KeepoutSettings) (h : o.WF) (s : Str) (hs : TextOf o.toVal s) :
    Loads s KeepoutSettings.fromSexpr
      o :=
  loads_of hs (KeepoutSettings.from_toVal h)
example := C49_KeepoutSettings sampleKeepoutSettings sampleKeepoutSettings_wf

theorem C48_FillSettings [TextRule] (o : FillSettings) (h : o.WF) (i : Nat) (nl : Bool) : Denotes (.ok (o.toSexpr i nl)) o.toVal :=
  (Lexes.one fun _ _ hs => FillSettings.lx h hs).parse
example := C48_FillSettings sampleFillSettings sampleFillSettings_wf

theorem C49_FillSettings [TextRule] (o : FillSettings) (h : o.WF) (s : Str) (hs : TextOf o.toVal s) :
    Loads s FillSettings.fromSexpr
      o :=
  loads_of hs (FillSettings.from_toVal h)
example := C49_FillSettings sampleFillSettings sampleFillSettings_wf

theorem C48_ZonePolygon [TextRule] (o : ZonePolygon) (h : o.WF) (i : Nat) (nl : Bool) : Denotes (.ok (o.toSexpr i nl)) o.toVal :=
  (Lexes.one fun _ _ hs => ZonePolygon.lx h hs).parse
example := C48_ZonePolygon sampleZonePolygon sampleZonePolygon_wf

theorem C49_ZonePolygon [TextRule] (o : ZonePolygon) (h : o.WF) (s : Str) (hs : TextOf o.toVal s) :
    Loads s ZonePolygon.fromSexpr
      o :=
  loads_of hs (ZonePolygon.from_toVal h)
example := C49_ZonePolygon sampleZonePolygon sampleZonePolygon_wf

theorem C48_FilledPolygon [TextRule] (o : FilledPolygon) (h : o.WF) (i : Nat) (nl : Bool) : Denotes (.ok (o.toSexpr i nl)) o.toVal :=
  (Lexes.one fun _ _ hs => FilledPolygon.lx h hs).parse
example := C48_FilledPolygon sampleFilledPolygon sampleFilledPolygon_wf

theorem C49_FilledPolygon [TextRule] (o : FilledPolygon) (h : o.WF) (s : Str) (hs : TextOf o.toVal s) :
    Loads s FilledPolygon.fromSexpr
      o :=
  loads_of hs (FilledPolygon.from_toVal h)
example := C49_FilledPolygon sampleFilledPolygon sampleFilledPolygon_wf

theorem C48_FillSegments [TextRule] (o : FillSegments) (h : o.WF) (i : Nat) (nl : Bool) : Denotes (.ok (o.toSexpr i nl)) o.toVal :=
  (Lexes.one fun _ _ hs => FillSegments.lx h hs).parse
example := C48_FillSegments sampleFillSegments sampleFillSegments_wf

theorem C49_FillSegments [TextRule] (o : FillSegments) (h : o.WF) (s : Str) (hs : TextOf o.toVal s) :
    Loads s FillSegments.fromSexpr
      o :=
  loads_of hs (FillSegments.from_toVal h)
example := C49_FillSegments sampleFillSegments sampleFillSegments_wf

theorem C48_Zone [TextRule] (o : Zone) (h : o.WF) (i : Nat) (nl : Bool) : Denotes (o.toSexpr i nl) o.toVal :=
  (Zone.lexes h i nl).parse
example := C48_Zone sampleZone sampleZone_wf

theorem C49_Zone [TextRule] (o : Zone) (h : o.WF) (s : Str) (hs : TextOf o.toVal s) :
    Loads s Zone.fromSexpr
      o :=
  loads_of hs (Zone.from_toVal h)
example := C49_Zone sampleZone sampleZone_wf

theorem C48_Attributes [TextRule] (o : Attributes) (h : o.WF) (he : o.isDefault = false) (i : Nat) (nl : Bool) : Denotes (.ok (o.toSexpr i nl)) o.toVal :=
  (Attributes.lexes h he i nl).parse
example := C48_Attributes sampleAttributes sampleAttributes_wf rfl

theorem C49_Attributes [TextRule] (o : Attributes) (h : o.WF) (s : Str) (hs : TextOf o.toVal s) :
    Loads s Attributes.fromSexpr
      o :=
  loads_of hs (Attributes.from_toVal h)
example := C49_Attributes sampleAttributes sampleAttributes_wf

theorem C48_Model [TextRule] (o : Model) (h : o.WF) (i : Nat) (nl : Bool) : Denotes (.ok (o.toSexpr i nl)) o.toVal :=
  (Lexes.one fun _ _ hs => Model.lx h hs).parse
example := C48_Model sampleModel sampleModel_wf

theorem C49_Model [TextRule] (o : Model) (h : o.WF) (s : Str) (hs : TextOf o.toVal s) :
    Loads s Model.fromSexpr
      o :=
  loads_of hs (Model.from_toVal h)
example := C49_Model sampleModel sampleModel_wf

theorem C48_DrillDefinition [TextRule] (o : DrillDefinition) (h : o.WF) (i : Nat) (nl : Bool) : Denotes (.ok (o.toSexpr i nl)) o.toVal :=
  (Lexes.one fun _ _ hs => DrillDefinition.lx h hs).parse
example := C48_DrillDefinition sampleDrillDefinition sampleDrillDefinition_wf

theorem C49_DrillDefinition [TextRule] (o : DrillDefinition) (h : o.WF) (s : Str) (hs : TextOf o.toVal s) :
    Loads s DrillDefinition.fromSexpr
      o :=
  loads_of hs (DrillDefinition.from_toVal h)
example := C49_DrillDefinition sampleDrillDefinition sampleDrillDefinition_wf

theorem C48_PadOptions [TextRule] (o : PadOptions) (h : o.WF) (i : Nat) (nl : Bool) : Denotes (.ok (o.toSexpr i nl)) o.toVal :=
  (Lexes.one fun _ _ hs => PadOptions.lx h hs).parse
example := C48_PadOptions samplePadOptions samplePadOptions_wf

theorem C49_PadOptions [TextRule] (o : PadOptions) (h : o.WF) (s : Str) (hs : TextOf o.toVal s) :
    Loads s PadOptions.fromSexpr
      o :=
  loads_of hs (PadOptions.from_toVal h)
example := C49_PadOptions samplePadOptions samplePadOptions_wf

theorem C48_Pad [TextRule] (o : Pad) (h : o.WF) (i : Nat) (nl : Bool) : Denotes (o.toSexpr i nl) o.toVal :=
  (Pad.lexes h i nl).parse
example := C48_Pad samplePad samplePad_wf

theorem C49_Pad [TextRule] (o : Pad) (h : o.WF) (s : Str) (hs : TextOf o.toVal s) :
    Loads s Pad.fromSexpr
      o :=
  loads_of hs (Pad.from_toVal h)
example := C49_Pad samplePad samplePad_wf

theorem C48_Footprint [TextRule] (o : Footprint) (h : o.WF) (i : Nat) (nl lf : Bool) : Denotes (o.toSexpr i nl lf) o.toVal :=
  (Footprint.lexes h i nl lf).parse
example := C48_Footprint sampleFootprint sampleFootprint_wf

theorem C49_Footprint [TextRule] (o : Footprint) (h : o.WF) (tedit : Val) (s : Str) (hs : TextOf o.toVal s) :
    Loads s (Footprint.fromSexpr tedit)
      { o with filePath := none } :=
  loads_of hs (Footprint.from_toVal h tedit)
example := C49_Footprint sampleFootprint sampleFootprint_wf (.str k!"5f12ab34")

theorem C48_GeneralSettings [TextRule] (o : GeneralSettings) (h : o.WF) (i : Nat) (nl : Bool) : Denotes (.ok (o.toSexpr i nl)) o.toVal :=
  (Lexes.one fun _ _ hs => GeneralSettings.lx h hs).parse
example := C48_GeneralSettings sampleGeneralSettings sampleGeneralSettings_wf

theorem C49_GeneralSettings [TextRule] (o : GeneralSettings) (h : o.WF) (s : Str) (hs : TextOf o.toVal s) :
    Loads s GeneralSettings.fromSexpr
      o :=
  loads_of hs (GeneralSettings.from_toVal h)
example := C49_GeneralSettings sampleGeneralSettings sampleGeneralSettings_wf

theorem C48_LayerToken [TextRule] (o : LayerToken) (h : o.WF) (i : Nat) (nl : Bool) : Denotes (.ok (o.toSexpr i nl)) o.toVal :=
  (Lexes.one fun _ _ hs => LayerToken.lx h hs).parse
example := C48_LayerToken sampleLayerToken sampleLayerToken_wf

theorem C49_LayerToken (o : LayerToken)  (s : Str) (hs : TextOf o.toVal s) :
    Loads s LayerToken.fromSexpr
      o :=
  loads_of hs LayerToken.from_toVal
example := C49_LayerToken sampleLayerToken

theorem C48_StackupLayer [TextRule] (o : StackupLayer) (h : o.WF) (i : Nat) (nl : Bool) : Denotes (.ok (o.toSexpr i nl)) o.toVal :=
  (Lexes.one fun _ _ hs => StackupLayer.lx h hs).parse
example := C48_StackupLayer sampleStackupLayer sampleStackupLayer_wf

theorem C49_StackupLayer (o : StackupLayer)  (s : Str) (hs : TextOf o.toVal s) :
    Loads s StackupLayer.fromSexpr
      o :=
  loads_of hs StackupLayer.from_toVal
example := C49_StackupLayer sampleStackupLayer

theorem C48_Stackup [TextRule] (o : Stackup) (h : o.WF) (i : Nat) (nl : Bool) : Denotes (.ok (o.toSexpr i nl)) o.toVal :=
  (Lexes.one fun _ _ hs => Stackup.lx h hs).parse
example := C48_Stackup sampleStackup sampleStackup_wf

theorem C49_Stackup [TextRule] (o : Stackup) (h : o.WF) (s : Str) (hs : TextOf o.toVal s) :
    Loads s Stackup.fromSexpr
      o :=
  loads_of hs (Stackup.from_toVal h)
example := C49_Stackup sampleStackup sampleStackup_wf

theorem C48_PlotSettings [TextRule] (o : PlotSettings) (h : o.WF) (i : Nat) (nl : Bool) : Denotes (o.toSexpr i nl) o.toVal :=
  (PlotSettings.lexes h i nl).parse
example := C48_PlotSettings samplePlotSettings samplePlotSettings_wf

theorem C49_PlotSettings [TextRule] (o : PlotSettings) (h : o.WF) (s : Str) (hs : TextOf o.toVal s) :
    Loads s PlotSettings.fromSexpr
      { o with useAuxOrigin := false } :=
  loads_of hs (PlotSettings.from_toVal h)
example := C49_PlotSettings samplePlotSettings samplePlotSettings_wf

theorem C48_SetupData [TextRule] (o : SetupData) (h : o.WF) (i : Nat) (nl : Bool) : Denotes (o.toSexpr i nl) o.toVal :=
  (SetupData.lexes h i nl).parse
example := C48_SetupData sampleSetupData sampleSetupData_wf

theorem C49_SetupData [TextRule] (o : SetupData) (h : o.WF) (s : Str) (hs : TextOf o.toVal s) :
    Loads s SetupData.fromSexpr
      { o with plotSettings := o.plotSettings.map fun p => { p with useAuxOrigin := false } } :=
  loads_of hs (SetupData.from_toVal h)
example := C49_SetupData sampleSetupData sampleSetupData_wf

theorem C48_Segment [TextRule] (o : Segment) (h : o.WF) (i : Nat) (nl : Bool) : Denotes (.ok (o.toSexpr i nl)) o.toVal :=
  (Lexes.one fun _ _ hs => Segment.lx h hs).parse
example := C48_Segment sampleSegment sampleSegment_wf

theorem C49_Segment [TextRule] (o : Segment) (h : o.WF) (s : Str) (hs : TextOf o.toVal s) :
    Loads s Segment.fromSexpr
      o :=
  loads_of hs (Segment.from_toVal h)
example := C49_Segment sampleSegment sampleSegment_wf

theorem C48_Via [TextRule] (o : Via) (h : o.WF) (i : Nat) (nl : Bool) : Denotes (.ok (o.toSexpr i nl)) o.toVal :=
  (Lexes.one fun _ _ hs => Via.lx h hs).parse
example := C48_Via sampleVia sampleVia_wf

theorem C49_Via [TextRule] (o : Via) (h : o.WF) (s : Str) (hs : TextOf o.toVal s) :
    Loads s Via.fromSexpr
      o :=
  loads_of hs (Via.from_toVal h)
example := C49_Via sampleVia sampleVia_wf

theorem C48_TraceArc [TextRule] (o : TraceArc) (h : o.WF) (i : Nat) (nl : Bool) : Denotes (.ok (o.toSexpr i nl)) o.toVal :=
  (Lexes.one fun _ _ hs => TraceArc.lx h hs).parse
example := C48_TraceArc sampleTraceArc sampleTraceArc_wf

theorem C49_TraceArc [TextRule] (o : TraceArc) (h : o.WF) (s : Str) (hs : TextOf o.toVal s) :
    Loads s TraceArc.fromSexpr
      o :=
  loads_of hs (TraceArc.from_toVal h)
example := C49_TraceArc sampleTraceArc sampleTraceArc_wf

theorem C48_Target [TextRule] (o : Target) (h : o.WF) (i : Nat) (nl : Bool) : Denotes (.ok (o.toSexpr i nl)) o.toVal :=
  (Lexes.one fun _ _ hs => Target.lx h hs).parse
example := C48_Target sampleTarget sampleTarget_wf

theorem C49_Target [TextRule] (o : Target) (h : o.WF) (s : Str) (hs : TextOf o.toVal s) :
    Loads s Target.fromSexpr
      o :=
  loads_of hs (Target.from_toVal h)
example := C49_Target sampleTarget sampleTarget_wf

theorem C48_DimensionFormat [TextRule] (o : DimensionFormat) (h : o.WF) (i : Nat) (nl : Bool) : Denotes (.ok (o.toSexpr i nl)) o.toVal :=
  (Lexes.one fun _ _ hs => DimensionFormat.lx h hs).parse
example := C48_DimensionFormat sampleDimensionFormat sampleDimensionFormat_wf

theorem C49_DimensionFormat [TextRule] (o : DimensionFormat) (h : o.WF) (s : Str) (hs : TextOf o.toVal s) :
    Loads s DimensionFormat.fromSexpr
      o :=
  loads_of hs (DimensionFormat.from_toVal h)
example := C49_DimensionFormat sampleDimensionFormat sampleDimensionFormat_wf

theorem C48_DimensionStyle [TextRule] (o : DimensionStyle) (h : o.WF) (i : Nat) (nl : Bool) : Denotes (.ok (o.toSexpr i nl)) o.toVal :=
  (Lexes.one fun _ _ hs => DimensionStyle.lx h hs).parse
example := C48_DimensionStyle sampleDimensionStyle sampleDimensionStyle_wf

theorem C49_DimensionStyle [TextRule] (o : DimensionStyle) (h : o.WF) (s : Str) (hs : TextOf o.toVal s) :
    Loads s DimensionStyle.fromSexpr
      o :=
  loads_of hs (DimensionStyle.from_toVal h)
example := C49_DimensionStyle sampleDimensionStyle sampleDimensionStyle_wf

theorem C48_Dimension [TextRule] (o : Dimension) (h : o.WF) (i : Nat) (nl : Bool) : Denotes (o.toSexpr i nl) o.toVal :=
  (Dimension.lexes h i nl).parse
example := C48_Dimension sampleDimension sampleDimension_wf

theorem C49_Dimension [TextRule] (o : Dimension) (h : o.WF) (s : Str) (hs : TextOf o.toVal s) :
    Loads s Dimension.fromSexpr
      o :=
  loads_of hs (Dimension.from_toVal h)
example := C49_Dimension sampleDimension sampleDimension_wf

theorem C48_Board [TextRule] (o : Board) (h : o.WF) (i : Nat) (nl : Bool) : Denotes (o.toSexpr i nl) o.toVal :=
  (Board.lexes h i nl).parse
example := C48_Board sampleBoard sampleBoard_wf

theorem C49_Board [TextRule] (o : Board) (h : o.WF) (tedit : Val) (s : Str) (hs : TextOf o.toVal s) :
    Loads s (Board.fromSexpr tedit)
      { o with
        setup := { o.setup with plotSettings := o.setup.plotSettings.map fun p => { p with useAuxOrigin := false } }
        footprints := o.footprints.map fun f => { f with filePath := none }
        filePath := none } :=
  loads_of hs (Board.from_toVal h tedit)
example := C49_Board sampleBoard sampleBoard_wf (.str k!"5f12ab34")

theorem C48_Line [TextRule] (o : WksShape) (h : o.WF) (i : Nat) (nl : Bool) : Denotes (.ok (o.toSexpr k!"line" i nl)) (o.toVal k!"line") :=
  (Lexes.one fun _ _ hs => WksShape.lx rfl h hs).parse
example := C48_Line sampleWksShape sampleWksShape_wf

theorem C48_Rect [TextRule] (o : WksShape) (h : o.WF) (i : Nat) (nl : Bool) : Denotes (.ok (o.toSexpr k!"rect" i nl)) (o.toVal k!"rect") :=
  (Lexes.one fun _ _ hs => WksShape.lx rfl h hs).parse
example := C48_Rect sampleWksShape sampleWksShape_wf

/-- The text of a file of design rules is a sequence of expressions; in brackets, as the loader puts it, it is this list. -/
theorem C48_DesignRules [TextRule] (o : DesignRules) (h : o.WF) (i : Nat) (nl : Bool) :
    Denotes (o.toSexpr i nl >>= fun s => .ok ('(' :: (s ++ [')']))) (.list o.toVals) := by
  obtain ⟨x, hx, hx'⟩ := DesignRules.lx h i nl
  rw [hx]
  show parseSexp ('(' :: (x ++ [')'])) = .ok (.list o.toVals)
  apply parse_of_lex
  rw [toks_list]
  exact (lx_op (hx' _ _ (lx_cl lx_nil))).lex
example := C48_DesignRules sampleDesignRules sampleDesignRules_wf

theorem C49_DesignRules [TextRule] (o : DesignRules) (h : o.WF) (s : Str) (hs : PrintsSeq o.toVals s) :
    ∃ o', DesignRules.parseText s = .ok o' ∧ PyEq.eq { o with filePath := none } o' := by
  refine ⟨_, ?_, canonEq _⟩
  have : parseSexp ('(' :: (s ++ [')'])) = .ok (.list o.toVals) :=
    C06_tree_round_trip _ _ ⟨[], s, fun _ h => absurd h List.not_mem_nil, hs, rfl⟩
  rw [DesignRules.parseText, this]
  exact DesignRules.from_toVals h
example := C49_DesignRules sampleDesignRules sampleDesignRules_wf

/-- A text of a tree: a net in an unusual layout. -/
example : TextOf (Net.toVal { number := .int 3, name := .str k!"GND" }) k!"  ( net\t3 \"GND\"\n)" := by
  have b : ∀ c, isSpace c = true → Blank [c] := fun c h d hd => by rw [List.mem_singleton.mp hd]; exact h
  refine ⟨_, rfl, k!"  ", k!" net\t3 \"GND\"\n", by intro c hc; simp at hc; rw [hc]; rfl, ?_, rfl⟩
  refine .word [' '] k!"net" k!"\t3 \"GND\"\n" _ (b _ rfl) (by decide) (by decide) (by decide) ?_ rfl ?_
  · intro n hn e
    rcases hn.head e with h | h | h <;> revert h <;> decide
  · refine .int ['\t'] k!" \"GND\"\n" 3 _ (b _ rfl) (exactInt_of_le (by decide)) rfl ?_
    exact .text [' '] k!"GND" ['\n'] [] (b _ rfl) (by decide) rfl (.nil ['\n'] (b _ rfl))

end Kiutils
