import Verif.Props.Equal
import Verif.Props.Samples
import Verif.Props.Text
/-!
# Saving and loading (C12–C20, C24, C40, C41)

The conditions `o.WF` are defined, class by class, in `Verif/Format/*.lean`; `NumOk`, `TextOk`, `TokOk`, `AtomOk`, `LineOk`,
`RawOk`, `WordOk` in `Verif/Fmt.lean`. Beside each theorem, the sample object of `Verif/Props/Samples.lean` shows that the
conditions can be met with all optional parts present.
-/
namespace Kiutils

/-! ## Specification -/

/-- Writing the text, reading it with `parse_sexp` and loading the result succeeds and gives an object equal to `o`. -/
def Reloads {α : Type} [PyEq α] (text : PyM Str) (load : Val → PyM α) (o : α) : Prop :=
  ∃ o', (text >>= parseSexp >>= load) = .ok o' ∧ PyEq.eq o o'

/-- Two texts are both readable and `parse_sexp` returns the same value for them. -/
def SameMeaning (s t : PyM Str) : Prop := ∃ v, (s >>= parseSexp) = .ok v ∧ (t >>= parseSexp) = .ok v

/-- The text is written without an exception, its brackets match, and it consists of one list and nothing behind it. -/
def OneExpression (text : PyM Str) : Prop :=
  ∃ s l, text = .ok s ∧ depthOk 0 (lex s) = true ∧ parseSexp s = .ok (.list l) ∧ lex s = toks (.list l)

/-! ## From the lemmas of `Verif/Proofs` -/

theorem Lexes.reloads [TextRule] {α : Type} [Canon α] [PyEq α] [CanonEq α] {m : PyM Str} {v : Val} (h : Lexes m [v]) {load : Val → PyM α}
    {e : α} (hl : load v = .ok (canon e)) : Reloads m load e := by
  refine ⟨canon e, ?_, canonEq e⟩
  rw [h.parse]
  exact hl

theorem Lexes.same [TextRule] {m m' : PyM Str} {v : Val} (h : Lexes m [v]) (h' : Lexes m' [v]) : SameMeaning m m' :=
  ⟨v, h.parse, h'.parse⟩

theorem Lexes.one [TextRule] {x : Str} {v : Val} (h : ∀ s t, s ⇛ t → (x ++ s) ⇛ toks v ++ t) : Lexes (.ok x) [v] :=
  .of_lx fun s t hs => by rw [toksL_cons, toksL_nil, List.append_nil]; exact h s t hs

theorem Lexes.one_expression [TextRule] {m : PyM Str} {v : Val} (h : Lexes m [v]) (hv : v.isList = true) : OneExpression m := by
  cases v with
  | list l =>
    have hp := h.parse
    obtain ⟨x, rfl, hx⟩ := h
    have hx := (hx [] [] lx_nil).lex
    rw [toksL_cons, toksL_nil, List.append_nil, List.append_nil, List.append_nil] at hx
    refine ⟨x, l, rfl, ?_, hp, hx⟩
    have hp : parseSexp x = .ok (.list l) := hp
    by_cases hd : depthOk 0 (lex x) = true
    · exact hd
    · have hd : depthOk 0 (lex x) = false := by simpa using hd
      rw [parseSexp, run_bad _ [] _ hd] at hp
      cases hp
  | _ => cases hv

/-! ## Positions, which have no text of their own -/

/-- A position under any keyword, as the classes that own one write it. -/
theorem C20_Position [TextRule] (o : Position) (h : o.WF) (k : Str) (hk : isKeyword k = true) (hu : (k == k!"unlocked") = false) :
    Reloads (.ok ('(' :: (k ++ ' ' :: (o.X.pyStr ++ ' ' :: (o.Y.pyStr ++ ((optS o.angle fun a => ' ' :: a.pyStr) ++ [')'])))))) Position.fromSexpr
      o :=
  (Lexes.one fun _ _ hs => by simpa [kw] using Position.lx h hk hs).reloads (Position.from_toVal h hu)
example := C20_Position samplePosition samplePosition_wf k!"at" rfl rfl

/-- A position with the keyword `unlocked`, as `FpText` writes it. -/
theorem C20_Position_unlocked [TextRule] (o : Position) (h : o.WFU) (k : Str) (hk : isKeyword k = true) (hu : (k == k!"unlocked") = false) :
    Reloads (.ok ('(' :: (k ++ ' ' :: (o.X.pyStr ++ ' ' :: (o.Y.pyStr ++ ((optS o.angle fun a => ' ' :: a.pyStr) ++
      (ifS o.unlocked (' ' :: k!"unlocked") ++ [')']))))))) Position.fromSexpr o :=
  (Lexes.one fun _ _ hs => by simpa [kw] using Position.lxU h hk hs).reloads (Position.from_toValU h hu)
example := C20_Position_unlocked samplePositionU samplePositionU_wf k!"at" rfl rfl

/-! ## Design rules: the text is a sequence of expressions, which `from_file` wraps in brackets -/

/-- Loading the text of a file of design rules gives an equal object. -/
theorem C14_DesignRules [TextRule] (o : DesignRules) (h : o.WF) (i : Nat) (nl : Bool) :
    ∃ o', (o.toSexpr i nl >>= DesignRules.parseText) = .ok o' ∧ PyEq.eq { o with filePath := none } o' :=
  ⟨_, DesignRules.parse h i nl, canonEq _⟩
example := C14_DesignRules sampleDesignRules sampleDesignRules_wf

/-! ## Lines and rectangles of worksheets (one Python class each, with the same fields) -/

theorem C15_Line [TextRule] (o : WksShape) (h : o.WF) (i : Nat) (nl : Bool) :
    Reloads (.ok (o.toSexpr k!"line" i nl)) (WksShape.fromSexpr k!"line") o :=
  (Lexes.one fun _ _ hs => WksShape.lx rfl h hs).reloads WksShape.from_toVal
example := C15_Line sampleWksShape sampleWksShape_wf

theorem C15_Rect [TextRule] (o : WksShape) (h : o.WF) (i : Nat) (nl : Bool) :
    Reloads (.ok (o.toSexpr k!"rect" i nl)) (WksShape.fromSexpr k!"rect") o :=
  (Lexes.one fun _ _ hs => WksShape.lx rfl h hs).reloads WksShape.from_toVal
example := C15_Rect sampleWksShape sampleWksShape_wf

/-- The position of an object on a worksheet, under any keyword. -/
theorem C15_WksPosition [TextRule] (o : WksPosition) (h : o.WF) (k : Str) (hk : isKeyword k = true) :
    Reloads (.ok ('(' :: (k ++ ' ' :: (o.text ++ [')'])))) WksPosition.fromSexpr o :=
  (Lexes.one fun _ _ hs => by simpa [kw] using WksPosition.lx h hk hs).reloads WksPosition.from_toVal
example := C15_WksPosition sampleWksPosition sampleWksPosition_wf k!"pos" rfl

/-! ## The classes with a text of their own -/

theorem C20_Coordinate [TextRule] (o : Coordinate) (h : o.WF) (i : Nat) (nl : Bool) :
    Reloads (.ok (o.toSexpr i nl)) Coordinate.fromSexpr
      o :=
  (Lexes.one fun _ _ hs => Coordinate.lx h hs).reloads Coordinate.from_toVal
example := C20_Coordinate sampleCoordinate sampleCoordinate_wf

theorem C20_ColorRGBA [TextRule] (o : ColorRGBA) (h : o.WF) (i : Nat) (nl : Bool) :
    Reloads (.ok (o.toSexpr i nl)) ColorRGBA.fromSexpr
      o :=
  (Lexes.one fun _ _ hs => ColorRGBA.lx h hs).reloads (ColorRGBA.from_toVal h)
example := C20_ColorRGBA sampleColorRGBA sampleColorRGBA_wf

theorem C20_Stroke [TextRule] (o : Stroke) (h : o.WF) (i : Nat) (nl : Bool) :
    Reloads (.ok (o.toSexpr i nl)) Stroke.fromSexpr
      o :=
  (Lexes.one fun _ _ hs => Stroke.lx h hs).reloads (Stroke.from_toVal h)
example := C20_Stroke sampleStroke sampleStroke_wf

theorem C20_Font [TextRule] (o : Font) (h : o.WF) (i : Nat) (nl : Bool) :
    Reloads (.ok (o.toSexpr i nl)) Font.fromSexpr
      o :=
  (Lexes.one fun _ _ hs => Font.lx h hs).reloads (Font.from_toVal h)
example := C20_Font sampleFont sampleFont_wf

theorem C20_Justify [TextRule] (o : Justify) (h : o.WF) (he : o.isEmpty = false) (i : Nat) (nl : Bool) :
    Reloads (.ok (o.toSexpr i nl)) Justify.fromSexpr
      o :=
  (Lexes.one fun _ _ hs => Justify.lx h he hs).reloads (Justify.from_toVal h)
example := C20_Justify sampleJustify sampleJustify_wf rfl

theorem C20_Effects [TextRule] (o : Effects) (h : o.WF) (i : Nat) (nl : Bool) :
    Reloads (.ok (o.toSexpr i nl)) Effects.fromSexpr
      o :=
  (Lexes.one fun _ _ hs => Effects.lx h hs).reloads (Effects.from_toVal h)
example := C20_Effects sampleEffects sampleEffects_wf

theorem C20_Net [TextRule] (o : Net) (h : o.WF) (i : Nat) (nl : Bool) :
    Reloads (.ok (o.toSexpr i nl)) Net.fromSexpr
      o :=
  (Lexes.one fun _ _ hs => Net.lx h hs).reloads Net.from_toVal
example := C20_Net sampleNet sampleNet_wf

theorem C20_Group [TextRule] (o : Group) (h : o.WF) (i : Nat) (nl : Bool) :
    Reloads (.ok (o.toSexpr i nl)) Group.fromSexpr
      o :=
  (Lexes.one fun _ _ hs => Group.lx h hs).reloads (Group.from_toVal h)
example := C20_Group sampleGroup sampleGroup_wf

theorem C20_PageSettings [TextRule] (o : PageSettings) (h : o.WF) (i : Nat) (nl : Bool) :
    Reloads (o.toSexpr i nl) PageSettings.fromSexpr
      o :=
  (PageSettings.lx h i nl).reloads (PageSettings.from_toVal h)
example := C20_PageSettings samplePageSettings samplePageSettings_wf

theorem C20_TitleBlock [TextRule] (o : TitleBlock) (h : o.WF) (i : Nat) (nl : Bool) :
    Reloads (.ok (o.toSexpr i nl)) TitleBlock.fromSexpr
      o :=
  (Lexes.one fun _ _ hs => TitleBlock.lx h hs).reloads (TitleBlock.from_toVal h)
example := C20_TitleBlock sampleTitleBlock sampleTitleBlock_wf

theorem C20_Property [TextRule] (o : Property) (h : o.WF) (i : Nat) (nl : Bool) :
    Reloads (.ok (o.toSexpr i nl)) Property.fromSexpr
      o :=
  (Lexes.one fun _ _ hs => Property.lx h hs).reloads (Property.from_toVal h)
example := C20_Property sampleProperty sampleProperty_wf

theorem C20_RenderCachePolygon [TextRule] (o : RenderCachePolygon) (h : o.WF) (i : Nat) (nl : Bool) :
    Reloads (.ok (o.toSexpr i nl)) RenderCachePolygon.fromSexpr
      o :=
  (Lexes.one fun _ _ hs => RenderCachePolygon.lx h hs).reloads (RenderCachePolygon.from_toVal h)
example := C20_RenderCachePolygon sampleRenderCachePolygon sampleRenderCachePolygon_wf

theorem C20_RenderCache [TextRule] (o : RenderCache) (h : o.WF) (i : Nat) (nl : Bool) :
    Reloads (.ok (o.toSexpr i nl)) RenderCache.fromSexpr
      o :=
  (Lexes.one fun _ _ hs => RenderCache.lx h hs).reloads (RenderCache.from_toVal h)
example := C20_RenderCache sampleRenderCache sampleRenderCache_wf

theorem C20_Fill [TextRule] (o : Fill) (h : o.WF) (i : Nat) (nl : Bool) :
    Reloads (.ok (o.toSexpr i nl)) Fill.fromSexpr
      o :=
  (Lexes.one fun _ _ hs => Fill.lx h hs).reloads (Fill.from_toVal h)
example := C20_Fill sampleFill sampleFill_wf

theorem C20_Image [TextRule] (o : Image) (h : o.WF) (i : Nat) (nl : Bool) :
    Reloads (.ok (o.toSexpr i nl)) Image.fromSexpr
      o :=
  (Lexes.one fun _ _ hs => Image.lx h hs).reloads (Image.from_toVal h)
example := C20_Image sampleImage sampleImage_wf

theorem C13_Library [TextRule] (o : Library) (h : o.WF) (i : Nat) (nl : Bool) :
    Reloads (.ok (o.toSexpr i nl)) Library.fromSexpr
      o :=
  (Lexes.one fun _ _ hs => Library.lx h hs).reloads (Library.from_toVal h)
example := C13_Library sampleLibrary sampleLibrary_wf

theorem C13_LibTable [TextRule] (o : LibTable) (h : o.WF) (i : Nat) (nl : Bool) :
    Reloads (.ok (o.toSexpr i nl)) LibTable.fromSexpr
      { o with filePath := none } :=
  (Lexes.one fun _ _ hs => LibTable.lx h hs).reloads (LibTable.from_toVal h)
example := C13_LibTable sampleLibTable sampleLibTable_wf

theorem C14_Constraint [TextRule] (o : Constraint) (h : o.WF) (i : Nat) (nl : Bool) :
    Reloads (o.toSexpr i nl) Constraint.fromSexpr
      o :=
  (Constraint.lx h i nl).reloads (Constraint.from_toVal h)
example := C14_Constraint sampleConstraint sampleConstraint_wf

theorem C14_Rule [TextRule] (o : Rule) (h : o.WF) (i : Nat) :
    Reloads (o.toSexpr i) Rule.fromSexpr
      o :=
  (Rule.lx h i).reloads (Rule.from_toVal h)
example := C14_Rule sampleRule sampleRule_wf

theorem C15_WksFontSize [TextRule] (o : WksFontSize) (h : o.WF) (i : Nat) (nl : Bool) :
    Reloads (.ok (o.toSexpr i nl)) WksFontSize.fromSexpr
      o :=
  (Lexes.one fun _ _ hs => WksFontSize.lx h hs).reloads WksFontSize.from_toVal
example := C15_WksFontSize sampleWksFontSize sampleWksFontSize_wf

theorem C15_Bitmap [TextRule] (o : Bitmap) (h : o.WF) (i : Nat) (nl : Bool) :
    Reloads (.ok (o.toSexpr i nl)) Bitmap.fromSexpr
      o :=
  (Lexes.one fun _ _ hs => Bitmap.lx h hs).reloads (Bitmap.from_toVal h)
example := C15_Bitmap sampleBitmap sampleBitmap_wf

theorem C15_TbText [TextRule] (o : TbText) (h : o.WF) (i : Nat) (nl : Bool) :
    Reloads (.ok (o.toSexpr i nl)) TbText.fromSexpr
      o :=
  (Lexes.one fun _ _ hs => TbText.lx h hs).reloads (TbText.from_toVal h)
example := C15_TbText sampleTbText sampleTbText_wf

theorem C15_TextSize [TextRule] (o : TextSize) (h : o.WF) (i : Nat) (nl : Bool) :
    Reloads (.ok (o.toSexpr i nl)) TextSize.fromSexpr
      o :=
  (Lexes.one fun _ _ hs => TextSize.lx h hs).reloads TextSize.from_toVal
example := C15_TextSize sampleTextSize sampleTextSize_wf

theorem C15_Setup [TextRule] (o : Setup) (h : o.WF) (i : Nat) (nl : Bool) :
    Reloads (.ok (o.toSexpr i nl)) Setup.fromSexpr
      o :=
  (Lexes.one fun _ _ hs => Setup.lx h hs).reloads Setup.from_toVal
example := C15_Setup sampleSetup sampleSetup_wf

theorem C15_WorkSheet [TextRule] (o : WorkSheet) (h : o.WF) (i : Nat) (nl : Bool) :
    Reloads (o.toSexpr i nl) WorkSheet.fromSexpr
      { o with filePath := none } :=
  (WorkSheet.lx h i nl).reloads (WorkSheet.from_toVal h)
example := C15_WorkSheet sampleWorkSheet sampleWorkSheet_wf

theorem C41_SyArc [TextRule] (o : SyArc) (h : o.WF) (i : Nat) (nl : Bool) :
    Reloads (.ok (o.toSexpr i nl)) SyArc.fromSexpr
      o :=
  (Lexes.one fun _ _ hs => SyArc.lx h hs).reloads (SyArc.from_toVal h)
example := C41_SyArc sampleSyArc sampleSyArc_wf

theorem C41_SyCircle [TextRule] (o : SyCircle) (h : o.WF) (i : Nat) (nl : Bool) :
    Reloads (.ok (o.toSexpr i nl)) SyCircle.fromSexpr
      o :=
  (Lexes.one fun _ _ hs => SyCircle.lx h hs).reloads (SyCircle.from_toVal h)
example := C41_SyCircle sampleSyCircle sampleSyCircle_wf

theorem C41_SyPolyLine [TextRule] (o : SyPolyLine) (h : o.WF) (i : Nat) (nl : Bool) :
    Reloads (.ok (o.toSexpr i nl)) SyPolyLine.fromSexpr
      o :=
  (Lexes.one fun _ _ hs => SyPolyLine.lx h hs).reloads (SyPolyLine.from_toVal h)
example := C41_SyPolyLine sampleSyPolyLine sampleSyPolyLine_wf

theorem C41_SyRect [TextRule] (o : SyRect) (h : o.WF) (i : Nat) (nl : Bool) :
    Reloads (.ok (o.toSexpr i nl)) SyRect.fromSexpr
      o :=
  (Lexes.one fun _ _ hs => SyRect.lx h hs).reloads (SyRect.from_toVal h)
example := C41_SyRect sampleSyRect sampleSyRect_wf

theorem C41_SyText [TextRule] (o : SyText) (h : o.WF) (i : Nat) (nl : Bool) :
    Reloads (.ok (o.toSexpr i nl)) SyText.fromSexpr
      o :=
  (Lexes.one fun _ _ hs => SyText.lx h hs).reloads (SyText.from_toVal h)
example := C41_SyText sampleSyText sampleSyText_wf

theorem C41_SyTextBox [TextRule] (o : SyTextBox) (h : o.WF) (i : Nat) (nl : Bool) :
    Reloads (.ok (o.toSexpr i nl)) SyTextBox.fromSexpr
      o :=
  (Lexes.one fun _ _ hs => SyTextBox.lx h hs).reloads (SyTextBox.from_toVal h)
example := C41_SyTextBox sampleSyTextBox sampleSyTextBox_wf

theorem C41_SymbolAlternativePin [TextRule] (o : SymbolAlternativePin) (h : o.WF) (i : Nat) (nl : Bool) :
    Reloads (.ok (o.toSexpr i nl)) SymbolAlternativePin.fromSexpr
      o :=
  (Lexes.one fun _ _ hs => SymbolAlternativePin.lx h hs).reloads SymbolAlternativePin.from_toVal
example := C41_SymbolAlternativePin sampleSymbolAlternativePin sampleSymbolAlternativePin_wf

theorem C41_SymbolPin [TextRule] (o : SymbolPin) (h : o.WF) (i : Nat) (nl : Bool) :
    Reloads (.ok (o.toSexpr i nl)) SymbolPin.fromSexpr
      o :=
  (Lexes.one fun _ _ hs => SymbolPin.lx h hs).reloads (SymbolPin.from_toVal h)
example := C41_SymbolPin sampleSymbolPin sampleSymbolPin_wf

theorem C16_Symbol [TextRule] (o : Symbol) (h : o.WF) (i : Nat) (nl : Bool) :
    Reloads (.ok (o.toSexpr i nl)) Symbol.fromSexpr
      o :=
  (Lexes.one fun _ _ hs => Symbol.lx h hs).reloads (Symbol.from_toVal h)
example := C16_Symbol sampleSymbol sampleSymbol_wf

theorem C16_SymbolLib [TextRule] (o : SymbolLib) (h : o.WF) (i : Nat) (nl : Bool) :
    Reloads (.ok (o.toSexpr i nl)) SymbolLib.fromSexpr
      { o with filePath := none } :=
  (Lexes.one fun _ _ hs => SymbolLib.lx h hs).reloads (SymbolLib.from_toVal h)
example := C16_SymbolLib sampleSymbolLib sampleSymbolLib_wf

theorem C22_Junction_partial [TextRule] (o : Junction) (h : o.WF) (i : Nat) (nl : Bool) :
    Reloads (o.toSexpr i nl) Junction.fromSexpr
      { o with diameter := .int 0 } :=
  (Junction.lexes h i nl).reloads (Junction.from_toVal h)
example := C22_Junction_partial sampleJunction sampleJunction_wf

theorem C41_NoConnect [TextRule] (o : NoConnect) (h : o.WF) (i : Nat) (nl : Bool) :
    Reloads (.ok (o.toSexpr i nl)) NoConnect.fromSexpr
      o :=
  (Lexes.one fun _ _ hs => NoConnect.lx h hs).reloads (NoConnect.from_toVal h)
example := C41_NoConnect sampleNoConnect sampleNoConnect_wf

theorem C41_BusEntry [TextRule] (o : BusEntry) (h : o.WF) (i : Nat) (nl : Bool) :
    Reloads (.ok (o.toSexpr i nl)) BusEntry.fromSexpr
      o :=
  (Lexes.one fun _ _ hs => BusEntry.lx h hs).reloads (BusEntry.from_toVal h)
example := C41_BusEntry sampleBusEntry sampleBusEntry_wf

theorem C41_BusAlias [TextRule] (o : BusAlias) (h : o.WF) (i : Nat) (nl : Bool) :
    Reloads (.ok (o.toSexpr i nl)) BusAlias.fromSexpr
      o :=
  (Lexes.one fun _ _ hs => BusAlias.lx h hs).reloads BusAlias.from_toVal
example := C41_BusAlias sampleBusAlias sampleBusAlias_wf

theorem C41_Connection [TextRule] (o : Connection) (h : o.WF) (i : Nat) (nl : Bool) :
    Reloads (.ok (o.toSexpr i nl)) Connection.fromSexpr
      o :=
  (Lexes.one fun _ _ hs => Connection.lx h hs).reloads (Connection.from_toVal h)
example := C41_Connection sampleConnection sampleConnection_wf

theorem C41_PolyLine [TextRule] (o : PolyLine) (h : o.WF) (i : Nat) (nl : Bool) :
    Reloads (.ok (o.toSexpr i nl)) PolyLine.fromSexpr
      o :=
  (Lexes.one fun _ _ hs => PolyLine.lx h hs).reloads (PolyLine.from_toVal h)
example := C41_PolyLine samplePolyLine samplePolyLine_wf

theorem C41_Text [TextRule] (o : Text) (h : o.WF) (i : Nat) (nl : Bool) :
    Reloads (o.toSexpr i nl) Text.fromSexpr
      o :=
  (Text.lexes h i nl).reloads (Text.from_toVal h)
example := C41_Text sampleText sampleText_wf

theorem C41_TextBox [TextRule] (o : TextBox) (h : o.WF) (i : Nat) (nl : Bool) :
    Reloads (.ok (o.toSexpr i nl)) TextBox.fromSexpr
      o :=
  (Lexes.one fun _ _ hs => TextBox.lx h hs).reloads (TextBox.from_toVal h)
example := C41_TextBox sampleTextBox sampleTextBox_wf

theorem C41_LocalLabel [TextRule] (o : LocalLabel) (h : o.WF) (i : Nat) (nl : Bool) :
    Reloads (.ok (o.toSexpr i nl)) LocalLabel.fromSexpr
      o :=
  (Lexes.one fun _ _ hs => LocalLabel.lx h hs).reloads (LocalLabel.from_toVal h)
example := C41_LocalLabel sampleLocalLabel sampleLocalLabel_wf

theorem C41_GlobalLabel [TextRule] (o : GlobalLabel) (h : o.WF) (i : Nat) (nl : Bool) :
    Reloads (.ok (o.toSexpr i nl)) GlobalLabel.fromSexpr
      o :=
  (Lexes.one fun _ _ hs => GlobalLabel.lx h hs).reloads (GlobalLabel.from_toVal h)
example := C41_GlobalLabel sampleGlobalLabel sampleGlobalLabel_wf

theorem C41_HierarchicalLabel [TextRule] (o : HierarchicalLabel) (h : o.WF) (i : Nat) (nl : Bool) :
    Reloads (.ok (o.toSexpr i nl)) HierarchicalLabel.fromSexpr
      o :=
  (Lexes.one fun _ _ hs => HierarchicalLabel.lx h hs).reloads (HierarchicalLabel.from_toVal h)
example := C41_HierarchicalLabel sampleHierarchicalLabel sampleHierarchicalLabel_wf

theorem C41_SymbolProjectPath [TextRule] (o : SymbolProjectPath) (h : o.WF) (i : Nat) (nl : Bool) :
    Reloads (.ok (o.toSexpr i nl)) SymbolProjectPath.fromSexpr
      o :=
  (Lexes.one fun _ _ hs => SymbolProjectPath.lx h hs).reloads (SymbolProjectPath.from_toVal h)
example := C41_SymbolProjectPath sampleSymbolProjectPath sampleSymbolProjectPath_wf

theorem C41_SymbolProjectInstance [TextRule] (o : SymbolProjectInstance) (h : o.WF) (i : Nat) (nl : Bool) :
    Reloads (.ok (o.toSexpr i nl)) SymbolProjectInstance.fromSexpr
      o :=
  (Lexes.one fun _ _ hs => SymbolProjectInstance.lx h hs).reloads (SymbolProjectInstance.from_toVal h)
example := C41_SymbolProjectInstance sampleSymbolProjectInstance sampleSymbolProjectInstance_wf

theorem C41_SchematicSymbol [TextRule] (o : SchematicSymbol) (h : o.WF) (i : Nat) (nl : Bool) :
    Reloads (.ok (o.toSexpr i nl)) SchematicSymbol.fromSexpr
      o :=
  (Lexes.one fun _ _ hs => SchematicSymbol.lx h hs).reloads (SchematicSymbol.from_toVal h)
example := C41_SchematicSymbol sampleSchematicSymbol sampleSchematicSymbol_wf

theorem C41_HierarchicalPin [TextRule] (o : HierarchicalPin) (h : o.WF) (i : Nat) (nl : Bool) :
    Reloads (.ok (o.toSexpr i nl)) HierarchicalPin.fromSexpr
      o :=
  (Lexes.one fun _ _ hs => HierarchicalPin.lx h hs).reloads (HierarchicalPin.from_toVal h)
example := C41_HierarchicalPin sampleHierarchicalPin sampleHierarchicalPin_wf

theorem C41_HierarchicalSheetProjectPath [TextRule] (o : HierarchicalSheetProjectPath) (h : o.WF) (i : Nat) (nl : Bool) :
    Reloads (.ok (o.toSexpr i nl)) HierarchicalSheetProjectPath.fromSexpr
      o :=
  (Lexes.one fun _ _ hs => HierarchicalSheetProjectPath.lx h hs).reloads (HierarchicalSheetProjectPath.from_toVal h)
example := C41_HierarchicalSheetProjectPath sampleHierarchicalSheetProjectPath sampleHierarchicalSheetProjectPath_wf

theorem C41_HierarchicalSheetProjectInstance [TextRule] (o : HierarchicalSheetProjectInstance) (h : o.WF) (i : Nat) (nl : Bool) :
    Reloads (.ok (o.toSexpr i nl)) HierarchicalSheetProjectInstance.fromSexpr
      o :=
  (Lexes.one fun _ _ hs => HierarchicalSheetProjectInstance.lx h hs).reloads (HierarchicalSheetProjectInstance.from_toVal h)
example := C41_HierarchicalSheetProjectInstance sampleHierarchicalSheetProjectInstance sampleHierarchicalSheetProjectInstance_wf

theorem C41_HierarchicalSheet [TextRule] (o : HierarchicalSheet) (h : o.WF) (i : Nat) (nl : Bool) :
    Reloads (o.toSexpr i nl) HierarchicalSheet.fromSexpr
      { o with fill := { o.fill with precision := some 4 } } :=
  (HierarchicalSheet.lexes h _ _).reloads (HierarchicalSheet.from_toVal h)
example := C41_HierarchicalSheet sampleHierarchicalSheet sampleHierarchicalSheet_wf

theorem C41_HierarchicalSheetInstance [TextRule] (o : HierarchicalSheetInstance) (h : o.WF) (i : Nat) (nl : Bool) :
    Reloads (.ok (o.toSexpr i nl)) HierarchicalSheetInstance.fromSexpr
      o :=
  (Lexes.one fun _ _ hs => HierarchicalSheetInstance.lx h hs).reloads (HierarchicalSheetInstance.from_toVal h)
example := C41_HierarchicalSheetInstance sampleHierarchicalSheetInstance sampleHierarchicalSheetInstance_wf

theorem C41_SymbolInstance [TextRule] (o : SymbolInstance) (h : o.WF) (i : Nat) (nl : Bool) :
    Reloads (.ok (o.toSexpr i nl)) SymbolInstance.fromSexpr
      o :=
  (Lexes.one fun _ _ hs => SymbolInstance.lx h hs).reloads (SymbolInstance.from_toVal h)
example := C41_SymbolInstance sampleSymbolInstance sampleSymbolInstance_wf

theorem C41_Rectangle [TextRule] (o : Rectangle) (h : o.WF) (i : Nat) (nl : Bool) :
    Reloads (.ok (o.toSexpr i nl)) Rectangle.fromSexpr
      o :=
  (Lexes.one fun _ _ hs => Rectangle.lx h hs).reloads (Rectangle.from_toVal h)
example := C41_Rectangle sampleRectangle sampleRectangle_wf

theorem C41_Arc [TextRule] (o : Arc) (h : o.WF) (i : Nat) (nl : Bool) :
    Reloads (.ok (o.toSexpr i nl)) Arc.fromSexpr
      o :=
  (Lexes.one fun _ _ hs => Arc.lx h hs).reloads (Arc.from_toVal h)
example := C41_Arc sampleArc sampleArc_wf

theorem C41_Circle [TextRule] (o : Circle) (h : o.WF) (i : Nat) (nl : Bool) :
    Reloads (.ok (o.toSexpr i nl)) Circle.fromSexpr
      o :=
  (Lexes.one fun _ _ hs => Circle.lx h hs).reloads (Circle.from_toVal h)
example := C41_Circle sampleCircle sampleCircle_wf

theorem C41_NetclassFlag [TextRule] (o : NetclassFlag) (h : o.WF) (i : Nat) (nl : Bool) :
    Reloads (o.toSexpr i nl) NetclassFlag.fromSexpr
      o :=
  (NetclassFlag.lexes h i nl).reloads (NetclassFlag.from_toVal h)
example := C41_NetclassFlag sampleNetclassFlag sampleNetclassFlag_wf

theorem C17_Schematic [TextRule] (o : Schematic) (h : o.WF) (i : Nat) (nl : Bool) :
    Reloads (o.toSexpr i nl) Schematic.fromSexpr
      { o with
        junctions := o.junctions.map fun j => { j with diameter := .int 0 }
        sheets := o.sheets.map fun s => { s with fill := { s.fill with precision := some 4 } }
        filePath := none } :=
  (Schematic.lexes h i nl).reloads (Schematic.from_toVal h)
example := C17_Schematic sampleSchematic sampleSchematic_wf

theorem C41_GrText [TextRule] (o : GrText) (h : o.WF) (i : Nat) (nl : Bool) :
    Reloads (.ok (o.toSexpr i nl)) GrText.fromSexpr
      o :=
  (Lexes.one fun _ _ hs => GrText.lx h hs).reloads (GrText.from_toVal h)
example := C41_GrText sampleGrText sampleGrText_wf

theorem C41_GrTextBox [TextRule] (o : GrTextBox) (h : o.WF) (i : Nat) (nl : Bool) :
    Reloads (o.toSexpr i nl) GrTextBox.fromSexpr
      o :=
  (GrTextBox.lexes h i nl).reloads (GrTextBox.from_toVal h)
example := C41_GrTextBox sampleGrTextBox sampleGrTextBox_wf

theorem C41_GrLine [TextRule] (o : GrLine) (h : o.WF) (i : Nat) (nl : Bool) :
    Reloads (.ok (o.toSexpr i nl)) GrLine.fromSexpr
      o :=
  (Lexes.one fun _ _ hs => GrLine.lx h hs).reloads (GrLine.from_toVal h)
example := C41_GrLine sampleGrLine sampleGrLine_wf

theorem C41_GrRect [TextRule] (o : GrRect) (h : o.WF) (i : Nat) (nl : Bool) :
    Reloads (.ok (o.toSexpr i nl)) GrRect.fromSexpr
      o :=
  (Lexes.one fun _ _ hs => GrRect.lx h hs).reloads (GrRect.from_toVal h)
example := C41_GrRect sampleGrRect sampleGrRect_wf

theorem C41_GrCircle [TextRule] (o : GrCircle) (h : o.WF) (i : Nat) (nl : Bool) :
    Reloads (.ok (o.toSexpr i nl)) GrCircle.fromSexpr
      o :=
  (Lexes.one fun _ _ hs => GrCircle.lx h hs).reloads (GrCircle.from_toVal h)
example := C41_GrCircle sampleGrCircle sampleGrCircle_wf

theorem C41_GrArc [TextRule] (o : GrArc) (h : o.WF) (i : Nat) (nl : Bool) :
    Reloads (.ok (o.toSexpr i nl)) GrArc.fromSexpr
      o :=
  (Lexes.one fun _ _ hs => GrArc.lx h hs).reloads (GrArc.from_toVal h)
example := C41_GrArc sampleGrArc sampleGrArc_wf

theorem C41_GrPoly [TextRule] (o : GrPoly) (h : o.WF) (i : Nat) (nl pn : Bool) :
    Reloads (.ok (o.toSexpr i nl pn)) GrPoly.fromSexpr
      o :=
  (Lexes.one fun _ _ hs => GrPoly.lx h hs).reloads (GrPoly.from_toVal h)
example := C41_GrPoly sampleGrPoly sampleGrPoly_wf

theorem C41_GrCurve [TextRule] (o : GrCurve) (h : o.WF) (i : Nat) (nl : Bool) :
    Reloads (.ok (o.toSexpr i nl)) GrCurve.fromSexpr
      o :=
  (Lexes.one fun _ _ hs => GrCurve.lx h hs).reloads (GrCurve.from_toVal h)
example := C41_GrCurve sampleGrCurve sampleGrCurve_wf

theorem C41_FpText [TextRule] (o : FpText) (h : o.WF) (i : Nat) (nl : Bool) :
    Reloads (.ok (o.toSexpr i nl)) FpText.fromSexpr
      o :=
  (Lexes.one fun _ _ hs => FpText.lx h hs).reloads (FpText.from_toVal h)
example := C41_FpText sampleFpText sampleFpText_wf

theorem C41_FpLine [TextRule] (o : FpLine) (h : o.WF) (i : Nat) (nl : Bool) :
    Reloads (.ok (o.toSexpr i nl)) FpLine.fromSexpr
      o :=
  (Lexes.one fun _ _ hs => FpLine.lx h hs).reloads (FpLine.from_toVal h)
example := C41_FpLine sampleFpLine sampleFpLine_wf

theorem C41_FpRect [TextRule] (o : FpRect) (h : o.WF) (i : Nat) (nl : Bool) :
    Reloads (.ok (o.toSexpr i nl)) FpRect.fromSexpr
      o :=
  (Lexes.one fun _ _ hs => FpRect.lx h hs).reloads (FpRect.from_toVal h)
example := C41_FpRect sampleFpRect sampleFpRect_wf

theorem C41_FpTextBox [TextRule] (o : FpTextBox) (h : o.WF) (i : Nat) (nl : Bool) :
    Reloads (o.toSexpr i nl) FpTextBox.fromSexpr
      o :=
  (FpTextBox.lexes h i nl).reloads (FpTextBox.from_toVal h)
example := C41_FpTextBox sampleFpTextBox sampleFpTextBox_wf

theorem C41_FpCircle [TextRule] (o : FpCircle) (h : o.WF) (i : Nat) (nl : Bool) :
    Reloads (.ok (o.toSexpr i nl)) FpCircle.fromSexpr
      o :=
  (Lexes.one fun _ _ hs => FpCircle.lx h hs).reloads (FpCircle.from_toVal h)
example := C41_FpCircle sampleFpCircle sampleFpCircle_wf

theorem C41_FpArc [TextRule] (o : FpArc) (h : o.WF) (i : Nat) (nl : Bool) :
    Reloads (.ok (o.toSexpr i nl)) FpArc.fromSexpr
      o :=
  (Lexes.one fun _ _ hs => FpArc.lx h hs).reloads (FpArc.from_toVal h)
example := C41_FpArc sampleFpArc sampleFpArc_wf

theorem C41_FpPoly [TextRule] (o : FpPoly) (h : o.WF) (i : Nat) (nl : Bool) :
    Reloads (.ok (o.toSexpr i nl)) FpPoly.fromSexpr
      o :=
  (Lexes.one fun _ _ hs => FpPoly.lx h hs).reloads (FpPoly.from_toVal h)
example := C41_FpPoly sampleFpPoly sampleFpPoly_wf

theorem C41_FpCurve [TextRule] (o : FpCurve) (h : o.WF) (i : Nat) (nl : Bool) :
    Reloads (.ok (o.toSexpr i nl)) FpCurve.fromSexpr
      o :=
  (Lexes.one fun _ _ hs => FpCurve.lx h hs).reloads (FpCurve.from_toVal h)
example := C41_FpCurve sampleFpCurve sampleFpCurve_wf

theorem C41_KeepoutSettings [TextRule] (o : KeepoutSettings) (h : o.WF) (i : Nat) (nl : Bool) :
    Reloads (.ok (o.toSexpr i nl)) KeepoutSettings.fromSexpr
      o :=
  (Lexes.one fun _ _ hs => KeepoutSettings.lx h hs).reloads (KeepoutSettings.from_toVal h)
example := C41_KeepoutSettings sampleKeepoutSettings sampleKeepoutSettings_wf

theorem C41_FillSettings [TextRule] (o : FillSettings) (h : o.WF) (i : Nat) (nl : Bool) :
    Reloads (.ok (o.toSexpr i nl)) FillSettings.fromSexpr
      o :=
  (Lexes.one fun _ _ hs => FillSettings.lx h hs).reloads (FillSettings.from_toVal h)
example := C41_FillSettings sampleFillSettings sampleFillSettings_wf

theorem C41_ZonePolygon [TextRule] (o : ZonePolygon) (h : o.WF) (i : Nat) (nl : Bool) :
    Reloads (.ok (o.toSexpr i nl)) ZonePolygon.fromSexpr
      o :=
  (Lexes.one fun _ _ hs => ZonePolygon.lx h hs).reloads (ZonePolygon.from_toVal h)
example := C41_ZonePolygon sampleZonePolygon sampleZonePolygon_wf

theorem C41_FilledPolygon [TextRule] (o : FilledPolygon) (h : o.WF) (i : Nat) (nl : Bool) :
    Reloads (.ok (o.toSexpr i nl)) FilledPolygon.fromSexpr
      o :=
  (Lexes.one fun _ _ hs => FilledPolygon.lx h hs).reloads (FilledPolygon.from_toVal h)
example := C41_FilledPolygon sampleFilledPolygon sampleFilledPolygon_wf

theorem C41_FillSegments [TextRule] (o : FillSegments) (h : o.WF) (i : Nat) (nl : Bool) :
    Reloads (.ok (o.toSexpr i nl)) FillSegments.fromSexpr
      o :=
  (Lexes.one fun _ _ hs => FillSegments.lx h hs).reloads (FillSegments.from_toVal h)
example := C41_FillSegments sampleFillSegments sampleFillSegments_wf

theorem C41_Zone [TextRule] (o : Zone) (h : o.WF) (i : Nat) (nl : Bool) :
    Reloads (o.toSexpr i nl) Zone.fromSexpr
      o :=
  (Zone.lexes h i nl).reloads (Zone.from_toVal h)
example := C41_Zone sampleZone sampleZone_wf

theorem Attributes.lexes [TextRule] {o : Attributes} (h : o.WF) (he : o.isDefault = false) (i : Nat) (nl : Bool) :
    Lexes (.ok (o.toSexpr i nl)) [o.toVal] :=
  Lexes.of_lx fun _ _ hs => by
    have hx := Attributes.lx (i := i) (nl := nl) h hs
    rw [he] at hx
    exact hx

theorem C41_Attributes [TextRule] (o : Attributes) (h : o.WF) (he : o.isDefault = false) (i : Nat) (nl : Bool) :
    Reloads (.ok (o.toSexpr i nl)) Attributes.fromSexpr
      o :=
  (Attributes.lexes h he i nl).reloads (Attributes.from_toVal h)
example := C41_Attributes sampleAttributes sampleAttributes_wf rfl

theorem C41_Model [TextRule] (o : Model) (h : o.WF) (i : Nat) (nl : Bool) :
    Reloads (.ok (o.toSexpr i nl)) Model.fromSexpr
      o :=
  (Lexes.one fun _ _ hs => Model.lx h hs).reloads (Model.from_toVal h)
example := C41_Model sampleModel sampleModel_wf

theorem C41_DrillDefinition [TextRule] (o : DrillDefinition) (h : o.WF) (i : Nat) (nl : Bool) :
    Reloads (.ok (o.toSexpr i nl)) DrillDefinition.fromSexpr
      o :=
  (Lexes.one fun _ _ hs => DrillDefinition.lx h hs).reloads (DrillDefinition.from_toVal h)
example := C41_DrillDefinition sampleDrillDefinition sampleDrillDefinition_wf

theorem C41_PadOptions [TextRule] (o : PadOptions) (h : o.WF) (i : Nat) (nl : Bool) :
    Reloads (.ok (o.toSexpr i nl)) PadOptions.fromSexpr
      o :=
  (Lexes.one fun _ _ hs => PadOptions.lx h hs).reloads (PadOptions.from_toVal h)
example := C41_PadOptions samplePadOptions samplePadOptions_wf

theorem C41_Pad [TextRule] (o : Pad) (h : o.WF) (i : Nat) (nl : Bool) :
    Reloads (o.toSexpr i nl) Pad.fromSexpr
      o :=
  (Pad.lexes h i nl).reloads (Pad.from_toVal h)
example := C41_Pad samplePad samplePad_wf

theorem C18_Footprint [TextRule] (o : Footprint) (h : o.WF) (tedit : Val) (i : Nat) (nl lf : Bool) :
    Reloads (o.toSexpr i nl lf) (Footprint.fromSexpr tedit)
      { o with filePath := none } :=
  (Footprint.lexes h i nl lf).reloads (Footprint.from_toVal h tedit)
example := C18_Footprint sampleFootprint sampleFootprint_wf (.str k!"5f12ab34")

theorem C41_GeneralSettings [TextRule] (o : GeneralSettings) (h : o.WF) (i : Nat) (nl : Bool) :
    Reloads (.ok (o.toSexpr i nl)) GeneralSettings.fromSexpr
      o :=
  (Lexes.one fun _ _ hs => GeneralSettings.lx h hs).reloads (GeneralSettings.from_toVal h)
example := C41_GeneralSettings sampleGeneralSettings sampleGeneralSettings_wf

theorem C41_LayerToken [TextRule] (o : LayerToken) (h : o.WF) (i : Nat) (nl : Bool) :
    Reloads (.ok (o.toSexpr i nl)) LayerToken.fromSexpr
      o :=
  (Lexes.one fun _ _ hs => LayerToken.lx h hs).reloads LayerToken.from_toVal
example := C41_LayerToken sampleLayerToken sampleLayerToken_wf

theorem C41_StackupLayer [TextRule] (o : StackupLayer) (h : o.WF) (i : Nat) (nl : Bool) :
    Reloads (.ok (o.toSexpr i nl)) StackupLayer.fromSexpr
      o :=
  (Lexes.one fun _ _ hs => StackupLayer.lx h hs).reloads StackupLayer.from_toVal
example := C41_StackupLayer sampleStackupLayer sampleStackupLayer_wf

theorem C41_Stackup [TextRule] (o : Stackup) (h : o.WF) (i : Nat) (nl : Bool) :
    Reloads (.ok (o.toSexpr i nl)) Stackup.fromSexpr
      o :=
  (Lexes.one fun _ _ hs => Stackup.lx h hs).reloads (Stackup.from_toVal h)
example := C41_Stackup sampleStackup sampleStackup_wf

theorem C40_PlotSettings_partial [TextRule] (o : PlotSettings) (h : o.WF) (i : Nat) (nl : Bool) :
    Reloads (o.toSexpr i nl) PlotSettings.fromSexpr
      { o with useAuxOrigin := false } :=
  (PlotSettings.lexes h _ _).reloads (PlotSettings.from_toVal h)
example := C40_PlotSettings_partial samplePlotSettings samplePlotSettings_wf

theorem C41_SetupData [TextRule] (o : SetupData) (h : o.WF) (i : Nat) (nl : Bool) :
    Reloads (o.toSexpr i nl) SetupData.fromSexpr
      { o with plotSettings := o.plotSettings.map fun p => { p with useAuxOrigin := false } } :=
  (SetupData.lexes h _ _).reloads (SetupData.from_toVal h)
example := C41_SetupData sampleSetupData sampleSetupData_wf

theorem C41_Segment [TextRule] (o : Segment) (h : o.WF) (i : Nat) (nl : Bool) :
    Reloads (.ok (o.toSexpr i nl)) Segment.fromSexpr
      o :=
  (Lexes.one fun _ _ hs => Segment.lx h hs).reloads (Segment.from_toVal h)
example := C41_Segment sampleSegment sampleSegment_wf

theorem C41_Via [TextRule] (o : Via) (h : o.WF) (i : Nat) (nl : Bool) :
    Reloads (.ok (o.toSexpr i nl)) Via.fromSexpr
      o :=
  (Lexes.one fun _ _ hs => Via.lx h hs).reloads (Via.from_toVal h)
example := C41_Via sampleVia sampleVia_wf

theorem C41_TraceArc [TextRule] (o : TraceArc) (h : o.WF) (i : Nat) (nl : Bool) :
    Reloads (.ok (o.toSexpr i nl)) TraceArc.fromSexpr
      o :=
  (Lexes.one fun _ _ hs => TraceArc.lx h hs).reloads (TraceArc.from_toVal h)
example := C41_TraceArc sampleTraceArc sampleTraceArc_wf

theorem C41_Target [TextRule] (o : Target) (h : o.WF) (i : Nat) (nl : Bool) :
    Reloads (.ok (o.toSexpr i nl)) Target.fromSexpr
      o :=
  (Lexes.one fun _ _ hs => Target.lx h hs).reloads (Target.from_toVal h)
example := C41_Target sampleTarget sampleTarget_wf

theorem C41_DimensionFormat [TextRule] (o : DimensionFormat) (h : o.WF) (i : Nat) (nl : Bool) :
    Reloads (.ok (o.toSexpr i nl)) DimensionFormat.fromSexpr
      o :=
  (Lexes.one fun _ _ hs => DimensionFormat.lx h hs).reloads (DimensionFormat.from_toVal h)
example := C41_DimensionFormat sampleDimensionFormat sampleDimensionFormat_wf

theorem C41_DimensionStyle [TextRule] (o : DimensionStyle) (h : o.WF) (i : Nat) (nl : Bool) :
    Reloads (.ok (o.toSexpr i nl)) DimensionStyle.fromSexpr
      o :=
  (Lexes.one fun _ _ hs => DimensionStyle.lx h hs).reloads (DimensionStyle.from_toVal h)
example := C41_DimensionStyle sampleDimensionStyle sampleDimensionStyle_wf

theorem C41_Dimension [TextRule] (o : Dimension) (h : o.WF) (i : Nat) (nl : Bool) :
    Reloads (o.toSexpr i nl) Dimension.fromSexpr
      o :=
  (Dimension.lexes h i nl).reloads (Dimension.from_toVal h)
example := C41_Dimension sampleDimension sampleDimension_wf

theorem C19_Board [TextRule] (o : Board) (h : o.WF) (tedit : Val) (i : Nat) (nl : Bool) :
    Reloads (o.toSexpr i nl) (Board.fromSexpr tedit)
      { o with
        setup := { o.setup with plotSettings := o.setup.plotSettings.map fun p => { p with useAuxOrigin := false } }
        footprints := o.footprints.map fun f => { f with filePath := none }
        filePath := none } :=
  (Board.lexes h i nl).reloads (Board.from_toVal h tedit)
example := C19_Board sampleBoard sampleBoard_wf (.str k!"5f12ab34")

/-! ## C12: layout arguments do not change the meaning -/

theorem C12_Coordinate [TextRule] (o : Coordinate) (h : o.WF) (i : Nat) (nl : Bool) (i' : Nat) (nl' : Bool) :
    SameMeaning (.ok (o.toSexpr i nl)) (.ok (o.toSexpr i' nl')) :=
  (Lexes.one fun _ _ hs => Coordinate.lx h hs).same (Lexes.one fun _ _ hs => Coordinate.lx h hs)
example := C12_Coordinate sampleCoordinate sampleCoordinate_wf

theorem C12_ColorRGBA [TextRule] (o : ColorRGBA) (h : o.WF) (i : Nat) (nl : Bool) (i' : Nat) (nl' : Bool) :
    SameMeaning (.ok (o.toSexpr i nl)) (.ok (o.toSexpr i' nl')) :=
  (Lexes.one fun _ _ hs => ColorRGBA.lx h hs).same (Lexes.one fun _ _ hs => ColorRGBA.lx h hs)
example := C12_ColorRGBA sampleColorRGBA sampleColorRGBA_wf

theorem C12_Stroke [TextRule] (o : Stroke) (h : o.WF) (i : Nat) (nl : Bool) (i' : Nat) (nl' : Bool) :
    SameMeaning (.ok (o.toSexpr i nl)) (.ok (o.toSexpr i' nl')) :=
  (Lexes.one fun _ _ hs => Stroke.lx h hs).same (Lexes.one fun _ _ hs => Stroke.lx h hs)
example := C12_Stroke sampleStroke sampleStroke_wf

theorem C12_Font [TextRule] (o : Font) (h : o.WF) (i : Nat) (nl : Bool) (i' : Nat) (nl' : Bool) :
    SameMeaning (.ok (o.toSexpr i nl)) (.ok (o.toSexpr i' nl')) :=
  (Lexes.one fun _ _ hs => Font.lx h hs).same (Lexes.one fun _ _ hs => Font.lx h hs)
example := C12_Font sampleFont sampleFont_wf

theorem C12_Justify [TextRule] (o : Justify) (h : o.WF) (he : o.isEmpty = false) (i : Nat) (nl : Bool) (i' : Nat) (nl' : Bool) :
    SameMeaning (.ok (o.toSexpr i nl)) (.ok (o.toSexpr i' nl')) :=
  (Lexes.one fun _ _ hs => Justify.lx h he hs).same (Lexes.one fun _ _ hs => Justify.lx h he hs)
example := C12_Justify sampleJustify sampleJustify_wf rfl

theorem C12_Effects [TextRule] (o : Effects) (h : o.WF) (i : Nat) (nl : Bool) (i' : Nat) (nl' : Bool) :
    SameMeaning (.ok (o.toSexpr i nl)) (.ok (o.toSexpr i' nl')) :=
  (Lexes.one fun _ _ hs => Effects.lx h hs).same (Lexes.one fun _ _ hs => Effects.lx h hs)
example := C12_Effects sampleEffects sampleEffects_wf

theorem C12_Net [TextRule] (o : Net) (h : o.WF) (i : Nat) (nl : Bool) (i' : Nat) (nl' : Bool) :
    SameMeaning (.ok (o.toSexpr i nl)) (.ok (o.toSexpr i' nl')) :=
  (Lexes.one fun _ _ hs => Net.lx h hs).same (Lexes.one fun _ _ hs => Net.lx h hs)
example := C12_Net sampleNet sampleNet_wf

theorem C12_Group [TextRule] (o : Group) (h : o.WF) (i : Nat) (nl : Bool) (i' : Nat) (nl' : Bool) :
    SameMeaning (.ok (o.toSexpr i nl)) (.ok (o.toSexpr i' nl')) :=
  (Lexes.one fun _ _ hs => Group.lx h hs).same (Lexes.one fun _ _ hs => Group.lx h hs)
example := C12_Group sampleGroup sampleGroup_wf

theorem C12_PageSettings [TextRule] (o : PageSettings) (h : o.WF) (i : Nat) (nl : Bool) (i' : Nat) (nl' : Bool) :
    SameMeaning (o.toSexpr i nl) (o.toSexpr i' nl') :=
  (PageSettings.lx h i nl).same (PageSettings.lx h i' nl')
example := C12_PageSettings samplePageSettings samplePageSettings_wf

theorem C12_TitleBlock [TextRule] (o : TitleBlock) (h : o.WF) (i : Nat) (nl : Bool) (i' : Nat) (nl' : Bool) :
    SameMeaning (.ok (o.toSexpr i nl)) (.ok (o.toSexpr i' nl')) :=
  (Lexes.one fun _ _ hs => TitleBlock.lx h hs).same (Lexes.one fun _ _ hs => TitleBlock.lx h hs)
example := C12_TitleBlock sampleTitleBlock sampleTitleBlock_wf

theorem C12_Property [TextRule] (o : Property) (h : o.WF) (i : Nat) (nl : Bool) (i' : Nat) (nl' : Bool) :
    SameMeaning (.ok (o.toSexpr i nl)) (.ok (o.toSexpr i' nl')) :=
  (Lexes.one fun _ _ hs => Property.lx h hs).same (Lexes.one fun _ _ hs => Property.lx h hs)
example := C12_Property sampleProperty sampleProperty_wf

theorem C12_RenderCachePolygon [TextRule] (o : RenderCachePolygon) (h : o.WF) (i : Nat) (nl : Bool) (i' : Nat) (nl' : Bool) :
    SameMeaning (.ok (o.toSexpr i nl)) (.ok (o.toSexpr i' nl')) :=
  (Lexes.one fun _ _ hs => RenderCachePolygon.lx h hs).same (Lexes.one fun _ _ hs => RenderCachePolygon.lx h hs)
example := C12_RenderCachePolygon sampleRenderCachePolygon sampleRenderCachePolygon_wf

theorem C12_RenderCache [TextRule] (o : RenderCache) (h : o.WF) (i : Nat) (nl : Bool) (i' : Nat) (nl' : Bool) :
    SameMeaning (.ok (o.toSexpr i nl)) (.ok (o.toSexpr i' nl')) :=
  (Lexes.one fun _ _ hs => RenderCache.lx h hs).same (Lexes.one fun _ _ hs => RenderCache.lx h hs)
example := C12_RenderCache sampleRenderCache sampleRenderCache_wf

theorem C12_Fill [TextRule] (o : Fill) (h : o.WF) (i : Nat) (nl : Bool) (i' : Nat) (nl' : Bool) :
    SameMeaning (.ok (o.toSexpr i nl)) (.ok (o.toSexpr i' nl')) :=
  (Lexes.one fun _ _ hs => Fill.lx h hs).same (Lexes.one fun _ _ hs => Fill.lx h hs)
example := C12_Fill sampleFill sampleFill_wf

theorem C12_Image [TextRule] (o : Image) (h : o.WF) (i : Nat) (nl : Bool) (i' : Nat) (nl' : Bool) :
    SameMeaning (.ok (o.toSexpr i nl)) (.ok (o.toSexpr i' nl')) :=
  (Lexes.one fun _ _ hs => Image.lx h hs).same (Lexes.one fun _ _ hs => Image.lx h hs)
example := C12_Image sampleImage sampleImage_wf

theorem C12_Library [TextRule] (o : Library) (h : o.WF) (i : Nat) (nl : Bool) (i' : Nat) (nl' : Bool) :
    SameMeaning (.ok (o.toSexpr i nl)) (.ok (o.toSexpr i' nl')) :=
  (Lexes.one fun _ _ hs => Library.lx h hs).same (Lexes.one fun _ _ hs => Library.lx h hs)
example := C12_Library sampleLibrary sampleLibrary_wf

theorem C12_LibTable [TextRule] (o : LibTable) (h : o.WF) (i : Nat) (nl : Bool) (i' : Nat) (nl' : Bool) :
    SameMeaning (.ok (o.toSexpr i nl)) (.ok (o.toSexpr i' nl')) :=
  (Lexes.one fun _ _ hs => LibTable.lx h hs).same (Lexes.one fun _ _ hs => LibTable.lx h hs)
example := C12_LibTable sampleLibTable sampleLibTable_wf

theorem C12_Constraint [TextRule] (o : Constraint) (h : o.WF) (i : Nat) (nl : Bool) (i' : Nat) (nl' : Bool) :
    SameMeaning (o.toSexpr i nl) (o.toSexpr i' nl') :=
  (Constraint.lx h i nl).same (Constraint.lx h i' nl')
example := C12_Constraint sampleConstraint sampleConstraint_wf

theorem C12_Rule [TextRule] (o : Rule) (h : o.WF) (i : Nat) (i' : Nat) :
    SameMeaning (o.toSexpr i) (o.toSexpr i') :=
  (Rule.lx h i).same (Rule.lx h i')
example := C12_Rule sampleRule sampleRule_wf

theorem C12_WksFontSize [TextRule] (o : WksFontSize) (h : o.WF) (i : Nat) (nl : Bool) (i' : Nat) (nl' : Bool) :
    SameMeaning (.ok (o.toSexpr i nl)) (.ok (o.toSexpr i' nl')) :=
  (Lexes.one fun _ _ hs => WksFontSize.lx h hs).same (Lexes.one fun _ _ hs => WksFontSize.lx h hs)
example := C12_WksFontSize sampleWksFontSize sampleWksFontSize_wf

theorem C12_Bitmap [TextRule] (o : Bitmap) (h : o.WF) (i : Nat) (nl : Bool) (i' : Nat) (nl' : Bool) :
    SameMeaning (.ok (o.toSexpr i nl)) (.ok (o.toSexpr i' nl')) :=
  (Lexes.one fun _ _ hs => Bitmap.lx h hs).same (Lexes.one fun _ _ hs => Bitmap.lx h hs)
example := C12_Bitmap sampleBitmap sampleBitmap_wf

theorem C12_TbText [TextRule] (o : TbText) (h : o.WF) (i : Nat) (nl : Bool) (i' : Nat) (nl' : Bool) :
    SameMeaning (.ok (o.toSexpr i nl)) (.ok (o.toSexpr i' nl')) :=
  (Lexes.one fun _ _ hs => TbText.lx h hs).same (Lexes.one fun _ _ hs => TbText.lx h hs)
example := C12_TbText sampleTbText sampleTbText_wf

theorem C12_TextSize [TextRule] (o : TextSize) (h : o.WF) (i : Nat) (nl : Bool) (i' : Nat) (nl' : Bool) :
    SameMeaning (.ok (o.toSexpr i nl)) (.ok (o.toSexpr i' nl')) :=
  (Lexes.one fun _ _ hs => TextSize.lx h hs).same (Lexes.one fun _ _ hs => TextSize.lx h hs)
example := C12_TextSize sampleTextSize sampleTextSize_wf

theorem C12_Setup [TextRule] (o : Setup) (h : o.WF) (i : Nat) (nl : Bool) (i' : Nat) (nl' : Bool) :
    SameMeaning (.ok (o.toSexpr i nl)) (.ok (o.toSexpr i' nl')) :=
  (Lexes.one fun _ _ hs => Setup.lx h hs).same (Lexes.one fun _ _ hs => Setup.lx h hs)
example := C12_Setup sampleSetup sampleSetup_wf

theorem C12_WorkSheet [TextRule] (o : WorkSheet) (h : o.WF) (i : Nat) (nl : Bool) (i' : Nat) (nl' : Bool) :
    SameMeaning (o.toSexpr i nl) (o.toSexpr i' nl') :=
  (WorkSheet.lx h i nl).same (WorkSheet.lx h i' nl')
example := C12_WorkSheet sampleWorkSheet sampleWorkSheet_wf

theorem C12_SyArc [TextRule] (o : SyArc) (h : o.WF) (i : Nat) (nl : Bool) (i' : Nat) (nl' : Bool) :
    SameMeaning (.ok (o.toSexpr i nl)) (.ok (o.toSexpr i' nl')) :=
  (Lexes.one fun _ _ hs => SyArc.lx h hs).same (Lexes.one fun _ _ hs => SyArc.lx h hs)
example := C12_SyArc sampleSyArc sampleSyArc_wf

theorem C12_SyCircle [TextRule] (o : SyCircle) (h : o.WF) (i : Nat) (nl : Bool) (i' : Nat) (nl' : Bool) :
    SameMeaning (.ok (o.toSexpr i nl)) (.ok (o.toSexpr i' nl')) :=
  (Lexes.one fun _ _ hs => SyCircle.lx h hs).same (Lexes.one fun _ _ hs => SyCircle.lx h hs)
example := C12_SyCircle sampleSyCircle sampleSyCircle_wf

theorem C12_SyPolyLine [TextRule] (o : SyPolyLine) (h : o.WF) (i : Nat) (nl : Bool) (i' : Nat) (nl' : Bool) :
    SameMeaning (.ok (o.toSexpr i nl)) (.ok (o.toSexpr i' nl')) :=
  (Lexes.one fun _ _ hs => SyPolyLine.lx h hs).same (Lexes.one fun _ _ hs => SyPolyLine.lx h hs)
example := C12_SyPolyLine sampleSyPolyLine sampleSyPolyLine_wf

theorem C12_SyRect [TextRule] (o : SyRect) (h : o.WF) (i : Nat) (nl : Bool) (i' : Nat) (nl' : Bool) :
    SameMeaning (.ok (o.toSexpr i nl)) (.ok (o.toSexpr i' nl')) :=
  (Lexes.one fun _ _ hs => SyRect.lx h hs).same (Lexes.one fun _ _ hs => SyRect.lx h hs)
example := C12_SyRect sampleSyRect sampleSyRect_wf

theorem C12_SyText [TextRule] (o : SyText) (h : o.WF) (i : Nat) (nl : Bool) (i' : Nat) (nl' : Bool) :
    SameMeaning (.ok (o.toSexpr i nl)) (.ok (o.toSexpr i' nl')) :=
  (Lexes.one fun _ _ hs => SyText.lx h hs).same (Lexes.one fun _ _ hs => SyText.lx h hs)
example := C12_SyText sampleSyText sampleSyText_wf

theorem C12_SyTextBox [TextRule] (o : SyTextBox) (h : o.WF) (i : Nat) (nl : Bool) (i' : Nat) (nl' : Bool) :
    SameMeaning (.ok (o.toSexpr i nl)) (.ok (o.toSexpr i' nl')) :=
  (Lexes.one fun _ _ hs => SyTextBox.lx h hs).same (Lexes.one fun _ _ hs => SyTextBox.lx h hs)
example := C12_SyTextBox sampleSyTextBox sampleSyTextBox_wf

theorem C12_SymbolAlternativePin [TextRule] (o : SymbolAlternativePin) (h : o.WF) (i : Nat) (nl : Bool) (i' : Nat) (nl' : Bool) :
    SameMeaning (.ok (o.toSexpr i nl)) (.ok (o.toSexpr i' nl')) :=
  (Lexes.one fun _ _ hs => SymbolAlternativePin.lx h hs).same (Lexes.one fun _ _ hs => SymbolAlternativePin.lx h hs)
example := C12_SymbolAlternativePin sampleSymbolAlternativePin sampleSymbolAlternativePin_wf

theorem C12_SymbolPin [TextRule] (o : SymbolPin) (h : o.WF) (i : Nat) (nl : Bool) (i' : Nat) (nl' : Bool) :
    SameMeaning (.ok (o.toSexpr i nl)) (.ok (o.toSexpr i' nl')) :=
  (Lexes.one fun _ _ hs => SymbolPin.lx h hs).same (Lexes.one fun _ _ hs => SymbolPin.lx h hs)
example := C12_SymbolPin sampleSymbolPin sampleSymbolPin_wf

theorem C12_Symbol [TextRule] (o : Symbol) (h : o.WF) (i : Nat) (nl : Bool) (i' : Nat) (nl' : Bool) :
    SameMeaning (.ok (o.toSexpr i nl)) (.ok (o.toSexpr i' nl')) :=
  (Lexes.one fun _ _ hs => Symbol.lx h hs).same (Lexes.one fun _ _ hs => Symbol.lx h hs)
example := C12_Symbol sampleSymbol sampleSymbol_wf

theorem C12_SymbolLib [TextRule] (o : SymbolLib) (h : o.WF) (i : Nat) (nl : Bool) (i' : Nat) (nl' : Bool) :
    SameMeaning (.ok (o.toSexpr i nl)) (.ok (o.toSexpr i' nl')) :=
  (Lexes.one fun _ _ hs => SymbolLib.lx h hs).same (Lexes.one fun _ _ hs => SymbolLib.lx h hs)
example := C12_SymbolLib sampleSymbolLib sampleSymbolLib_wf

theorem C12_Junction [TextRule] (o : Junction) (h : o.WF) (i : Nat) (nl : Bool) (i' : Nat) (nl' : Bool) :
    SameMeaning (o.toSexpr i nl) (o.toSexpr i' nl') :=
  (Junction.lexes h i nl).same (Junction.lexes h i' nl')
example := C12_Junction sampleJunction sampleJunction_wf

theorem C12_NoConnect [TextRule] (o : NoConnect) (h : o.WF) (i : Nat) (nl : Bool) (i' : Nat) (nl' : Bool) :
    SameMeaning (.ok (o.toSexpr i nl)) (.ok (o.toSexpr i' nl')) :=
  (Lexes.one fun _ _ hs => NoConnect.lx h hs).same (Lexes.one fun _ _ hs => NoConnect.lx h hs)
example := C12_NoConnect sampleNoConnect sampleNoConnect_wf

theorem C12_BusEntry [TextRule] (o : BusEntry) (h : o.WF) (i : Nat) (nl : Bool) (i' : Nat) (nl' : Bool) :
    SameMeaning (.ok (o.toSexpr i nl)) (.ok (o.toSexpr i' nl')) :=
  (Lexes.one fun _ _ hs => BusEntry.lx h hs).same (Lexes.one fun _ _ hs => BusEntry.lx h hs)
example := C12_BusEntry sampleBusEntry sampleBusEntry_wf

theorem C12_BusAlias [TextRule] (o : BusAlias) (h : o.WF) (i : Nat) (nl : Bool) (i' : Nat) (nl' : Bool) :
    SameMeaning (.ok (o.toSexpr i nl)) (.ok (o.toSexpr i' nl')) :=
  (Lexes.one fun _ _ hs => BusAlias.lx h hs).same (Lexes.one fun _ _ hs => BusAlias.lx h hs)
example := C12_BusAlias sampleBusAlias sampleBusAlias_wf

theorem C12_Connection [TextRule] (o : Connection) (h : o.WF) (i : Nat) (nl : Bool) (i' : Nat) (nl' : Bool) :
    SameMeaning (.ok (o.toSexpr i nl)) (.ok (o.toSexpr i' nl')) :=
  (Lexes.one fun _ _ hs => Connection.lx h hs).same (Lexes.one fun _ _ hs => Connection.lx h hs)
example := C12_Connection sampleConnection sampleConnection_wf

theorem C12_PolyLine [TextRule] (o : PolyLine) (h : o.WF) (i : Nat) (nl : Bool) (i' : Nat) (nl' : Bool) :
    SameMeaning (.ok (o.toSexpr i nl)) (.ok (o.toSexpr i' nl')) :=
  (Lexes.one fun _ _ hs => PolyLine.lx h hs).same (Lexes.one fun _ _ hs => PolyLine.lx h hs)
example := C12_PolyLine samplePolyLine samplePolyLine_wf

theorem C12_Text [TextRule] (o : Text) (h : o.WF) (i : Nat) (nl : Bool) (i' : Nat) (nl' : Bool) :
    SameMeaning (o.toSexpr i nl) (o.toSexpr i' nl') :=
  (Text.lexes h i nl).same (Text.lexes h i' nl')
example := C12_Text sampleText sampleText_wf

theorem C12_TextBox [TextRule] (o : TextBox) (h : o.WF) (i : Nat) (nl : Bool) (i' : Nat) (nl' : Bool) :
    SameMeaning (.ok (o.toSexpr i nl)) (.ok (o.toSexpr i' nl')) :=
  (Lexes.one fun _ _ hs => TextBox.lx h hs).same (Lexes.one fun _ _ hs => TextBox.lx h hs)
example := C12_TextBox sampleTextBox sampleTextBox_wf

theorem C12_LocalLabel [TextRule] (o : LocalLabel) (h : o.WF) (i : Nat) (nl : Bool) (i' : Nat) (nl' : Bool) :
    SameMeaning (.ok (o.toSexpr i nl)) (.ok (o.toSexpr i' nl')) :=
  (Lexes.one fun _ _ hs => LocalLabel.lx h hs).same (Lexes.one fun _ _ hs => LocalLabel.lx h hs)
example := C12_LocalLabel sampleLocalLabel sampleLocalLabel_wf

theorem C12_GlobalLabel [TextRule] (o : GlobalLabel) (h : o.WF) (i : Nat) (nl : Bool) (i' : Nat) (nl' : Bool) :
    SameMeaning (.ok (o.toSexpr i nl)) (.ok (o.toSexpr i' nl')) :=
  (Lexes.one fun _ _ hs => GlobalLabel.lx h hs).same (Lexes.one fun _ _ hs => GlobalLabel.lx h hs)
example := C12_GlobalLabel sampleGlobalLabel sampleGlobalLabel_wf

theorem C12_HierarchicalLabel [TextRule] (o : HierarchicalLabel) (h : o.WF) (i : Nat) (nl : Bool) (i' : Nat) (nl' : Bool) :
    SameMeaning (.ok (o.toSexpr i nl)) (.ok (o.toSexpr i' nl')) :=
  (Lexes.one fun _ _ hs => HierarchicalLabel.lx h hs).same (Lexes.one fun _ _ hs => HierarchicalLabel.lx h hs)
example := C12_HierarchicalLabel sampleHierarchicalLabel sampleHierarchicalLabel_wf

theorem C12_SymbolProjectPath [TextRule] (o : SymbolProjectPath) (h : o.WF) (i : Nat) (nl : Bool) (i' : Nat) (nl' : Bool) :
    SameMeaning (.ok (o.toSexpr i nl)) (.ok (o.toSexpr i' nl')) :=
  (Lexes.one fun _ _ hs => SymbolProjectPath.lx h hs).same (Lexes.one fun _ _ hs => SymbolProjectPath.lx h hs)
example := C12_SymbolProjectPath sampleSymbolProjectPath sampleSymbolProjectPath_wf

theorem C12_SymbolProjectInstance [TextRule] (o : SymbolProjectInstance) (h : o.WF) (i : Nat) (nl : Bool) (i' : Nat) (nl' : Bool) :
    SameMeaning (.ok (o.toSexpr i nl)) (.ok (o.toSexpr i' nl')) :=
  (Lexes.one fun _ _ hs => SymbolProjectInstance.lx h hs).same (Lexes.one fun _ _ hs => SymbolProjectInstance.lx h hs)
example := C12_SymbolProjectInstance sampleSymbolProjectInstance sampleSymbolProjectInstance_wf

theorem C12_SchematicSymbol [TextRule] (o : SchematicSymbol) (h : o.WF) (i : Nat) (nl : Bool) (i' : Nat) (nl' : Bool) :
    SameMeaning (.ok (o.toSexpr i nl)) (.ok (o.toSexpr i' nl')) :=
  (Lexes.one fun _ _ hs => SchematicSymbol.lx h hs).same (Lexes.one fun _ _ hs => SchematicSymbol.lx h hs)
example := C12_SchematicSymbol sampleSchematicSymbol sampleSchematicSymbol_wf

theorem C12_HierarchicalPin [TextRule] (o : HierarchicalPin) (h : o.WF) (i : Nat) (nl : Bool) (i' : Nat) (nl' : Bool) :
    SameMeaning (.ok (o.toSexpr i nl)) (.ok (o.toSexpr i' nl')) :=
  (Lexes.one fun _ _ hs => HierarchicalPin.lx h hs).same (Lexes.one fun _ _ hs => HierarchicalPin.lx h hs)
example := C12_HierarchicalPin sampleHierarchicalPin sampleHierarchicalPin_wf

theorem C12_HierarchicalSheetProjectPath [TextRule] (o : HierarchicalSheetProjectPath) (h : o.WF) (i : Nat) (nl : Bool) (i' : Nat) (nl' : Bool) :
    SameMeaning (.ok (o.toSexpr i nl)) (.ok (o.toSexpr i' nl')) :=
  (Lexes.one fun _ _ hs => HierarchicalSheetProjectPath.lx h hs).same (Lexes.one fun _ _ hs => HierarchicalSheetProjectPath.lx h hs)
example := C12_HierarchicalSheetProjectPath sampleHierarchicalSheetProjectPath sampleHierarchicalSheetProjectPath_wf

theorem C12_HierarchicalSheetProjectInstance [TextRule] (o : HierarchicalSheetProjectInstance) (h : o.WF) (i : Nat) (nl : Bool) (i' : Nat) (nl' : Bool) :
    SameMeaning (.ok (o.toSexpr i nl)) (.ok (o.toSexpr i' nl')) :=
  (Lexes.one fun _ _ hs => HierarchicalSheetProjectInstance.lx h hs).same (Lexes.one fun _ _ hs => HierarchicalSheetProjectInstance.lx h hs)
example := C12_HierarchicalSheetProjectInstance sampleHierarchicalSheetProjectInstance sampleHierarchicalSheetProjectInstance_wf

theorem C12_HierarchicalSheet [TextRule] (o : HierarchicalSheet) (h : o.WF) (i : Nat) (nl : Bool) (i' : Nat) (nl' : Bool) :
    SameMeaning (o.toSexpr i nl) (o.toSexpr i' nl') :=
  (HierarchicalSheet.lexes h _ _).same (HierarchicalSheet.lexes h _ _)
example := C12_HierarchicalSheet sampleHierarchicalSheet sampleHierarchicalSheet_wf

theorem C12_HierarchicalSheetInstance [TextRule] (o : HierarchicalSheetInstance) (h : o.WF) (i : Nat) (nl : Bool) (i' : Nat) (nl' : Bool) :
    SameMeaning (.ok (o.toSexpr i nl)) (.ok (o.toSexpr i' nl')) :=
  (Lexes.one fun _ _ hs => HierarchicalSheetInstance.lx h hs).same (Lexes.one fun _ _ hs => HierarchicalSheetInstance.lx h hs)
example := C12_HierarchicalSheetInstance sampleHierarchicalSheetInstance sampleHierarchicalSheetInstance_wf

theorem C12_SymbolInstance [TextRule] (o : SymbolInstance) (h : o.WF) (i : Nat) (nl : Bool) (i' : Nat) (nl' : Bool) :
    SameMeaning (.ok (o.toSexpr i nl)) (.ok (o.toSexpr i' nl')) :=
  (Lexes.one fun _ _ hs => SymbolInstance.lx h hs).same (Lexes.one fun _ _ hs => SymbolInstance.lx h hs)
example := C12_SymbolInstance sampleSymbolInstance sampleSymbolInstance_wf

theorem C12_Rectangle [TextRule] (o : Rectangle) (h : o.WF) (i : Nat) (nl : Bool) (i' : Nat) (nl' : Bool) :
    SameMeaning (.ok (o.toSexpr i nl)) (.ok (o.toSexpr i' nl')) :=
  (Lexes.one fun _ _ hs => Rectangle.lx h hs).same (Lexes.one fun _ _ hs => Rectangle.lx h hs)
example := C12_Rectangle sampleRectangle sampleRectangle_wf

theorem C12_Arc [TextRule] (o : Arc) (h : o.WF) (i : Nat) (nl : Bool) (i' : Nat) (nl' : Bool) :
    SameMeaning (.ok (o.toSexpr i nl)) (.ok (o.toSexpr i' nl')) :=
  (Lexes.one fun _ _ hs => Arc.lx h hs).same (Lexes.one fun _ _ hs => Arc.lx h hs)
example := C12_Arc sampleArc sampleArc_wf

theorem C12_Circle [TextRule] (o : Circle) (h : o.WF) (i : Nat) (nl : Bool) (i' : Nat) (nl' : Bool) :
    SameMeaning (.ok (o.toSexpr i nl)) (.ok (o.toSexpr i' nl')) :=
  (Lexes.one fun _ _ hs => Circle.lx h hs).same (Lexes.one fun _ _ hs => Circle.lx h hs)
example := C12_Circle sampleCircle sampleCircle_wf

theorem C12_NetclassFlag [TextRule] (o : NetclassFlag) (h : o.WF) (i : Nat) (nl : Bool) (i' : Nat) (nl' : Bool) :
    SameMeaning (o.toSexpr i nl) (o.toSexpr i' nl') :=
  (NetclassFlag.lexes h i nl).same (NetclassFlag.lexes h i' nl')
example := C12_NetclassFlag sampleNetclassFlag sampleNetclassFlag_wf

theorem C12_Schematic [TextRule] (o : Schematic) (h : o.WF) (i : Nat) (nl : Bool) (i' : Nat) (nl' : Bool) :
    SameMeaning (o.toSexpr i nl) (o.toSexpr i' nl') :=
  (Schematic.lexes h i nl).same (Schematic.lexes h i' nl')
example := C12_Schematic sampleSchematic sampleSchematic_wf

theorem C12_GrText [TextRule] (o : GrText) (h : o.WF) (i : Nat) (nl : Bool) (i' : Nat) (nl' : Bool) :
    SameMeaning (.ok (o.toSexpr i nl)) (.ok (o.toSexpr i' nl')) :=
  (Lexes.one fun _ _ hs => GrText.lx h hs).same (Lexes.one fun _ _ hs => GrText.lx h hs)
example := C12_GrText sampleGrText sampleGrText_wf

theorem C12_GrTextBox [TextRule] (o : GrTextBox) (h : o.WF) (i : Nat) (nl : Bool) (i' : Nat) (nl' : Bool) :
    SameMeaning (o.toSexpr i nl) (o.toSexpr i' nl') :=
  (GrTextBox.lexes h i nl).same (GrTextBox.lexes h i' nl')
example := C12_GrTextBox sampleGrTextBox sampleGrTextBox_wf

theorem C12_GrLine [TextRule] (o : GrLine) (h : o.WF) (i : Nat) (nl : Bool) (i' : Nat) (nl' : Bool) :
    SameMeaning (.ok (o.toSexpr i nl)) (.ok (o.toSexpr i' nl')) :=
  (Lexes.one fun _ _ hs => GrLine.lx h hs).same (Lexes.one fun _ _ hs => GrLine.lx h hs)
example := C12_GrLine sampleGrLine sampleGrLine_wf

theorem C12_GrRect [TextRule] (o : GrRect) (h : o.WF) (i : Nat) (nl : Bool) (i' : Nat) (nl' : Bool) :
    SameMeaning (.ok (o.toSexpr i nl)) (.ok (o.toSexpr i' nl')) :=
  (Lexes.one fun _ _ hs => GrRect.lx h hs).same (Lexes.one fun _ _ hs => GrRect.lx h hs)
example := C12_GrRect sampleGrRect sampleGrRect_wf

theorem C12_GrCircle [TextRule] (o : GrCircle) (h : o.WF) (i : Nat) (nl : Bool) (i' : Nat) (nl' : Bool) :
    SameMeaning (.ok (o.toSexpr i nl)) (.ok (o.toSexpr i' nl')) :=
  (Lexes.one fun _ _ hs => GrCircle.lx h hs).same (Lexes.one fun _ _ hs => GrCircle.lx h hs)
example := C12_GrCircle sampleGrCircle sampleGrCircle_wf

theorem C12_GrArc [TextRule] (o : GrArc) (h : o.WF) (i : Nat) (nl : Bool) (i' : Nat) (nl' : Bool) :
    SameMeaning (.ok (o.toSexpr i nl)) (.ok (o.toSexpr i' nl')) :=
  (Lexes.one fun _ _ hs => GrArc.lx h hs).same (Lexes.one fun _ _ hs => GrArc.lx h hs)
example := C12_GrArc sampleGrArc sampleGrArc_wf

theorem C12_GrPoly [TextRule] (o : GrPoly) (h : o.WF) (i : Nat) (nl pn : Bool) (i' : Nat) (nl' pn' : Bool) :
    SameMeaning (.ok (o.toSexpr i nl pn)) (.ok (o.toSexpr i' nl' pn')) :=
  (Lexes.one fun _ _ hs => GrPoly.lx h hs).same (Lexes.one fun _ _ hs => GrPoly.lx h hs)
example := C12_GrPoly sampleGrPoly sampleGrPoly_wf

theorem C12_GrCurve [TextRule] (o : GrCurve) (h : o.WF) (i : Nat) (nl : Bool) (i' : Nat) (nl' : Bool) :
    SameMeaning (.ok (o.toSexpr i nl)) (.ok (o.toSexpr i' nl')) :=
  (Lexes.one fun _ _ hs => GrCurve.lx h hs).same (Lexes.one fun _ _ hs => GrCurve.lx h hs)
example := C12_GrCurve sampleGrCurve sampleGrCurve_wf

theorem C12_FpText [TextRule] (o : FpText) (h : o.WF) (i : Nat) (nl : Bool) (i' : Nat) (nl' : Bool) :
    SameMeaning (.ok (o.toSexpr i nl)) (.ok (o.toSexpr i' nl')) :=
  (Lexes.one fun _ _ hs => FpText.lx h hs).same (Lexes.one fun _ _ hs => FpText.lx h hs)
example := C12_FpText sampleFpText sampleFpText_wf

theorem C12_FpLine [TextRule] (o : FpLine) (h : o.WF) (i : Nat) (nl : Bool) (i' : Nat) (nl' : Bool) :
    SameMeaning (.ok (o.toSexpr i nl)) (.ok (o.toSexpr i' nl')) :=
  (Lexes.one fun _ _ hs => FpLine.lx h hs).same (Lexes.one fun _ _ hs => FpLine.lx h hs)
example := C12_FpLine sampleFpLine sampleFpLine_wf

theorem C12_FpRect [TextRule] (o : FpRect) (h : o.WF) (i : Nat) (nl : Bool) (i' : Nat) (nl' : Bool) :
    SameMeaning (.ok (o.toSexpr i nl)) (.ok (o.toSexpr i' nl')) :=
  (Lexes.one fun _ _ hs => FpRect.lx h hs).same (Lexes.one fun _ _ hs => FpRect.lx h hs)
example := C12_FpRect sampleFpRect sampleFpRect_wf

theorem C12_FpTextBox [TextRule] (o : FpTextBox) (h : o.WF) (i : Nat) (nl : Bool) (i' : Nat) (nl' : Bool) :
    SameMeaning (o.toSexpr i nl) (o.toSexpr i' nl') :=
  (FpTextBox.lexes h i nl).same (FpTextBox.lexes h i' nl')
example := C12_FpTextBox sampleFpTextBox sampleFpTextBox_wf

theorem C12_FpCircle [TextRule] (o : FpCircle) (h : o.WF) (i : Nat) (nl : Bool) (i' : Nat) (nl' : Bool) :
    SameMeaning (.ok (o.toSexpr i nl)) (.ok (o.toSexpr i' nl')) :=
  (Lexes.one fun _ _ hs => FpCircle.lx h hs).same (Lexes.one fun _ _ hs => FpCircle.lx h hs)
example := C12_FpCircle sampleFpCircle sampleFpCircle_wf

theorem C12_FpArc [TextRule] (o : FpArc) (h : o.WF) (i : Nat) (nl : Bool) (i' : Nat) (nl' : Bool) :
    SameMeaning (.ok (o.toSexpr i nl)) (.ok (o.toSexpr i' nl')) :=
  (Lexes.one fun _ _ hs => FpArc.lx h hs).same (Lexes.one fun _ _ hs => FpArc.lx h hs)
example := C12_FpArc sampleFpArc sampleFpArc_wf

theorem C12_FpPoly [TextRule] (o : FpPoly) (h : o.WF) (i : Nat) (nl : Bool) (i' : Nat) (nl' : Bool) :
    SameMeaning (.ok (o.toSexpr i nl)) (.ok (o.toSexpr i' nl')) :=
  (Lexes.one fun _ _ hs => FpPoly.lx h hs).same (Lexes.one fun _ _ hs => FpPoly.lx h hs)
example := C12_FpPoly sampleFpPoly sampleFpPoly_wf

theorem C12_FpCurve [TextRule] (o : FpCurve) (h : o.WF) (i : Nat) (nl : Bool) (i' : Nat) (nl' : Bool) :
    SameMeaning (.ok (o.toSexpr i nl)) (.ok (o.toSexpr i' nl')) :=
  (Lexes.one fun _ _ hs => FpCurve.lx h hs).same (Lexes.one fun _ _ hs => FpCurve.lx h hs)
example := C12_FpCurve sampleFpCurve sampleFpCurve_wf

theorem C12_KeepoutSettings [TextRule] (o : KeepoutSettings) (h : o.WF) (i : Nat) (nl : Bool) (i' : Nat) (nl' : Bool) :
    SameMeaning (.ok (o.toSexpr i nl)) (.ok (o.toSexpr i' nl')) :=
  (Lexes.one fun _ _ hs => KeepoutSettings.lx h hs).same (Lexes.one fun _ _ hs => KeepoutSettings.lx h hs)
example := C12_KeepoutSettings sampleKeepoutSettings sampleKeepoutSettings_wf

theorem C12_FillSettings [TextRule] (o : FillSettings) (h : o.WF) (i : Nat) (nl : Bool) (i' : Nat) (nl' : Bool) :
    SameMeaning (.ok (o.toSexpr i nl)) (.ok (o.toSexpr i' nl')) :=
  (Lexes.one fun _ _ hs => FillSettings.lx h hs).same (Lexes.one fun _ _ hs => FillSettings.lx h hs)
example := C12_FillSettings sampleFillSettings sampleFillSettings_wf

theorem C12_ZonePolygon [TextRule] (o : ZonePolygon) (h : o.WF) (i : Nat) (nl : Bool) (i' : Nat) (nl' : Bool) :
    SameMeaning (.ok (o.toSexpr i nl)) (.ok (o.toSexpr i' nl')) :=
  (Lexes.one fun _ _ hs => ZonePolygon.lx h hs).same (Lexes.one fun _ _ hs => ZonePolygon.lx h hs)
example := C12_ZonePolygon sampleZonePolygon sampleZonePolygon_wf

theorem C12_FilledPolygon [TextRule] (o : FilledPolygon) (h : o.WF) (i : Nat) (nl : Bool) (i' : Nat) (nl' : Bool) :
    SameMeaning (.ok (o.toSexpr i nl)) (.ok (o.toSexpr i' nl')) :=
  (Lexes.one fun _ _ hs => FilledPolygon.lx h hs).same (Lexes.one fun _ _ hs => FilledPolygon.lx h hs)
example := C12_FilledPolygon sampleFilledPolygon sampleFilledPolygon_wf

theorem C12_FillSegments [TextRule] (o : FillSegments) (h : o.WF) (i : Nat) (nl : Bool) (i' : Nat) (nl' : Bool) :
    SameMeaning (.ok (o.toSexpr i nl)) (.ok (o.toSexpr i' nl')) :=
  (Lexes.one fun _ _ hs => FillSegments.lx h hs).same (Lexes.one fun _ _ hs => FillSegments.lx h hs)
example := C12_FillSegments sampleFillSegments sampleFillSegments_wf

theorem C12_Zone [TextRule] (o : Zone) (h : o.WF) (i : Nat) (nl : Bool) (i' : Nat) (nl' : Bool) :
    SameMeaning (o.toSexpr i nl) (o.toSexpr i' nl') :=
  (Zone.lexes h i nl).same (Zone.lexes h i' nl')
example := C12_Zone sampleZone sampleZone_wf

theorem C12_Attributes [TextRule] (o : Attributes) (h : o.WF) (he : o.isDefault = false) (i : Nat) (nl : Bool) (i' : Nat) (nl' : Bool) :
    SameMeaning (.ok (o.toSexpr i nl)) (.ok (o.toSexpr i' nl')) :=
  (Attributes.lexes h he i nl).same (Attributes.lexes h he i' nl')
example := C12_Attributes sampleAttributes sampleAttributes_wf rfl

theorem C12_Model [TextRule] (o : Model) (h : o.WF) (i : Nat) (nl : Bool) (i' : Nat) (nl' : Bool) :
    SameMeaning (.ok (o.toSexpr i nl)) (.ok (o.toSexpr i' nl')) :=
  (Lexes.one fun _ _ hs => Model.lx h hs).same (Lexes.one fun _ _ hs => Model.lx h hs)
example := C12_Model sampleModel sampleModel_wf

theorem C12_DrillDefinition [TextRule] (o : DrillDefinition) (h : o.WF) (i : Nat) (nl : Bool) (i' : Nat) (nl' : Bool) :
    SameMeaning (.ok (o.toSexpr i nl)) (.ok (o.toSexpr i' nl')) :=
  (Lexes.one fun _ _ hs => DrillDefinition.lx h hs).same (Lexes.one fun _ _ hs => DrillDefinition.lx h hs)
example := C12_DrillDefinition sampleDrillDefinition sampleDrillDefinition_wf

theorem C12_PadOptions [TextRule] (o : PadOptions) (h : o.WF) (i : Nat) (nl : Bool) (i' : Nat) (nl' : Bool) :
    SameMeaning (.ok (o.toSexpr i nl)) (.ok (o.toSexpr i' nl')) :=
  (Lexes.one fun _ _ hs => PadOptions.lx h hs).same (Lexes.one fun _ _ hs => PadOptions.lx h hs)
example := C12_PadOptions samplePadOptions samplePadOptions_wf

theorem C12_Pad [TextRule] (o : Pad) (h : o.WF) (i : Nat) (nl : Bool) (i' : Nat) (nl' : Bool) :
    SameMeaning (o.toSexpr i nl) (o.toSexpr i' nl') :=
  (Pad.lexes h i nl).same (Pad.lexes h i' nl')
example := C12_Pad samplePad samplePad_wf

theorem C12_Footprint [TextRule] (o : Footprint) (h : o.WF) (i : Nat) (nl lf : Bool) (i' : Nat) (nl' lf' : Bool) :
    SameMeaning (o.toSexpr i nl lf) (o.toSexpr i' nl' lf') :=
  (Footprint.lexes h i nl lf).same (Footprint.lexes h i' nl' lf')
example := C12_Footprint sampleFootprint sampleFootprint_wf

theorem C12_GeneralSettings [TextRule] (o : GeneralSettings) (h : o.WF) (i : Nat) (nl : Bool) (i' : Nat) (nl' : Bool) :
    SameMeaning (.ok (o.toSexpr i nl)) (.ok (o.toSexpr i' nl')) :=
  (Lexes.one fun _ _ hs => GeneralSettings.lx h hs).same (Lexes.one fun _ _ hs => GeneralSettings.lx h hs)
example := C12_GeneralSettings sampleGeneralSettings sampleGeneralSettings_wf

theorem C12_LayerToken [TextRule] (o : LayerToken) (h : o.WF) (i : Nat) (nl : Bool) (i' : Nat) (nl' : Bool) :
    SameMeaning (.ok (o.toSexpr i nl)) (.ok (o.toSexpr i' nl')) :=
  (Lexes.one fun _ _ hs => LayerToken.lx h hs).same (Lexes.one fun _ _ hs => LayerToken.lx h hs)
example := C12_LayerToken sampleLayerToken sampleLayerToken_wf

theorem C12_StackupLayer [TextRule] (o : StackupLayer) (h : o.WF) (i : Nat) (nl : Bool) (i' : Nat) (nl' : Bool) :
    SameMeaning (.ok (o.toSexpr i nl)) (.ok (o.toSexpr i' nl')) :=
  (Lexes.one fun _ _ hs => StackupLayer.lx h hs).same (Lexes.one fun _ _ hs => StackupLayer.lx h hs)
example := C12_StackupLayer sampleStackupLayer sampleStackupLayer_wf

theorem C12_Stackup [TextRule] (o : Stackup) (h : o.WF) (i : Nat) (nl : Bool) (i' : Nat) (nl' : Bool) :
    SameMeaning (.ok (o.toSexpr i nl)) (.ok (o.toSexpr i' nl')) :=
  (Lexes.one fun _ _ hs => Stackup.lx h hs).same (Lexes.one fun _ _ hs => Stackup.lx h hs)
example := C12_Stackup sampleStackup sampleStackup_wf

theorem C12_PlotSettings [TextRule] (o : PlotSettings) (h : o.WF) (i : Nat) (nl : Bool) (i' : Nat) (nl' : Bool) :
    SameMeaning (o.toSexpr i nl) (o.toSexpr i' nl') :=
  (PlotSettings.lexes h _ _).same (PlotSettings.lexes h _ _)
example := C12_PlotSettings samplePlotSettings samplePlotSettings_wf

theorem C12_SetupData [TextRule] (o : SetupData) (h : o.WF) (i : Nat) (nl : Bool) (i' : Nat) (nl' : Bool) :
    SameMeaning (o.toSexpr i nl) (o.toSexpr i' nl') :=
  (SetupData.lexes h _ _).same (SetupData.lexes h _ _)
example := C12_SetupData sampleSetupData sampleSetupData_wf

theorem C12_Segment [TextRule] (o : Segment) (h : o.WF) (i : Nat) (nl : Bool) (i' : Nat) (nl' : Bool) :
    SameMeaning (.ok (o.toSexpr i nl)) (.ok (o.toSexpr i' nl')) :=
  (Lexes.one fun _ _ hs => Segment.lx h hs).same (Lexes.one fun _ _ hs => Segment.lx h hs)
example := C12_Segment sampleSegment sampleSegment_wf

theorem C12_Via [TextRule] (o : Via) (h : o.WF) (i : Nat) (nl : Bool) (i' : Nat) (nl' : Bool) :
    SameMeaning (.ok (o.toSexpr i nl)) (.ok (o.toSexpr i' nl')) :=
  (Lexes.one fun _ _ hs => Via.lx h hs).same (Lexes.one fun _ _ hs => Via.lx h hs)
example := C12_Via sampleVia sampleVia_wf

theorem C12_TraceArc [TextRule] (o : TraceArc) (h : o.WF) (i : Nat) (nl : Bool) (i' : Nat) (nl' : Bool) :
    SameMeaning (.ok (o.toSexpr i nl)) (.ok (o.toSexpr i' nl')) :=
  (Lexes.one fun _ _ hs => TraceArc.lx h hs).same (Lexes.one fun _ _ hs => TraceArc.lx h hs)
example := C12_TraceArc sampleTraceArc sampleTraceArc_wf

theorem C12_Target [TextRule] (o : Target) (h : o.WF) (i : Nat) (nl : Bool) (i' : Nat) (nl' : Bool) :
    SameMeaning (.ok (o.toSexpr i nl)) (.ok (o.toSexpr i' nl')) :=
  (Lexes.one fun _ _ hs => Target.lx h hs).same (Lexes.one fun _ _ hs => Target.lx h hs)
example := C12_Target sampleTarget sampleTarget_wf

theorem C12_DimensionFormat [TextRule] (o : DimensionFormat) (h : o.WF) (i : Nat) (nl : Bool) (i' : Nat) (nl' : Bool) :
    SameMeaning (.ok (o.toSexpr i nl)) (.ok (o.toSexpr i' nl')) :=
  (Lexes.one fun _ _ hs => DimensionFormat.lx h hs).same (Lexes.one fun _ _ hs => DimensionFormat.lx h hs)
example := C12_DimensionFormat sampleDimensionFormat sampleDimensionFormat_wf

theorem C12_DimensionStyle [TextRule] (o : DimensionStyle) (h : o.WF) (i : Nat) (nl : Bool) (i' : Nat) (nl' : Bool) :
    SameMeaning (.ok (o.toSexpr i nl)) (.ok (o.toSexpr i' nl')) :=
  (Lexes.one fun _ _ hs => DimensionStyle.lx h hs).same (Lexes.one fun _ _ hs => DimensionStyle.lx h hs)
example := C12_DimensionStyle sampleDimensionStyle sampleDimensionStyle_wf

theorem C12_Dimension [TextRule] (o : Dimension) (h : o.WF) (i : Nat) (nl : Bool) (i' : Nat) (nl' : Bool) :
    SameMeaning (o.toSexpr i nl) (o.toSexpr i' nl') :=
  (Dimension.lexes h i nl).same (Dimension.lexes h i' nl')
example := C12_Dimension sampleDimension sampleDimension_wf

theorem C12_Board [TextRule] (o : Board) (h : o.WF) (i : Nat) (nl : Bool) (i' : Nat) (nl' : Bool) :
    SameMeaning (o.toSexpr i nl) (o.toSexpr i' nl') :=
  (Board.lexes h i nl).same (Board.lexes h i' nl')
example := C12_Board sampleBoard sampleBoard_wf

/-! ## C24: the output is one balanced expression -/

theorem C24_Coordinate_partial [TextRule] (o : Coordinate) (h : o.WF) (i : Nat) (nl : Bool) : OneExpression (.ok (o.toSexpr i nl)) :=
  (Lexes.one fun _ _ hs => Coordinate.lx h hs).one_expression rfl
example := C24_Coordinate_partial sampleCoordinate sampleCoordinate_wf

theorem C24_ColorRGBA_partial [TextRule] (o : ColorRGBA) (h : o.WF) (i : Nat) (nl : Bool) : OneExpression (.ok (o.toSexpr i nl)) :=
  (Lexes.one fun _ _ hs => ColorRGBA.lx h hs).one_expression rfl
example := C24_ColorRGBA_partial sampleColorRGBA sampleColorRGBA_wf

theorem C24_Stroke_partial [TextRule] (o : Stroke) (h : o.WF) (i : Nat) (nl : Bool) : OneExpression (.ok (o.toSexpr i nl)) :=
  (Lexes.one fun _ _ hs => Stroke.lx h hs).one_expression rfl
example := C24_Stroke_partial sampleStroke sampleStroke_wf

theorem C24_Font_partial [TextRule] (o : Font) (h : o.WF) (i : Nat) (nl : Bool) : OneExpression (.ok (o.toSexpr i nl)) :=
  (Lexes.one fun _ _ hs => Font.lx h hs).one_expression rfl
example := C24_Font_partial sampleFont sampleFont_wf

theorem C24_Justify_partial [TextRule] (o : Justify) (h : o.WF) (he : o.isEmpty = false) (i : Nat) (nl : Bool) : OneExpression (.ok (o.toSexpr i nl)) :=
  (Lexes.one fun _ _ hs => Justify.lx h he hs).one_expression rfl
example := C24_Justify_partial sampleJustify sampleJustify_wf rfl

theorem C24_Effects_partial [TextRule] (o : Effects) (h : o.WF) (i : Nat) (nl : Bool) : OneExpression (.ok (o.toSexpr i nl)) :=
  (Lexes.one fun _ _ hs => Effects.lx h hs).one_expression rfl
example := C24_Effects_partial sampleEffects sampleEffects_wf

theorem C24_Net_partial [TextRule] (o : Net) (h : o.WF) (i : Nat) (nl : Bool) : OneExpression (.ok (o.toSexpr i nl)) :=
  (Lexes.one fun _ _ hs => Net.lx h hs).one_expression rfl
example := C24_Net_partial sampleNet sampleNet_wf

theorem C24_Group_partial [TextRule] (o : Group) (h : o.WF) (i : Nat) (nl : Bool) : OneExpression (.ok (o.toSexpr i nl)) :=
  (Lexes.one fun _ _ hs => Group.lx h hs).one_expression rfl
example := C24_Group_partial sampleGroup sampleGroup_wf

theorem C24_PageSettings_partial [TextRule] (o : PageSettings) (h : o.WF) (i : Nat) (nl : Bool) : OneExpression (o.toSexpr i nl) :=
  (PageSettings.lx h i nl).one_expression rfl
example := C24_PageSettings_partial samplePageSettings samplePageSettings_wf

theorem C24_TitleBlock_partial [TextRule] (o : TitleBlock) (h : o.WF) (i : Nat) (nl : Bool) : OneExpression (.ok (o.toSexpr i nl)) :=
  (Lexes.one fun _ _ hs => TitleBlock.lx h hs).one_expression rfl
example := C24_TitleBlock_partial sampleTitleBlock sampleTitleBlock_wf

theorem C24_Property_partial [TextRule] (o : Property) (h : o.WF) (i : Nat) (nl : Bool) : OneExpression (.ok (o.toSexpr i nl)) :=
  (Lexes.one fun _ _ hs => Property.lx h hs).one_expression rfl
example := C24_Property_partial sampleProperty sampleProperty_wf

theorem C24_RenderCachePolygon_partial [TextRule] (o : RenderCachePolygon) (h : o.WF) (i : Nat) (nl : Bool) : OneExpression (.ok (o.toSexpr i nl)) :=
  (Lexes.one fun _ _ hs => RenderCachePolygon.lx h hs).one_expression rfl
example := C24_RenderCachePolygon_partial sampleRenderCachePolygon sampleRenderCachePolygon_wf

theorem C24_RenderCache_partial [TextRule] (o : RenderCache) (h : o.WF) (i : Nat) (nl : Bool) : OneExpression (.ok (o.toSexpr i nl)) :=
  (Lexes.one fun _ _ hs => RenderCache.lx h hs).one_expression rfl
example := C24_RenderCache_partial sampleRenderCache sampleRenderCache_wf

theorem C24_Fill_partial [TextRule] (o : Fill) (h : o.WF) (i : Nat) (nl : Bool) : OneExpression (.ok (o.toSexpr i nl)) :=
  (Lexes.one fun _ _ hs => Fill.lx h hs).one_expression rfl
example := C24_Fill_partial sampleFill sampleFill_wf

theorem C24_Image_partial [TextRule] (o : Image) (h : o.WF) (i : Nat) (nl : Bool) : OneExpression (.ok (o.toSexpr i nl)) :=
  (Lexes.one fun _ _ hs => Image.lx h hs).one_expression rfl
example := C24_Image_partial sampleImage sampleImage_wf

theorem C24_Library_partial [TextRule] (o : Library) (h : o.WF) (i : Nat) (nl : Bool) : OneExpression (.ok (o.toSexpr i nl)) :=
  (Lexes.one fun _ _ hs => Library.lx h hs).one_expression rfl
example := C24_Library_partial sampleLibrary sampleLibrary_wf

theorem C24_LibTable_partial [TextRule] (o : LibTable) (h : o.WF) (i : Nat) (nl : Bool) : OneExpression (.ok (o.toSexpr i nl)) :=
  (Lexes.one fun _ _ hs => LibTable.lx h hs).one_expression rfl
example := C24_LibTable_partial sampleLibTable sampleLibTable_wf

theorem C24_Constraint_partial [TextRule] (o : Constraint) (h : o.WF) (i : Nat) (nl : Bool) : OneExpression (o.toSexpr i nl) :=
  (Constraint.lx h i nl).one_expression rfl
example := C24_Constraint_partial sampleConstraint sampleConstraint_wf

theorem C24_Rule_partial [TextRule] (o : Rule) (h : o.WF) (i : Nat) : OneExpression (o.toSexpr i) :=
  (Rule.lx h i).one_expression rfl
example := C24_Rule_partial sampleRule sampleRule_wf

theorem C24_WksFontSize_partial [TextRule] (o : WksFontSize) (h : o.WF) (i : Nat) (nl : Bool) : OneExpression (.ok (o.toSexpr i nl)) :=
  (Lexes.one fun _ _ hs => WksFontSize.lx h hs).one_expression rfl
example := C24_WksFontSize_partial sampleWksFontSize sampleWksFontSize_wf

theorem C24_Bitmap_partial [TextRule] (o : Bitmap) (h : o.WF) (i : Nat) (nl : Bool) : OneExpression (.ok (o.toSexpr i nl)) :=
  (Lexes.one fun _ _ hs => Bitmap.lx h hs).one_expression rfl
example := C24_Bitmap_partial sampleBitmap sampleBitmap_wf

theorem C24_TbText_partial [TextRule] (o : TbText) (h : o.WF) (i : Nat) (nl : Bool) : OneExpression (.ok (o.toSexpr i nl)) :=
  (Lexes.one fun _ _ hs => TbText.lx h hs).one_expression rfl
example := C24_TbText_partial sampleTbText sampleTbText_wf

theorem C24_TextSize_partial [TextRule] (o : TextSize) (h : o.WF) (i : Nat) (nl : Bool) : OneExpression (.ok (o.toSexpr i nl)) :=
  (Lexes.one fun _ _ hs => TextSize.lx h hs).one_expression rfl
example := C24_TextSize_partial sampleTextSize sampleTextSize_wf

theorem C24_Setup_partial [TextRule] (o : Setup) (h : o.WF) (i : Nat) (nl : Bool) : OneExpression (.ok (o.toSexpr i nl)) :=
  (Lexes.one fun _ _ hs => Setup.lx h hs).one_expression rfl
example := C24_Setup_partial sampleSetup sampleSetup_wf

theorem C24_WorkSheet_partial [TextRule] (o : WorkSheet) (h : o.WF) (i : Nat) (nl : Bool) : OneExpression (o.toSexpr i nl) :=
  (WorkSheet.lx h i nl).one_expression rfl
example := C24_WorkSheet_partial sampleWorkSheet sampleWorkSheet_wf

theorem C24_SyArc_partial [TextRule] (o : SyArc) (h : o.WF) (i : Nat) (nl : Bool) : OneExpression (.ok (o.toSexpr i nl)) :=
  (Lexes.one fun _ _ hs => SyArc.lx h hs).one_expression rfl
example := C24_SyArc_partial sampleSyArc sampleSyArc_wf

theorem C24_SyCircle_partial [TextRule] (o : SyCircle) (h : o.WF) (i : Nat) (nl : Bool) : OneExpression (.ok (o.toSexpr i nl)) :=
  (Lexes.one fun _ _ hs => SyCircle.lx h hs).one_expression rfl
example := C24_SyCircle_partial sampleSyCircle sampleSyCircle_wf

theorem C24_SyPolyLine_partial [TextRule] (o : SyPolyLine) (h : o.WF) (i : Nat) (nl : Bool) : OneExpression (.ok (o.toSexpr i nl)) :=
  (Lexes.one fun _ _ hs => SyPolyLine.lx h hs).one_expression rfl
example := C24_SyPolyLine_partial sampleSyPolyLine sampleSyPolyLine_wf

theorem C24_SyRect_partial [TextRule] (o : SyRect) (h : o.WF) (i : Nat) (nl : Bool) : OneExpression (.ok (o.toSexpr i nl)) :=
  (Lexes.one fun _ _ hs => SyRect.lx h hs).one_expression rfl
example := C24_SyRect_partial sampleSyRect sampleSyRect_wf

theorem C24_SyText_partial [TextRule] (o : SyText) (h : o.WF) (i : Nat) (nl : Bool) : OneExpression (.ok (o.toSexpr i nl)) :=
  (Lexes.one fun _ _ hs => SyText.lx h hs).one_expression rfl
example := C24_SyText_partial sampleSyText sampleSyText_wf

theorem C24_SyTextBox_partial [TextRule] (o : SyTextBox) (h : o.WF) (i : Nat) (nl : Bool) : OneExpression (.ok (o.toSexpr i nl)) :=
  (Lexes.one fun _ _ hs => SyTextBox.lx h hs).one_expression rfl
example := C24_SyTextBox_partial sampleSyTextBox sampleSyTextBox_wf

theorem C24_SymbolAlternativePin_partial [TextRule] (o : SymbolAlternativePin) (h : o.WF) (i : Nat) (nl : Bool) : OneExpression (.ok (o.toSexpr i nl)) :=
  (Lexes.one fun _ _ hs => SymbolAlternativePin.lx h hs).one_expression rfl
example := C24_SymbolAlternativePin_partial sampleSymbolAlternativePin sampleSymbolAlternativePin_wf

theorem C24_SymbolPin_partial [TextRule] (o : SymbolPin) (h : o.WF) (i : Nat) (nl : Bool) : OneExpression (.ok (o.toSexpr i nl)) :=
  (Lexes.one fun _ _ hs => SymbolPin.lx h hs).one_expression rfl
example := C24_SymbolPin_partial sampleSymbolPin sampleSymbolPin_wf

theorem C24_Symbol_partial [TextRule] (o : Symbol) (h : o.WF) (i : Nat) (nl : Bool) : OneExpression (.ok (o.toSexpr i nl)) :=
  (Lexes.one fun _ _ hs => Symbol.lx h hs).one_expression (by cases o; rfl)
example := C24_Symbol_partial sampleSymbol sampleSymbol_wf

theorem C24_SymbolLib_partial [TextRule] (o : SymbolLib) (h : o.WF) (i : Nat) (nl : Bool) : OneExpression (.ok (o.toSexpr i nl)) :=
  (Lexes.one fun _ _ hs => SymbolLib.lx h hs).one_expression rfl
example := C24_SymbolLib_partial sampleSymbolLib sampleSymbolLib_wf

theorem C24_Junction_partial [TextRule] (o : Junction) (h : o.WF) (i : Nat) (nl : Bool) : OneExpression (o.toSexpr i nl) :=
  (Junction.lexes h i nl).one_expression rfl
example := C24_Junction_partial sampleJunction sampleJunction_wf

theorem C24_NoConnect_partial [TextRule] (o : NoConnect) (h : o.WF) (i : Nat) (nl : Bool) : OneExpression (.ok (o.toSexpr i nl)) :=
  (Lexes.one fun _ _ hs => NoConnect.lx h hs).one_expression rfl
example := C24_NoConnect_partial sampleNoConnect sampleNoConnect_wf

theorem C24_BusEntry_partial [TextRule] (o : BusEntry) (h : o.WF) (i : Nat) (nl : Bool) : OneExpression (.ok (o.toSexpr i nl)) :=
  (Lexes.one fun _ _ hs => BusEntry.lx h hs).one_expression rfl
example := C24_BusEntry_partial sampleBusEntry sampleBusEntry_wf

theorem C24_BusAlias_partial [TextRule] (o : BusAlias) (h : o.WF) (i : Nat) (nl : Bool) : OneExpression (.ok (o.toSexpr i nl)) :=
  (Lexes.one fun _ _ hs => BusAlias.lx h hs).one_expression rfl
example := C24_BusAlias_partial sampleBusAlias sampleBusAlias_wf

theorem C24_Connection_partial [TextRule] (o : Connection) (h : o.WF) (i : Nat) (nl : Bool) : OneExpression (.ok (o.toSexpr i nl)) :=
  (Lexes.one fun _ _ hs => Connection.lx h hs).one_expression rfl
example := C24_Connection_partial sampleConnection sampleConnection_wf

theorem C24_PolyLine_partial [TextRule] (o : PolyLine) (h : o.WF) (i : Nat) (nl : Bool) : OneExpression (.ok (o.toSexpr i nl)) :=
  (Lexes.one fun _ _ hs => PolyLine.lx h hs).one_expression rfl
example := C24_PolyLine_partial samplePolyLine samplePolyLine_wf

theorem C24_Text_partial [TextRule] (o : Text) (h : o.WF) (i : Nat) (nl : Bool) : OneExpression (o.toSexpr i nl) :=
  (Text.lexes h i nl).one_expression rfl
example := C24_Text_partial sampleText sampleText_wf

theorem C24_TextBox_partial [TextRule] (o : TextBox) (h : o.WF) (i : Nat) (nl : Bool) : OneExpression (.ok (o.toSexpr i nl)) :=
  (Lexes.one fun _ _ hs => TextBox.lx h hs).one_expression rfl
example := C24_TextBox_partial sampleTextBox sampleTextBox_wf

theorem C24_LocalLabel_partial [TextRule] (o : LocalLabel) (h : o.WF) (i : Nat) (nl : Bool) : OneExpression (.ok (o.toSexpr i nl)) :=
  (Lexes.one fun _ _ hs => LocalLabel.lx h hs).one_expression rfl
example := C24_LocalLabel_partial sampleLocalLabel sampleLocalLabel_wf

theorem C24_GlobalLabel_partial [TextRule] (o : GlobalLabel) (h : o.WF) (i : Nat) (nl : Bool) : OneExpression (.ok (o.toSexpr i nl)) :=
  (Lexes.one fun _ _ hs => GlobalLabel.lx h hs).one_expression rfl
example := C24_GlobalLabel_partial sampleGlobalLabel sampleGlobalLabel_wf

theorem C24_HierarchicalLabel_partial [TextRule] (o : HierarchicalLabel) (h : o.WF) (i : Nat) (nl : Bool) : OneExpression (.ok (o.toSexpr i nl)) :=
  (Lexes.one fun _ _ hs => HierarchicalLabel.lx h hs).one_expression rfl
example := C24_HierarchicalLabel_partial sampleHierarchicalLabel sampleHierarchicalLabel_wf

theorem C24_SymbolProjectPath_partial [TextRule] (o : SymbolProjectPath) (h : o.WF) (i : Nat) (nl : Bool) : OneExpression (.ok (o.toSexpr i nl)) :=
  (Lexes.one fun _ _ hs => SymbolProjectPath.lx h hs).one_expression rfl
example := C24_SymbolProjectPath_partial sampleSymbolProjectPath sampleSymbolProjectPath_wf

theorem C24_SymbolProjectInstance_partial [TextRule] (o : SymbolProjectInstance) (h : o.WF) (i : Nat) (nl : Bool) : OneExpression (.ok (o.toSexpr i nl)) :=
  (Lexes.one fun _ _ hs => SymbolProjectInstance.lx h hs).one_expression rfl
example := C24_SymbolProjectInstance_partial sampleSymbolProjectInstance sampleSymbolProjectInstance_wf

theorem C24_SchematicSymbol_partial [TextRule] (o : SchematicSymbol) (h : o.WF) (i : Nat) (nl : Bool) : OneExpression (.ok (o.toSexpr i nl)) :=
  (Lexes.one fun _ _ hs => SchematicSymbol.lx h hs).one_expression rfl
example := C24_SchematicSymbol_partial sampleSchematicSymbol sampleSchematicSymbol_wf

theorem C24_HierarchicalPin_partial [TextRule] (o : HierarchicalPin) (h : o.WF) (i : Nat) (nl : Bool) : OneExpression (.ok (o.toSexpr i nl)) :=
  (Lexes.one fun _ _ hs => HierarchicalPin.lx h hs).one_expression rfl
example := C24_HierarchicalPin_partial sampleHierarchicalPin sampleHierarchicalPin_wf

theorem C24_HierarchicalSheetProjectPath_partial [TextRule] (o : HierarchicalSheetProjectPath) (h : o.WF) (i : Nat) (nl : Bool) : OneExpression (.ok (o.toSexpr i nl)) :=
  (Lexes.one fun _ _ hs => HierarchicalSheetProjectPath.lx h hs).one_expression rfl
example := C24_HierarchicalSheetProjectPath_partial sampleHierarchicalSheetProjectPath sampleHierarchicalSheetProjectPath_wf

theorem C24_HierarchicalSheetProjectInstance_partial [TextRule] (o : HierarchicalSheetProjectInstance) (h : o.WF) (i : Nat) (nl : Bool) : OneExpression (.ok (o.toSexpr i nl)) :=
  (Lexes.one fun _ _ hs => HierarchicalSheetProjectInstance.lx h hs).one_expression rfl
example := C24_HierarchicalSheetProjectInstance_partial sampleHierarchicalSheetProjectInstance sampleHierarchicalSheetProjectInstance_wf

theorem C24_HierarchicalSheet_partial [TextRule] (o : HierarchicalSheet) (h : o.WF) (i : Nat) (nl : Bool) : OneExpression (o.toSexpr i nl) :=
  (HierarchicalSheet.lexes h _ _).one_expression rfl
example := C24_HierarchicalSheet_partial sampleHierarchicalSheet sampleHierarchicalSheet_wf

theorem C24_HierarchicalSheetInstance_partial [TextRule] (o : HierarchicalSheetInstance) (h : o.WF) (i : Nat) (nl : Bool) : OneExpression (.ok (o.toSexpr i nl)) :=
  (Lexes.one fun _ _ hs => HierarchicalSheetInstance.lx h hs).one_expression rfl
example := C24_HierarchicalSheetInstance_partial sampleHierarchicalSheetInstance sampleHierarchicalSheetInstance_wf

theorem C24_SymbolInstance_partial [TextRule] (o : SymbolInstance) (h : o.WF) (i : Nat) (nl : Bool) : OneExpression (.ok (o.toSexpr i nl)) :=
  (Lexes.one fun _ _ hs => SymbolInstance.lx h hs).one_expression rfl
example := C24_SymbolInstance_partial sampleSymbolInstance sampleSymbolInstance_wf

theorem C24_Rectangle_partial [TextRule] (o : Rectangle) (h : o.WF) (i : Nat) (nl : Bool) : OneExpression (.ok (o.toSexpr i nl)) :=
  (Lexes.one fun _ _ hs => Rectangle.lx h hs).one_expression rfl
example := C24_Rectangle_partial sampleRectangle sampleRectangle_wf

theorem C24_Arc_partial [TextRule] (o : Arc) (h : o.WF) (i : Nat) (nl : Bool) : OneExpression (.ok (o.toSexpr i nl)) :=
  (Lexes.one fun _ _ hs => Arc.lx h hs).one_expression rfl
example := C24_Arc_partial sampleArc sampleArc_wf

theorem C24_Circle_partial [TextRule] (o : Circle) (h : o.WF) (i : Nat) (nl : Bool) : OneExpression (.ok (o.toSexpr i nl)) :=
  (Lexes.one fun _ _ hs => Circle.lx h hs).one_expression rfl
example := C24_Circle_partial sampleCircle sampleCircle_wf

theorem C24_NetclassFlag_partial [TextRule] (o : NetclassFlag) (h : o.WF) (i : Nat) (nl : Bool) : OneExpression (o.toSexpr i nl) :=
  (NetclassFlag.lexes h i nl).one_expression rfl
example := C24_NetclassFlag_partial sampleNetclassFlag sampleNetclassFlag_wf

theorem C24_Schematic_partial [TextRule] (o : Schematic) (h : o.WF) (i : Nat) (nl : Bool) : OneExpression (o.toSexpr i nl) :=
  (Schematic.lexes h i nl).one_expression rfl
example := C24_Schematic_partial sampleSchematic sampleSchematic_wf

theorem C24_GrText_partial [TextRule] (o : GrText) (h : o.WF) (i : Nat) (nl : Bool) : OneExpression (.ok (o.toSexpr i nl)) :=
  (Lexes.one fun _ _ hs => GrText.lx h hs).one_expression rfl
example := C24_GrText_partial sampleGrText sampleGrText_wf

theorem C24_GrTextBox_partial [TextRule] (o : GrTextBox) (h : o.WF) (i : Nat) (nl : Bool) : OneExpression (o.toSexpr i nl) :=
  (GrTextBox.lexes h i nl).one_expression rfl
example := C24_GrTextBox_partial sampleGrTextBox sampleGrTextBox_wf

theorem C24_GrLine_partial [TextRule] (o : GrLine) (h : o.WF) (i : Nat) (nl : Bool) : OneExpression (.ok (o.toSexpr i nl)) :=
  (Lexes.one fun _ _ hs => GrLine.lx h hs).one_expression rfl
example := C24_GrLine_partial sampleGrLine sampleGrLine_wf

theorem C24_GrRect_partial [TextRule] (o : GrRect) (h : o.WF) (i : Nat) (nl : Bool) : OneExpression (.ok (o.toSexpr i nl)) :=
  (Lexes.one fun _ _ hs => GrRect.lx h hs).one_expression rfl
example := C24_GrRect_partial sampleGrRect sampleGrRect_wf

theorem C24_GrCircle_partial [TextRule] (o : GrCircle) (h : o.WF) (i : Nat) (nl : Bool) : OneExpression (.ok (o.toSexpr i nl)) :=
  (Lexes.one fun _ _ hs => GrCircle.lx h hs).one_expression rfl
example := C24_GrCircle_partial sampleGrCircle sampleGrCircle_wf

theorem C24_GrArc_partial [TextRule] (o : GrArc) (h : o.WF) (i : Nat) (nl : Bool) : OneExpression (.ok (o.toSexpr i nl)) :=
  (Lexes.one fun _ _ hs => GrArc.lx h hs).one_expression rfl
example := C24_GrArc_partial sampleGrArc sampleGrArc_wf

theorem C24_GrPoly_partial [TextRule] (o : GrPoly) (h : o.WF) (i : Nat) (nl pn : Bool) : OneExpression (.ok (o.toSexpr i nl pn)) :=
  (Lexes.one fun _ _ hs => GrPoly.lx h hs).one_expression rfl
example := C24_GrPoly_partial sampleGrPoly sampleGrPoly_wf

theorem C24_GrCurve_partial [TextRule] (o : GrCurve) (h : o.WF) (i : Nat) (nl : Bool) : OneExpression (.ok (o.toSexpr i nl)) :=
  (Lexes.one fun _ _ hs => GrCurve.lx h hs).one_expression rfl
example := C24_GrCurve_partial sampleGrCurve sampleGrCurve_wf

theorem C24_FpText_partial [TextRule] (o : FpText) (h : o.WF) (i : Nat) (nl : Bool) : OneExpression (.ok (o.toSexpr i nl)) :=
  (Lexes.one fun _ _ hs => FpText.lx h hs).one_expression rfl
example := C24_FpText_partial sampleFpText sampleFpText_wf

theorem C24_FpLine_partial [TextRule] (o : FpLine) (h : o.WF) (i : Nat) (nl : Bool) : OneExpression (.ok (o.toSexpr i nl)) :=
  (Lexes.one fun _ _ hs => FpLine.lx h hs).one_expression rfl
example := C24_FpLine_partial sampleFpLine sampleFpLine_wf

theorem C24_FpRect_partial [TextRule] (o : FpRect) (h : o.WF) (i : Nat) (nl : Bool) : OneExpression (.ok (o.toSexpr i nl)) :=
  (Lexes.one fun _ _ hs => FpRect.lx h hs).one_expression rfl
example := C24_FpRect_partial sampleFpRect sampleFpRect_wf

theorem C24_FpTextBox_partial [TextRule] (o : FpTextBox) (h : o.WF) (i : Nat) (nl : Bool) : OneExpression (o.toSexpr i nl) :=
  (FpTextBox.lexes h i nl).one_expression rfl
example := C24_FpTextBox_partial sampleFpTextBox sampleFpTextBox_wf

theorem C24_FpCircle_partial [TextRule] (o : FpCircle) (h : o.WF) (i : Nat) (nl : Bool) : OneExpression (.ok (o.toSexpr i nl)) :=
  (Lexes.one fun _ _ hs => FpCircle.lx h hs).one_expression rfl
example := C24_FpCircle_partial sampleFpCircle sampleFpCircle_wf

theorem C24_FpArc_partial [TextRule] (o : FpArc) (h : o.WF) (i : Nat) (nl : Bool) : OneExpression (.ok (o.toSexpr i nl)) :=
  (Lexes.one fun _ _ hs => FpArc.lx h hs).one_expression rfl
example := C24_FpArc_partial sampleFpArc sampleFpArc_wf

theorem C24_FpPoly_partial [TextRule] (o : FpPoly) (h : o.WF) (i : Nat) (nl : Bool) : OneExpression (.ok (o.toSexpr i nl)) :=
  (Lexes.one fun _ _ hs => FpPoly.lx h hs).one_expression rfl
example := C24_FpPoly_partial sampleFpPoly sampleFpPoly_wf

theorem C24_FpCurve_partial [TextRule] (o : FpCurve) (h : o.WF) (i : Nat) (nl : Bool) : OneExpression (.ok (o.toSexpr i nl)) :=
  (Lexes.one fun _ _ hs => FpCurve.lx h hs).one_expression rfl
example := C24_FpCurve_partial sampleFpCurve sampleFpCurve_wf

theorem C24_KeepoutSettings_partial [TextRule] (o : KeepoutSettings) (h : o.WF) (i : Nat) (nl : Bool) : OneExpression (.ok (o.toSexpr i nl)) :=
  (Lexes.one fun _ _ hs => KeepoutSettings.lx h hs).one_expression rfl
example := C24_KeepoutSettings_partial sampleKeepoutSettings sampleKeepoutSettings_wf

theorem C24_FillSettings_partial [TextRule] (o : FillSettings) (h : o.WF) (i : Nat) (nl : Bool) : OneExpression (.ok (o.toSexpr i nl)) :=
  (Lexes.one fun _ _ hs => FillSettings.lx h hs).one_expression rfl
example := C24_FillSettings_partial sampleFillSettings sampleFillSettings_wf

theorem C24_ZonePolygon_partial [TextRule] (o : ZonePolygon) (h : o.WF) (i : Nat) (nl : Bool) : OneExpression (.ok (o.toSexpr i nl)) :=
  (Lexes.one fun _ _ hs => ZonePolygon.lx h hs).one_expression rfl
example := C24_ZonePolygon_partial sampleZonePolygon sampleZonePolygon_wf

theorem C24_FilledPolygon_partial [TextRule] (o : FilledPolygon) (h : o.WF) (i : Nat) (nl : Bool) : OneExpression (.ok (o.toSexpr i nl)) :=
  (Lexes.one fun _ _ hs => FilledPolygon.lx h hs).one_expression rfl
example := C24_FilledPolygon_partial sampleFilledPolygon sampleFilledPolygon_wf

theorem C24_FillSegments_partial [TextRule] (o : FillSegments) (h : o.WF) (i : Nat) (nl : Bool) : OneExpression (.ok (o.toSexpr i nl)) :=
  (Lexes.one fun _ _ hs => FillSegments.lx h hs).one_expression rfl
example := C24_FillSegments_partial sampleFillSegments sampleFillSegments_wf

theorem C24_Zone_partial [TextRule] (o : Zone) (h : o.WF) (i : Nat) (nl : Bool) : OneExpression (o.toSexpr i nl) :=
  (Zone.lexes h i nl).one_expression rfl
example := C24_Zone_partial sampleZone sampleZone_wf

theorem C24_Attributes_partial [TextRule] (o : Attributes) (h : o.WF) (he : o.isDefault = false) (i : Nat) (nl : Bool) : OneExpression (.ok (o.toSexpr i nl)) :=
  (Attributes.lexes h he i nl).one_expression rfl
example := C24_Attributes_partial sampleAttributes sampleAttributes_wf rfl

theorem C24_Model_partial [TextRule] (o : Model) (h : o.WF) (i : Nat) (nl : Bool) : OneExpression (.ok (o.toSexpr i nl)) :=
  (Lexes.one fun _ _ hs => Model.lx h hs).one_expression rfl
example := C24_Model_partial sampleModel sampleModel_wf

theorem C24_DrillDefinition_partial [TextRule] (o : DrillDefinition) (h : o.WF) (i : Nat) (nl : Bool) : OneExpression (.ok (o.toSexpr i nl)) :=
  (Lexes.one fun _ _ hs => DrillDefinition.lx h hs).one_expression rfl
example := C24_DrillDefinition_partial sampleDrillDefinition sampleDrillDefinition_wf

theorem C24_PadOptions_partial [TextRule] (o : PadOptions) (h : o.WF) (i : Nat) (nl : Bool) : OneExpression (.ok (o.toSexpr i nl)) :=
  (Lexes.one fun _ _ hs => PadOptions.lx h hs).one_expression rfl
example := C24_PadOptions_partial samplePadOptions samplePadOptions_wf

theorem C24_Pad_partial [TextRule] (o : Pad) (h : o.WF) (i : Nat) (nl : Bool) : OneExpression (o.toSexpr i nl) :=
  (Pad.lexes h i nl).one_expression rfl
example := C24_Pad_partial samplePad samplePad_wf

theorem C24_Footprint_partial [TextRule] (o : Footprint) (h : o.WF) (i : Nat) (nl lf : Bool) : OneExpression (o.toSexpr i nl lf) :=
  (Footprint.lexes h i nl lf).one_expression rfl
example := C24_Footprint_partial sampleFootprint sampleFootprint_wf

theorem C24_GeneralSettings_partial [TextRule] (o : GeneralSettings) (h : o.WF) (i : Nat) (nl : Bool) : OneExpression (.ok (o.toSexpr i nl)) :=
  (Lexes.one fun _ _ hs => GeneralSettings.lx h hs).one_expression rfl
example := C24_GeneralSettings_partial sampleGeneralSettings sampleGeneralSettings_wf

theorem C24_LayerToken_partial [TextRule] (o : LayerToken) (h : o.WF) (i : Nat) (nl : Bool) : OneExpression (.ok (o.toSexpr i nl)) :=
  (Lexes.one fun _ _ hs => LayerToken.lx h hs).one_expression rfl
example := C24_LayerToken_partial sampleLayerToken sampleLayerToken_wf

theorem C24_StackupLayer_partial [TextRule] (o : StackupLayer) (h : o.WF) (i : Nat) (nl : Bool) : OneExpression (.ok (o.toSexpr i nl)) :=
  (Lexes.one fun _ _ hs => StackupLayer.lx h hs).one_expression rfl
example := C24_StackupLayer_partial sampleStackupLayer sampleStackupLayer_wf

theorem C24_Stackup_partial [TextRule] (o : Stackup) (h : o.WF) (i : Nat) (nl : Bool) : OneExpression (.ok (o.toSexpr i nl)) :=
  (Lexes.one fun _ _ hs => Stackup.lx h hs).one_expression rfl
example := C24_Stackup_partial sampleStackup sampleStackup_wf

theorem C24_PlotSettings_partial [TextRule] (o : PlotSettings) (h : o.WF) (i : Nat) (nl : Bool) : OneExpression (o.toSexpr i nl) :=
  (PlotSettings.lexes h _ _).one_expression rfl
example := C24_PlotSettings_partial samplePlotSettings samplePlotSettings_wf

theorem C24_SetupData_partial [TextRule] (o : SetupData) (h : o.WF) (i : Nat) (nl : Bool) : OneExpression (o.toSexpr i nl) :=
  (SetupData.lexes h _ _).one_expression rfl
example := C24_SetupData_partial sampleSetupData sampleSetupData_wf

theorem C24_Segment_partial [TextRule] (o : Segment) (h : o.WF) (i : Nat) (nl : Bool) : OneExpression (.ok (o.toSexpr i nl)) :=
  (Lexes.one fun _ _ hs => Segment.lx h hs).one_expression rfl
example := C24_Segment_partial sampleSegment sampleSegment_wf

theorem C24_Via_partial [TextRule] (o : Via) (h : o.WF) (i : Nat) (nl : Bool) : OneExpression (.ok (o.toSexpr i nl)) :=
  (Lexes.one fun _ _ hs => Via.lx h hs).one_expression rfl
example := C24_Via_partial sampleVia sampleVia_wf

theorem C24_TraceArc_partial [TextRule] (o : TraceArc) (h : o.WF) (i : Nat) (nl : Bool) : OneExpression (.ok (o.toSexpr i nl)) :=
  (Lexes.one fun _ _ hs => TraceArc.lx h hs).one_expression rfl
example := C24_TraceArc_partial sampleTraceArc sampleTraceArc_wf

theorem C24_Target_partial [TextRule] (o : Target) (h : o.WF) (i : Nat) (nl : Bool) : OneExpression (.ok (o.toSexpr i nl)) :=
  (Lexes.one fun _ _ hs => Target.lx h hs).one_expression rfl
example := C24_Target_partial sampleTarget sampleTarget_wf

theorem C24_DimensionFormat_partial [TextRule] (o : DimensionFormat) (h : o.WF) (i : Nat) (nl : Bool) : OneExpression (.ok (o.toSexpr i nl)) :=
  (Lexes.one fun _ _ hs => DimensionFormat.lx h hs).one_expression rfl
example := C24_DimensionFormat_partial sampleDimensionFormat sampleDimensionFormat_wf

theorem C24_DimensionStyle_partial [TextRule] (o : DimensionStyle) (h : o.WF) (i : Nat) (nl : Bool) : OneExpression (.ok (o.toSexpr i nl)) :=
  (Lexes.one fun _ _ hs => DimensionStyle.lx h hs).one_expression rfl
example := C24_DimensionStyle_partial sampleDimensionStyle sampleDimensionStyle_wf

theorem C24_Dimension_partial [TextRule] (o : Dimension) (h : o.WF) (i : Nat) (nl : Bool) : OneExpression (o.toSexpr i nl) :=
  (Dimension.lexes h i nl).one_expression rfl
example := C24_Dimension_partial sampleDimension sampleDimension_wf

theorem C24_Board_partial [TextRule] (o : Board) (h : o.WF) (i : Nat) (nl : Bool) : OneExpression (o.toSexpr i nl) :=
  (Board.lexes h i nl).one_expression rfl
example := C24_Board_partial sampleBoard sampleBoard_wf

end Kiutils
