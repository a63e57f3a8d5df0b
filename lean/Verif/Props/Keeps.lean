import Verif.Proofs.SameTree
import Verif.Props.FixedPoint
import Verif.Props.FileFormat
/-!
# Opening and saving (C61)

A text in the documented format (`Verif/Format/*.lean`; any layout, `TextOf`) is loaded and saved again. The text that is saved says
the same as the text that was loaded, except for the diameters of junctions (schematics) and the flag `useauxorigin` (boards).
-/
namespace Kiutils

/-! ## Specification -/

/-- The text `s` is loaded and saved again; the result says the same: `parse_sexp` gives the same lists, words and numbers. -/
def Keeps {α : Type} (s : Str) (load : Val → PyM α) (save : α → PyM Str) : Prop :=
  ∃ o t v, (parseSexp s >>= load) = .ok o ∧ save o = .ok t ∧ parseSexp s = .ok v ∧ parseSexp t = .ok v

/-- The text `s` is loaded and saved again; the result is a text of the tree `v`. -/
def Rewrites {α : Type} (s : Str) (load : Val → PyM α) (save : α → PyM Str) (v : Val) : Prop :=
  ∃ o t, (parseSexp s >>= load) = .ok o ∧ save o = .ok t ∧ parseSexp t = .ok v

/-! ## Lemmas -/

theorem rewrites_of [TextRule] {α : Type} [Canon α] {s : Str} {v w : Val} {load : Val → PyM α} {save : α → PyM Str} {e : α} (hs : TextOf v s)
    (hl : load v = .ok (canon e)) (hw : (save (canon e) >>= parseSexp) = .ok w) : Rewrites s load save w := by
  obtain ⟨l, rfl, h⟩ := hs
  have h2 := hw
  cases ht : save (canon e) with
  | error x => rw [ht] at h2; cases h2
  | ok t =>
    rw [ht] at h2
    refine ⟨canon e, t, ?_, ht, h2⟩
    rw [C06_tree_round_trip l s h]
    exact hl

theorem keeps_of [TextRule] {α : Type} [Canon α] {s : Str} {v : Val} {load : Val → PyM α} {save : α → PyM Str} {e : α} (hs : TextOf v s)
    (hl : load v = .ok (canon e)) (hw : (save (canon e) >>= parseSexp) = .ok v) : Keeps s load save := by
  obtain ⟨o, t, h1, h2, h3⟩ := rewrites_of hs hl hw
  obtain ⟨l, rfl, h⟩ := hs
  exact ⟨o, t, _, h1, h2, C06_tree_round_trip l s h, h3⟩

theorem Board.asRead_footprints (l : List Footprint) :
    (l.map fun f => { f with filePath := none }).map Footprint.toVal = l.map Footprint.toVal := by
  rw [List.map_map]; rfl

theorem Schematic.asRead_sheets (l : List HierarchicalSheet) :
    (l.map HierarchicalSheet.asRead).map HierarchicalSheet.toVal = l.map HierarchicalSheet.toVal := by
  rw [List.map_map]; rfl

/-! ## The classes -/

theorem C61_Coordinate [TextRule] (o : Coordinate) (h : o.WF) (s : Str) (hs : TextOf o.toVal s) (i : Nat) (nl : Bool) :
    Keeps s Coordinate.fromSexpr (fun o => .ok (o.toSexpr i nl)) := by
  have h0 : Coordinate.WF o := h
  have h' := Stable.keep h0
  exact keeps_of hs Coordinate.from_toVal ((Lexes.one fun _ _ hs => Coordinate.lx h' hs).parse.trans (congrArg Except.ok (Coordinate.toVal_canon o)))
example := C61_Coordinate sampleCoordinate sampleCoordinate_wf

theorem C61_ColorRGBA [TextRule] (o : ColorRGBA) (h : o.WF) (s : Str) (hs : TextOf o.toVal s) (i : Nat) (nl : Bool) :
    Keeps s ColorRGBA.fromSexpr (fun o => .ok (o.toSexpr i nl)) := by
  have h0 : ColorRGBA.WF o := h
  have h' := Stable.keep h0
  exact keeps_of hs (ColorRGBA.from_toVal h) ((Lexes.one fun _ _ hs => ColorRGBA.lx h' hs).parse.trans (congrArg Except.ok (ColorRGBA.toVal_canon o)))
example := C61_ColorRGBA sampleColorRGBA sampleColorRGBA_wf

theorem C61_Stroke [TextRule] (o : Stroke) (h : o.WF) (s : Str) (hs : TextOf o.toVal s) (i : Nat) (nl : Bool) :
    Keeps s Stroke.fromSexpr (fun o => .ok (o.toSexpr i nl)) := by
  have h0 : Stroke.WF o := h
  have h' := Stable.keep h0
  exact keeps_of hs (Stroke.from_toVal h) ((Lexes.one fun _ _ hs => Stroke.lx h' hs).parse.trans (congrArg Except.ok (Stroke.toVal_canon o)))
example := C61_Stroke sampleStroke sampleStroke_wf

theorem C61_Font [TextRule] (o : Font) (h : o.WF) (s : Str) (hs : TextOf o.toVal s) (i : Nat) (nl : Bool) :
    Keeps s Font.fromSexpr (fun o => .ok (o.toSexpr i nl)) := by
  have h0 : Font.WF o := h
  have h' := Stable.keep h0
  exact keeps_of hs (Font.from_toVal h) ((Lexes.one fun _ _ hs => Font.lx h' hs).parse.trans (congrArg Except.ok (Font.toVal_canon o)))
example := C61_Font sampleFont sampleFont_wf

theorem C61_Justify [TextRule] (o : Justify) (h : o.WF) (he : o.isEmpty = false) (s : Str) (hs : TextOf o.toVal s) (i : Nat) (nl : Bool) :
    Keeps s Justify.fromSexpr (fun o => .ok (o.toSexpr i nl)) := by
  have h0 : Justify.WF o := h
  have h' := Stable.keep h0
  have he' : (canon o).isEmpty = false := Justify.isEmpty_canon he
  exact keeps_of hs (Justify.from_toVal h) ((Lexes.one fun _ _ hs => Justify.lx h' he' hs).parse.trans (congrArg Except.ok (Justify.toVal_canon o)))
example := C61_Justify sampleJustify sampleJustify_wf rfl

theorem C61_Effects [TextRule] (o : Effects) (h : o.WF) (s : Str) (hs : TextOf o.toVal s) (i : Nat) (nl : Bool) :
    Keeps s Effects.fromSexpr (fun o => .ok (o.toSexpr i nl)) := by
  have h0 : Effects.WF o := h
  have h' := Stable.keep h0
  exact keeps_of hs (Effects.from_toVal h) ((Lexes.one fun _ _ hs => Effects.lx h' hs).parse.trans (congrArg Except.ok (Effects.toVal_canon o)))
example := C61_Effects sampleEffects sampleEffects_wf

theorem C61_Net [TextRule] (o : Net) (h : o.WF) (s : Str) (hs : TextOf o.toVal s) (i : Nat) (nl : Bool) :
    Keeps s Net.fromSexpr (fun o => .ok (o.toSexpr i nl)) := by
  have h0 : Net.WF o := h
  have h' := Stable.keep h0
  exact keeps_of hs Net.from_toVal ((Lexes.one fun _ _ hs => Net.lx h' hs).parse.trans (congrArg Except.ok (Net.toVal_canon o)))
example := C61_Net sampleNet sampleNet_wf

theorem C61_Group [TextRule] (o : Group) (h : o.WF) (s : Str) (hs : TextOf o.toVal s) (i : Nat) (nl : Bool) :
    Keeps s Group.fromSexpr (fun o => .ok (o.toSexpr i nl)) := by
  have h0 : Group.WF o := h
  have h' := Stable.keep h0
  exact keeps_of hs (Group.from_toVal h) ((Lexes.one fun _ _ hs => Group.lx h' hs).parse.trans (congrArg Except.ok (Group.toVal_canon o)))
example := C61_Group sampleGroup sampleGroup_wf

theorem C61_PageSettings [TextRule] (o : PageSettings) (h : o.WF) (s : Str) (hs : TextOf o.toVal s) (i : Nat) (nl : Bool) :
    Keeps s PageSettings.fromSexpr (fun o => o.toSexpr i nl) := by
  have h0 : PageSettings.WF o := h
  have h' := Stable.keep h0
  exact keeps_of hs (PageSettings.from_toVal h) ((PageSettings.lx h' i nl).parse.trans (congrArg Except.ok (PageSettings.toVal_canon o)))
example := C61_PageSettings samplePageSettings samplePageSettings_wf

theorem C61_TitleBlock [TextRule] (o : TitleBlock) (h : o.WF) (s : Str) (hs : TextOf o.toVal s) (i : Nat) (nl : Bool) :
    Keeps s TitleBlock.fromSexpr (fun o => .ok (o.toSexpr i nl)) := by
  have h0 : TitleBlock.WF o := h
  have h' := Stable.keep h0
  exact keeps_of hs (TitleBlock.from_toVal h) ((Lexes.one fun _ _ hs => TitleBlock.lx h' hs).parse.trans (congrArg Except.ok (TitleBlock.toVal_canon o)))
example := C61_TitleBlock sampleTitleBlock sampleTitleBlock_wf

theorem C61_Property [TextRule] (o : Property) (h : o.WF) (s : Str) (hs : TextOf o.toVal s) (i : Nat) (nl : Bool) :
    Keeps s Property.fromSexpr (fun o => .ok (o.toSexpr i nl)) := by
  have h0 : Property.WF o := h
  have h' := Stable.keep h0
  exact keeps_of hs (Property.from_toVal h) ((Lexes.one fun _ _ hs => Property.lx h' hs).parse.trans (congrArg Except.ok (Property.toVal_canon o)))
example := C61_Property sampleProperty sampleProperty_wf

theorem C61_RenderCachePolygon [TextRule] (o : RenderCachePolygon) (h : o.WF) (s : Str) (hs : TextOf o.toVal s) (i : Nat) (nl : Bool) :
    Keeps s RenderCachePolygon.fromSexpr (fun o => .ok (o.toSexpr i nl)) := by
  have h0 : RenderCachePolygon.WF o := h
  have h' := Stable.keep h0
  exact keeps_of hs (RenderCachePolygon.from_toVal h) ((Lexes.one fun _ _ hs => RenderCachePolygon.lx h' hs).parse.trans (congrArg Except.ok (RenderCachePolygon.toVal_canon o)))
example := C61_RenderCachePolygon sampleRenderCachePolygon sampleRenderCachePolygon_wf

theorem C61_RenderCache [TextRule] (o : RenderCache) (h : o.WF) (s : Str) (hs : TextOf o.toVal s) (i : Nat) (nl : Bool) :
    Keeps s RenderCache.fromSexpr (fun o => .ok (o.toSexpr i nl)) := by
  have h0 : RenderCache.WF o := h
  have h' := Stable.keep h0
  exact keeps_of hs (RenderCache.from_toVal h) ((Lexes.one fun _ _ hs => RenderCache.lx h' hs).parse.trans (congrArg Except.ok (RenderCache.toVal_canon o)))
example := C61_RenderCache sampleRenderCache sampleRenderCache_wf

theorem C61_Fill [TextRule] (o : Fill) (h : o.WF) (s : Str) (hs : TextOf o.toVal s) (i : Nat) (nl : Bool) :
    Keeps s Fill.fromSexpr (fun o => .ok (o.toSexpr i nl)) := by
  have h0 : Fill.WF o := h
  have h' := Stable.keep h0
  exact keeps_of hs (Fill.from_toVal h) ((Lexes.one fun _ _ hs => Fill.lx h' hs).parse.trans (congrArg Except.ok (Fill.toVal_canon o)))
example := C61_Fill sampleFill sampleFill_wf

theorem C61_Image [TextRule] (o : Image) (h : o.WF) (s : Str) (hs : TextOf o.toVal s) (i : Nat) (nl : Bool) :
    Keeps s Image.fromSexpr (fun o => .ok (o.toSexpr i nl)) := by
  have h0 : Image.WF o := h
  have h' := Stable.keep h0
  exact keeps_of hs (Image.from_toVal h) ((Lexes.one fun _ _ hs => Image.lx h' hs).parse.trans (congrArg Except.ok (Image.toVal_canon o)))
example := C61_Image sampleImage sampleImage_wf

theorem C61_Library [TextRule] (o : Library) (h : o.WF) (s : Str) (hs : TextOf o.toVal s) (i : Nat) (nl : Bool) :
    Keeps s Library.fromSexpr (fun o => .ok (o.toSexpr i nl)) := by
  have h0 : Library.WF o := h
  have h' := Stable.keep h0
  exact keeps_of hs (Library.from_toVal h) ((Lexes.one fun _ _ hs => Library.lx h' hs).parse.trans (congrArg Except.ok (Library.toVal_canon o)))
example := C61_Library sampleLibrary sampleLibrary_wf

theorem C61_LibTable [TextRule] (o : LibTable) (h : o.WF) (s : Str) (hs : TextOf o.toVal s) (i : Nat) (nl : Bool) :
    Keeps s LibTable.fromSexpr (fun o => .ok (o.toSexpr i nl)) := by
  have h0 : LibTable.WF { o with filePath := none } := (show LibTable.WF { o with filePath := none } from { h with })
  have h' := Stable.keep h0
  exact keeps_of hs (LibTable.from_toVal h) ((Lexes.one fun _ _ hs => LibTable.lx h' hs).parse.trans (congrArg Except.ok (LibTable.toVal_canon { o with filePath := none })))
example := C61_LibTable sampleLibTable sampleLibTable_wf

theorem C61_Constraint [TextRule] (o : Constraint) (h : o.WF) (s : Str) (hs : TextOf o.toVal s) (i : Nat) (nl : Bool) :
    Keeps s Constraint.fromSexpr (fun o => o.toSexpr i nl) := by
  have h0 : Constraint.WF o := h
  have h' := Stable.keep h0
  exact keeps_of hs (Constraint.from_toVal h) ((Constraint.lx h' i nl).parse.trans (congrArg Except.ok (Constraint.toVal_canon o)))
example := C61_Constraint sampleConstraint sampleConstraint_wf

theorem C61_Rule [TextRule] (o : Rule) (h : o.WF) (s : Str) (hs : TextOf o.toVal s) (i : Nat) :
    Keeps s Rule.fromSexpr (fun o => o.toSexpr i) := by
  have h0 : Rule.WF o := h
  have h' := Stable.keep h0
  exact keeps_of hs (Rule.from_toVal h) ((Rule.lx h' i).parse.trans (congrArg Except.ok (Rule.toVal_canon o)))
example := C61_Rule sampleRule sampleRule_wf

theorem C61_WksFontSize [TextRule] (o : WksFontSize) (h : o.WF) (s : Str) (hs : TextOf o.toVal s) (i : Nat) (nl : Bool) :
    Keeps s WksFontSize.fromSexpr (fun o => .ok (o.toSexpr i nl)) := by
  have h0 : WksFontSize.WF o := h
  have h' := Stable.keep h0
  exact keeps_of hs WksFontSize.from_toVal ((Lexes.one fun _ _ hs => WksFontSize.lx h' hs).parse.trans (congrArg Except.ok (WksFontSize.toVal_canon o)))
example := C61_WksFontSize sampleWksFontSize sampleWksFontSize_wf

theorem C61_Bitmap [TextRule] (o : Bitmap) (h : o.WF) (s : Str) (hs : TextOf o.toVal s) (i : Nat) (nl : Bool) :
    Keeps s Bitmap.fromSexpr (fun o => .ok (o.toSexpr i nl)) := by
  have h0 : Bitmap.WF o := h
  have h' := Stable.keep h0
  exact keeps_of hs (Bitmap.from_toVal h) ((Lexes.one fun _ _ hs => Bitmap.lx h' hs).parse.trans (congrArg Except.ok (Bitmap.toVal_canon o)))
example := C61_Bitmap sampleBitmap sampleBitmap_wf

theorem C61_TbText [TextRule] (o : TbText) (h : o.WF) (s : Str) (hs : TextOf o.toVal s) (i : Nat) (nl : Bool) :
    Keeps s TbText.fromSexpr (fun o => .ok (o.toSexpr i nl)) := by
  have h0 : TbText.WF o := h
  have h' := Stable.keep h0
  exact keeps_of hs (TbText.from_toVal h) ((Lexes.one fun _ _ hs => TbText.lx h' hs).parse.trans (congrArg Except.ok (TbText.toVal_canon o)))
example := C61_TbText sampleTbText sampleTbText_wf

theorem C61_TextSize [TextRule] (o : TextSize) (h : o.WF) (s : Str) (hs : TextOf o.toVal s) (i : Nat) (nl : Bool) :
    Keeps s TextSize.fromSexpr (fun o => .ok (o.toSexpr i nl)) := by
  have h0 : TextSize.WF o := h
  have h' := Stable.keep h0
  exact keeps_of hs TextSize.from_toVal ((Lexes.one fun _ _ hs => TextSize.lx h' hs).parse.trans (congrArg Except.ok (TextSize.toVal_canon o)))
example := C61_TextSize sampleTextSize sampleTextSize_wf

theorem C61_Setup [TextRule] (o : Setup) (h : o.WF) (s : Str) (hs : TextOf o.toVal s) (i : Nat) (nl : Bool) :
    Keeps s Setup.fromSexpr (fun o => .ok (o.toSexpr i nl)) := by
  have h0 : Setup.WF o := h
  have h' := Stable.keep h0
  exact keeps_of hs Setup.from_toVal ((Lexes.one fun _ _ hs => Setup.lx h' hs).parse.trans (congrArg Except.ok (Setup.toVal_canon o)))
example := C61_Setup sampleSetup sampleSetup_wf

theorem C61_WorkSheet [TextRule] (o : WorkSheet) (h : o.WF) (s : Str) (hs : TextOf o.toVal s) (i : Nat) (nl : Bool) :
    Keeps s WorkSheet.fromSexpr (fun o => o.toSexpr i nl) := by
  have h0 : WorkSheet.WF { o with filePath := none } := (show WorkSheet.WF { o with filePath := none } from { h with })
  have h' := Stable.keep h0
  exact keeps_of hs (WorkSheet.from_toVal h) ((WorkSheet.lx h' i nl).parse.trans (congrArg Except.ok (WorkSheet.toVal_canon { o with filePath := none })))
example := C61_WorkSheet sampleWorkSheet sampleWorkSheet_wf

theorem C61_SyArc [TextRule] (o : SyArc) (h : o.WF) (s : Str) (hs : TextOf o.toVal s) (i : Nat) (nl : Bool) :
    Keeps s SyArc.fromSexpr (fun o => .ok (o.toSexpr i nl)) := by
  have h0 : SyArc.WF o := h
  have h' := Stable.keep h0
  exact keeps_of hs (SyArc.from_toVal h) ((Lexes.one fun _ _ hs => SyArc.lx h' hs).parse.trans (congrArg Except.ok (SyArc.toVal_canon o)))
example := C61_SyArc sampleSyArc sampleSyArc_wf

theorem C61_SyCircle [TextRule] (o : SyCircle) (h : o.WF) (s : Str) (hs : TextOf o.toVal s) (i : Nat) (nl : Bool) :
    Keeps s SyCircle.fromSexpr (fun o => .ok (o.toSexpr i nl)) := by
  have h0 : SyCircle.WF o := h
  have h' := Stable.keep h0
  exact keeps_of hs (SyCircle.from_toVal h) ((Lexes.one fun _ _ hs => SyCircle.lx h' hs).parse.trans (congrArg Except.ok (SyCircle.toVal_canon o)))
example := C61_SyCircle sampleSyCircle sampleSyCircle_wf

theorem C61_SyPolyLine [TextRule] (o : SyPolyLine) (h : o.WF) (s : Str) (hs : TextOf o.toVal s) (i : Nat) (nl : Bool) :
    Keeps s SyPolyLine.fromSexpr (fun o => .ok (o.toSexpr i nl)) := by
  have h0 : SyPolyLine.WF o := h
  have h' := Stable.keep h0
  exact keeps_of hs (SyPolyLine.from_toVal h) ((Lexes.one fun _ _ hs => SyPolyLine.lx h' hs).parse.trans (congrArg Except.ok (SyPolyLine.toVal_canon o)))
example := C61_SyPolyLine sampleSyPolyLine sampleSyPolyLine_wf

theorem C61_SyRect [TextRule] (o : SyRect) (h : o.WF) (s : Str) (hs : TextOf o.toVal s) (i : Nat) (nl : Bool) :
    Keeps s SyRect.fromSexpr (fun o => .ok (o.toSexpr i nl)) := by
  have h0 : SyRect.WF o := h
  have h' := Stable.keep h0
  exact keeps_of hs (SyRect.from_toVal h) ((Lexes.one fun _ _ hs => SyRect.lx h' hs).parse.trans (congrArg Except.ok (SyRect.toVal_canon o)))
example := C61_SyRect sampleSyRect sampleSyRect_wf

theorem C61_SyText [TextRule] (o : SyText) (h : o.WF) (s : Str) (hs : TextOf o.toVal s) (i : Nat) (nl : Bool) :
    Keeps s SyText.fromSexpr (fun o => .ok (o.toSexpr i nl)) := by
  have h0 : SyText.WF o := h
  have h' := Stable.keep h0
  exact keeps_of hs (SyText.from_toVal h) ((Lexes.one fun _ _ hs => SyText.lx h' hs).parse.trans (congrArg Except.ok (SyText.toVal_canon o)))
example := C61_SyText sampleSyText sampleSyText_wf

theorem C61_SyTextBox [TextRule] (o : SyTextBox) (h : o.WF) (s : Str) (hs : TextOf o.toVal s) (i : Nat) (nl : Bool) :
    Keeps s SyTextBox.fromSexpr (fun o => .ok (o.toSexpr i nl)) := by
  have h0 : SyTextBox.WF o := h
  have h' := Stable.keep h0
  exact keeps_of hs (SyTextBox.from_toVal h) ((Lexes.one fun _ _ hs => SyTextBox.lx h' hs).parse.trans (congrArg Except.ok (SyTextBox.toVal_canon o)))
example := C61_SyTextBox sampleSyTextBox sampleSyTextBox_wf

theorem C61_SymbolAlternativePin [TextRule] (o : SymbolAlternativePin) (h : o.WF) (s : Str) (hs : TextOf o.toVal s) (i : Nat) (nl : Bool) :
    Keeps s SymbolAlternativePin.fromSexpr (fun o => .ok (o.toSexpr i nl)) := by
  have h0 : SymbolAlternativePin.WF o := h
  have h' := Stable.keep h0
  exact keeps_of hs SymbolAlternativePin.from_toVal ((Lexes.one fun _ _ hs => SymbolAlternativePin.lx h' hs).parse.trans (congrArg Except.ok (SymbolAlternativePin.toVal_canon o)))
example := C61_SymbolAlternativePin sampleSymbolAlternativePin sampleSymbolAlternativePin_wf

theorem C61_SymbolPin [TextRule] (o : SymbolPin) (h : o.WF) (s : Str) (hs : TextOf o.toVal s) (i : Nat) (nl : Bool) :
    Keeps s SymbolPin.fromSexpr (fun o => .ok (o.toSexpr i nl)) := by
  have h0 : SymbolPin.WF o := h
  have h' := Stable.keep h0
  exact keeps_of hs (SymbolPin.from_toVal h) ((Lexes.one fun _ _ hs => SymbolPin.lx h' hs).parse.trans (congrArg Except.ok (SymbolPin.toVal_canon o)))
example := C61_SymbolPin sampleSymbolPin sampleSymbolPin_wf

theorem C61_Symbol [TextRule] (o : Symbol) (h : o.WF) (s : Str) (hs : TextOf o.toVal s) (i : Nat) (nl : Bool) :
    Keeps s Symbol.fromSexpr (fun o => .ok (o.toSexpr i nl)) := by
  have h0 : Symbol.WF o := h
  have h' := Stable.keep h0
  exact keeps_of hs (Symbol.from_toVal h) ((Lexes.one fun _ _ hs => Symbol.lx h' hs).parse.trans (congrArg Except.ok (Symbol.toVal_canon o h0)))
example := C61_Symbol sampleSymbol sampleSymbol_wf

theorem C61_SymbolLib [TextRule] (o : SymbolLib) (h : o.WF) (s : Str) (hs : TextOf o.toVal s) (i : Nat) (nl : Bool) :
    Keeps s SymbolLib.fromSexpr (fun o => .ok (o.toSexpr i nl)) := by
  have h0 : SymbolLib.WF { o with filePath := none } := (show SymbolLib.WF { o with filePath := none } from { h with })
  have h' := Stable.keep h0
  exact keeps_of hs (SymbolLib.from_toVal h) ((Lexes.one fun _ _ hs => SymbolLib.lx h' hs).parse.trans (congrArg Except.ok (SymbolLib.toVal_canon { o with filePath := none } h0)))
example := C61_SymbolLib sampleSymbolLib sampleSymbolLib_wf

theorem C61_Junction [TextRule] (o : Junction) (h : o.WF) (s : Str) (hs : TextOf o.toVal s) (i : Nat) (nl : Bool) :
    Rewrites s Junction.fromSexpr (fun o => o.toSexpr i nl) (Junction.toVal { o with diameter := .int 0 }) := by
  have h0 : Junction.WF o.asRead := Junction.WF.asRead h
  have h' := Stable.keep h0
  have h1 : Junction.toVal o.asRead = Junction.toVal { o with diameter := .int 0 } := rfl
  exact rewrites_of hs (Junction.from_toVal h) ((Junction.lexes h' i nl).parse.trans (congrArg Except.ok ((Junction.toVal_canon o.asRead h0).trans h1)))
example := C61_Junction sampleJunction sampleJunction_wf

theorem C61_NoConnect [TextRule] (o : NoConnect) (h : o.WF) (s : Str) (hs : TextOf o.toVal s) (i : Nat) (nl : Bool) :
    Keeps s NoConnect.fromSexpr (fun o => .ok (o.toSexpr i nl)) := by
  have h0 : NoConnect.WF o := h
  have h' := Stable.keep h0
  exact keeps_of hs (NoConnect.from_toVal h) ((Lexes.one fun _ _ hs => NoConnect.lx h' hs).parse.trans (congrArg Except.ok (NoConnect.toVal_canon o)))
example := C61_NoConnect sampleNoConnect sampleNoConnect_wf

theorem C61_BusEntry [TextRule] (o : BusEntry) (h : o.WF) (s : Str) (hs : TextOf o.toVal s) (i : Nat) (nl : Bool) :
    Keeps s BusEntry.fromSexpr (fun o => .ok (o.toSexpr i nl)) := by
  have h0 : BusEntry.WF o := h
  have h' := Stable.keep h0
  exact keeps_of hs (BusEntry.from_toVal h) ((Lexes.one fun _ _ hs => BusEntry.lx h' hs).parse.trans (congrArg Except.ok (BusEntry.toVal_canon o)))
example := C61_BusEntry sampleBusEntry sampleBusEntry_wf

theorem C61_BusAlias [TextRule] (o : BusAlias) (h : o.WF) (s : Str) (hs : TextOf o.toVal s) (i : Nat) (nl : Bool) :
    Keeps s BusAlias.fromSexpr (fun o => .ok (o.toSexpr i nl)) := by
  have h0 : BusAlias.WF o := h
  have h' := Stable.keep h0
  exact keeps_of hs BusAlias.from_toVal ((Lexes.one fun _ _ hs => BusAlias.lx h' hs).parse.trans (congrArg Except.ok (BusAlias.toVal_canon o)))
example := C61_BusAlias sampleBusAlias sampleBusAlias_wf

theorem C61_Connection [TextRule] (o : Connection) (h : o.WF) (s : Str) (hs : TextOf o.toVal s) (i : Nat) (nl : Bool) :
    Keeps s Connection.fromSexpr (fun o => .ok (o.toSexpr i nl)) := by
  have h0 : Connection.WF o := h
  have h' := Stable.keep h0
  exact keeps_of hs (Connection.from_toVal h) ((Lexes.one fun _ _ hs => Connection.lx h' hs).parse.trans (congrArg Except.ok (Connection.toVal_canon o)))
example := C61_Connection sampleConnection sampleConnection_wf

theorem C61_PolyLine [TextRule] (o : PolyLine) (h : o.WF) (s : Str) (hs : TextOf o.toVal s) (i : Nat) (nl : Bool) :
    Keeps s PolyLine.fromSexpr (fun o => .ok (o.toSexpr i nl)) := by
  have h0 : PolyLine.WF o := h
  have h' := Stable.keep h0
  exact keeps_of hs (PolyLine.from_toVal h) ((Lexes.one fun _ _ hs => PolyLine.lx h' hs).parse.trans (congrArg Except.ok (PolyLine.toVal_canon o)))
example := C61_PolyLine samplePolyLine samplePolyLine_wf

theorem C61_Text [TextRule] (o : Text) (h : o.WF) (s : Str) (hs : TextOf o.toVal s) (i : Nat) (nl : Bool) :
    Keeps s Text.fromSexpr (fun o => o.toSexpr i nl) := by
  have h0 : Text.WF o := h
  have h' := Stable.keep h0
  exact keeps_of hs (Text.from_toVal h) ((Text.lexes h' i nl).parse.trans (congrArg Except.ok (Text.toVal_canon o)))
example := C61_Text sampleText sampleText_wf

theorem C61_TextBox [TextRule] (o : TextBox) (h : o.WF) (s : Str) (hs : TextOf o.toVal s) (i : Nat) (nl : Bool) :
    Keeps s TextBox.fromSexpr (fun o => .ok (o.toSexpr i nl)) := by
  have h0 : TextBox.WF o := h
  have h' := Stable.keep h0
  exact keeps_of hs (TextBox.from_toVal h) ((Lexes.one fun _ _ hs => TextBox.lx h' hs).parse.trans (congrArg Except.ok (TextBox.toVal_canon o)))
example := C61_TextBox sampleTextBox sampleTextBox_wf

theorem C61_LocalLabel [TextRule] (o : LocalLabel) (h : o.WF) (s : Str) (hs : TextOf o.toVal s) (i : Nat) (nl : Bool) :
    Keeps s LocalLabel.fromSexpr (fun o => .ok (o.toSexpr i nl)) := by
  have h0 : LocalLabel.WF o := h
  have h' := Stable.keep h0
  exact keeps_of hs (LocalLabel.from_toVal h) ((Lexes.one fun _ _ hs => LocalLabel.lx h' hs).parse.trans (congrArg Except.ok (LocalLabel.toVal_canon o)))
example := C61_LocalLabel sampleLocalLabel sampleLocalLabel_wf

theorem C61_GlobalLabel [TextRule] (o : GlobalLabel) (h : o.WF) (s : Str) (hs : TextOf o.toVal s) (i : Nat) (nl : Bool) :
    Keeps s GlobalLabel.fromSexpr (fun o => .ok (o.toSexpr i nl)) := by
  have h0 : GlobalLabel.WF o := h
  have h' := Stable.keep h0
  exact keeps_of hs (GlobalLabel.from_toVal h) ((Lexes.one fun _ _ hs => GlobalLabel.lx h' hs).parse.trans (congrArg Except.ok (GlobalLabel.toVal_canon o)))
example := C61_GlobalLabel sampleGlobalLabel sampleGlobalLabel_wf

theorem C61_HierarchicalLabel [TextRule] (o : HierarchicalLabel) (h : o.WF) (s : Str) (hs : TextOf o.toVal s) (i : Nat) (nl : Bool) :
    Keeps s HierarchicalLabel.fromSexpr (fun o => .ok (o.toSexpr i nl)) := by
  have h0 : HierarchicalLabel.WF o := h
  have h' := Stable.keep h0
  exact keeps_of hs (HierarchicalLabel.from_toVal h) ((Lexes.one fun _ _ hs => HierarchicalLabel.lx h' hs).parse.trans (congrArg Except.ok (HierarchicalLabel.toVal_canon o)))
example := C61_HierarchicalLabel sampleHierarchicalLabel sampleHierarchicalLabel_wf

theorem C61_SymbolProjectPath [TextRule] (o : SymbolProjectPath) (h : o.WF) (s : Str) (hs : TextOf o.toVal s) (i : Nat) (nl : Bool) :
    Keeps s SymbolProjectPath.fromSexpr (fun o => .ok (o.toSexpr i nl)) := by
  have h0 : SymbolProjectPath.WF o := h
  have h' := Stable.keep h0
  exact keeps_of hs (SymbolProjectPath.from_toVal h) ((Lexes.one fun _ _ hs => SymbolProjectPath.lx h' hs).parse.trans (congrArg Except.ok (SymbolProjectPath.toVal_canon o)))
example := C61_SymbolProjectPath sampleSymbolProjectPath sampleSymbolProjectPath_wf

theorem C61_SymbolProjectInstance [TextRule] (o : SymbolProjectInstance) (h : o.WF) (s : Str) (hs : TextOf o.toVal s) (i : Nat) (nl : Bool) :
    Keeps s SymbolProjectInstance.fromSexpr (fun o => .ok (o.toSexpr i nl)) := by
  have h0 : SymbolProjectInstance.WF o := h
  have h' := Stable.keep h0
  exact keeps_of hs (SymbolProjectInstance.from_toVal h) ((Lexes.one fun _ _ hs => SymbolProjectInstance.lx h' hs).parse.trans (congrArg Except.ok (SymbolProjectInstance.toVal_canon o)))
example := C61_SymbolProjectInstance sampleSymbolProjectInstance sampleSymbolProjectInstance_wf

theorem C61_SchematicSymbol [TextRule] (o : SchematicSymbol) (h : o.WF) (s : Str) (hs : TextOf o.toVal s) (i : Nat) (nl : Bool) :
    Keeps s SchematicSymbol.fromSexpr (fun o => .ok (o.toSexpr i nl)) := by
  have h0 : SchematicSymbol.WF o := h
  have h' := Stable.keep h0
  exact keeps_of hs (SchematicSymbol.from_toVal h) ((Lexes.one fun _ _ hs => SchematicSymbol.lx h' hs).parse.trans (congrArg Except.ok (SchematicSymbol.toVal_canon o h0)))
example := C61_SchematicSymbol sampleSchematicSymbol sampleSchematicSymbol_wf

theorem C61_HierarchicalPin [TextRule] (o : HierarchicalPin) (h : o.WF) (s : Str) (hs : TextOf o.toVal s) (i : Nat) (nl : Bool) :
    Keeps s HierarchicalPin.fromSexpr (fun o => .ok (o.toSexpr i nl)) := by
  have h0 : HierarchicalPin.WF o := h
  have h' := Stable.keep h0
  exact keeps_of hs (HierarchicalPin.from_toVal h) ((Lexes.one fun _ _ hs => HierarchicalPin.lx h' hs).parse.trans (congrArg Except.ok (HierarchicalPin.toVal_canon o)))
example := C61_HierarchicalPin sampleHierarchicalPin sampleHierarchicalPin_wf

theorem C61_HierarchicalSheetProjectPath [TextRule] (o : HierarchicalSheetProjectPath) (h : o.WF) (s : Str) (hs : TextOf o.toVal s) (i : Nat) (nl : Bool) :
    Keeps s HierarchicalSheetProjectPath.fromSexpr (fun o => .ok (o.toSexpr i nl)) := by
  have h0 : HierarchicalSheetProjectPath.WF o := h
  have h' := Stable.keep h0
  exact keeps_of hs (HierarchicalSheetProjectPath.from_toVal h) ((Lexes.one fun _ _ hs => HierarchicalSheetProjectPath.lx h' hs).parse.trans (congrArg Except.ok (HierarchicalSheetProjectPath.toVal_canon o)))
example := C61_HierarchicalSheetProjectPath sampleHierarchicalSheetProjectPath sampleHierarchicalSheetProjectPath_wf

theorem C61_HierarchicalSheetProjectInstance [TextRule] (o : HierarchicalSheetProjectInstance) (h : o.WF) (s : Str) (hs : TextOf o.toVal s) (i : Nat) (nl : Bool) :
    Keeps s HierarchicalSheetProjectInstance.fromSexpr (fun o => .ok (o.toSexpr i nl)) := by
  have h0 : HierarchicalSheetProjectInstance.WF o := h
  have h' := Stable.keep h0
  exact keeps_of hs (HierarchicalSheetProjectInstance.from_toVal h) ((Lexes.one fun _ _ hs => HierarchicalSheetProjectInstance.lx h' hs).parse.trans (congrArg Except.ok (HierarchicalSheetProjectInstance.toVal_canon o)))
example := C61_HierarchicalSheetProjectInstance sampleHierarchicalSheetProjectInstance sampleHierarchicalSheetProjectInstance_wf

theorem C61_HierarchicalSheet [TextRule] (o : HierarchicalSheet) (h : o.WF) (hf : FixOk 4 o.fill.A) (s : Str) (hs : TextOf o.toVal s) (i : Nat) (nl : Bool) :
    Keeps s HierarchicalSheet.fromSexpr (fun o => o.toSexpr i nl) := by
  have h0 : HierarchicalSheet.WF o.asRead := HierarchicalSheet.WF.asRead h hf
  have h' := Stable.keep h0
  exact keeps_of hs (HierarchicalSheet.from_toVal h) ((HierarchicalSheet.lexes h' i nl).parse.trans (congrArg Except.ok (HierarchicalSheet.toVal_canon o.asRead)))
example := C61_HierarchicalSheet sampleHierarchicalSheet sampleHierarchicalSheet_wf (fixOk_int (exactInt_of_le (by decide)))

theorem C61_HierarchicalSheetInstance [TextRule] (o : HierarchicalSheetInstance) (h : o.WF) (s : Str) (hs : TextOf o.toVal s) (i : Nat) (nl : Bool) :
    Keeps s HierarchicalSheetInstance.fromSexpr (fun o => .ok (o.toSexpr i nl)) := by
  have h0 : HierarchicalSheetInstance.WF o := h
  have h' := Stable.keep h0
  exact keeps_of hs (HierarchicalSheetInstance.from_toVal h) ((Lexes.one fun _ _ hs => HierarchicalSheetInstance.lx h' hs).parse.trans (congrArg Except.ok (HierarchicalSheetInstance.toVal_canon o)))
example := C61_HierarchicalSheetInstance sampleHierarchicalSheetInstance sampleHierarchicalSheetInstance_wf

theorem C61_SymbolInstance [TextRule] (o : SymbolInstance) (h : o.WF) (s : Str) (hs : TextOf o.toVal s) (i : Nat) (nl : Bool) :
    Keeps s SymbolInstance.fromSexpr (fun o => .ok (o.toSexpr i nl)) := by
  have h0 : SymbolInstance.WF o := h
  have h' := Stable.keep h0
  exact keeps_of hs (SymbolInstance.from_toVal h) ((Lexes.one fun _ _ hs => SymbolInstance.lx h' hs).parse.trans (congrArg Except.ok (SymbolInstance.toVal_canon o)))
example := C61_SymbolInstance sampleSymbolInstance sampleSymbolInstance_wf

theorem C61_Rectangle [TextRule] (o : Rectangle) (h : o.WF) (s : Str) (hs : TextOf o.toVal s) (i : Nat) (nl : Bool) :
    Keeps s Rectangle.fromSexpr (fun o => .ok (o.toSexpr i nl)) := by
  have h0 : Rectangle.WF o := h
  have h' := Stable.keep h0
  exact keeps_of hs (Rectangle.from_toVal h) ((Lexes.one fun _ _ hs => Rectangle.lx h' hs).parse.trans (congrArg Except.ok (Rectangle.toVal_canon o)))
example := C61_Rectangle sampleRectangle sampleRectangle_wf

theorem C61_Arc [TextRule] (o : Arc) (h : o.WF) (s : Str) (hs : TextOf o.toVal s) (i : Nat) (nl : Bool) :
    Keeps s Arc.fromSexpr (fun o => .ok (o.toSexpr i nl)) := by
  have h0 : Arc.WF o := h
  have h' := Stable.keep h0
  exact keeps_of hs (Arc.from_toVal h) ((Lexes.one fun _ _ hs => Arc.lx h' hs).parse.trans (congrArg Except.ok (Arc.toVal_canon o)))
example := C61_Arc sampleArc sampleArc_wf

theorem C61_Circle [TextRule] (o : Circle) (h : o.WF) (s : Str) (hs : TextOf o.toVal s) (i : Nat) (nl : Bool) :
    Keeps s Circle.fromSexpr (fun o => .ok (o.toSexpr i nl)) := by
  have h0 : Circle.WF o := h
  have h' := Stable.keep h0
  exact keeps_of hs (Circle.from_toVal h) ((Lexes.one fun _ _ hs => Circle.lx h' hs).parse.trans (congrArg Except.ok (Circle.toVal_canon o)))
example := C61_Circle sampleCircle sampleCircle_wf

theorem C61_NetclassFlag [TextRule] (o : NetclassFlag) (h : o.WF) (s : Str) (hs : TextOf o.toVal s) (i : Nat) (nl : Bool) :
    Keeps s NetclassFlag.fromSexpr (fun o => o.toSexpr i nl) := by
  have h0 : NetclassFlag.WF o := h
  have h' := Stable.keep h0
  exact keeps_of hs (NetclassFlag.from_toVal h) ((NetclassFlag.lexes h' i nl).parse.trans (congrArg Except.ok (NetclassFlag.toVal_canon o)))
example := C61_NetclassFlag sampleNetclassFlag sampleNetclassFlag_wf

theorem C61_Schematic [TextRule] (o : Schematic) (h : o.WF) (hf : ∀ v ∈ o.sheets, FixOk 4 v.fill.A) (s : Str) (hs : TextOf o.toVal s) (i : Nat) (nl : Bool) :
    Rewrites s Schematic.fromSexpr (fun o => o.toSexpr i nl) (Schematic.toVal { o with junctions := o.junctions.map fun j => { j with diameter := .int 0 } }) := by
  have h0 : Schematic.WF o.asRead := Schematic.WF.asRead h hf
  have h' := Stable.keep h0
  have h1 : Schematic.toVal o.asRead = Schematic.toVal { o with junctions := o.junctions.map fun j => { j with diameter := .int 0 } } := (by simp only [Schematic.asRead, Schematic.toVal, Schematic.asRead_sheets]; rfl)
  exact rewrites_of hs (Schematic.from_toVal h) ((Schematic.lexes h' i nl).parse.trans (congrArg Except.ok ((Schematic.toVal_canon o.asRead h0).trans h1)))
example := C61_Schematic sampleSchematic sampleSchematic_wf (by listOk; exact fixOk_int (exactInt_of_le (by decide)))

theorem C61_GrText [TextRule] (o : GrText) (h : o.WF) (s : Str) (hs : TextOf o.toVal s) (i : Nat) (nl : Bool) :
    Keeps s GrText.fromSexpr (fun o => .ok (o.toSexpr i nl)) := by
  have h0 : GrText.WF o := h
  have h' := Stable.keep h0
  exact keeps_of hs (GrText.from_toVal h) ((Lexes.one fun _ _ hs => GrText.lx h' hs).parse.trans (congrArg Except.ok (GrText.toVal_canon o)))
example := C61_GrText sampleGrText sampleGrText_wf

theorem C61_GrTextBox [TextRule] (o : GrTextBox) (h : o.WF) (s : Str) (hs : TextOf o.toVal s) (i : Nat) (nl : Bool) :
    Keeps s GrTextBox.fromSexpr (fun o => o.toSexpr i nl) := by
  have h0 : GrTextBox.WF o := h
  have h' := Stable.keep h0
  exact keeps_of hs (GrTextBox.from_toVal h) ((GrTextBox.lexes h' i nl).parse.trans (congrArg Except.ok (GrTextBox.toVal_canon o)))
example := C61_GrTextBox sampleGrTextBox sampleGrTextBox_wf

theorem C61_GrLine [TextRule] (o : GrLine) (h : o.WF) (s : Str) (hs : TextOf o.toVal s) (i : Nat) (nl : Bool) :
    Keeps s GrLine.fromSexpr (fun o => .ok (o.toSexpr i nl)) := by
  have h0 : GrLine.WF o := h
  have h' := Stable.keep h0
  exact keeps_of hs (GrLine.from_toVal h) ((Lexes.one fun _ _ hs => GrLine.lx h' hs).parse.trans (congrArg Except.ok (GrLine.toVal_canon o)))
example := C61_GrLine sampleGrLine sampleGrLine_wf

theorem C61_GrRect [TextRule] (o : GrRect) (h : o.WF) (s : Str) (hs : TextOf o.toVal s) (i : Nat) (nl : Bool) :
    Keeps s GrRect.fromSexpr (fun o => .ok (o.toSexpr i nl)) := by
  have h0 : GrRect.WF o := h
  have h' := Stable.keep h0
  exact keeps_of hs (GrRect.from_toVal h) ((Lexes.one fun _ _ hs => GrRect.lx h' hs).parse.trans (congrArg Except.ok (GrRect.toVal_canon o)))
example := C61_GrRect sampleGrRect sampleGrRect_wf

theorem C61_GrCircle [TextRule] (o : GrCircle) (h : o.WF) (s : Str) (hs : TextOf o.toVal s) (i : Nat) (nl : Bool) :
    Keeps s GrCircle.fromSexpr (fun o => .ok (o.toSexpr i nl)) := by
  have h0 : GrCircle.WF o := h
  have h' := Stable.keep h0
  exact keeps_of hs (GrCircle.from_toVal h) ((Lexes.one fun _ _ hs => GrCircle.lx h' hs).parse.trans (congrArg Except.ok (GrCircle.toVal_canon o)))
example := C61_GrCircle sampleGrCircle sampleGrCircle_wf

theorem C61_GrArc [TextRule] (o : GrArc) (h : o.WF) (s : Str) (hs : TextOf o.toVal s) (i : Nat) (nl : Bool) :
    Keeps s GrArc.fromSexpr (fun o => .ok (o.toSexpr i nl)) := by
  have h0 : GrArc.WF o := h
  have h' := Stable.keep h0
  exact keeps_of hs (GrArc.from_toVal h) ((Lexes.one fun _ _ hs => GrArc.lx h' hs).parse.trans (congrArg Except.ok (GrArc.toVal_canon o)))
example := C61_GrArc sampleGrArc sampleGrArc_wf

theorem C61_GrPoly [TextRule] (o : GrPoly) (h : o.WF) (s : Str) (hs : TextOf o.toVal s) (i : Nat) (nl pn : Bool) :
    Keeps s GrPoly.fromSexpr (fun o => .ok (o.toSexpr i nl pn)) := by
  have h0 : GrPoly.WF o := h
  have h' := Stable.keep h0
  exact keeps_of hs (GrPoly.from_toVal h) ((Lexes.one fun _ _ hs => GrPoly.lx h' hs).parse.trans (congrArg Except.ok (GrPoly.toVal_canon o)))
example := C61_GrPoly sampleGrPoly sampleGrPoly_wf

theorem C61_GrCurve [TextRule] (o : GrCurve) (h : o.WF) (s : Str) (hs : TextOf o.toVal s) (i : Nat) (nl : Bool) :
    Keeps s GrCurve.fromSexpr (fun o => .ok (o.toSexpr i nl)) := by
  have h0 : GrCurve.WF o := h
  have h' := Stable.keep h0
  exact keeps_of hs (GrCurve.from_toVal h) ((Lexes.one fun _ _ hs => GrCurve.lx h' hs).parse.trans (congrArg Except.ok (GrCurve.toVal_canon o)))
example := C61_GrCurve sampleGrCurve sampleGrCurve_wf

theorem C61_FpText [TextRule] (o : FpText) (h : o.WF) (s : Str) (hs : TextOf o.toVal s) (i : Nat) (nl : Bool) :
    Keeps s FpText.fromSexpr (fun o => .ok (o.toSexpr i nl)) := by
  have h0 : FpText.WF o := h
  have h' := Stable.keep h0
  exact keeps_of hs (FpText.from_toVal h) ((Lexes.one fun _ _ hs => FpText.lx h' hs).parse.trans (congrArg Except.ok (FpText.toVal_canon o)))
example := C61_FpText sampleFpText sampleFpText_wf

theorem C61_FpLine [TextRule] (o : FpLine) (h : o.WF) (s : Str) (hs : TextOf o.toVal s) (i : Nat) (nl : Bool) :
    Keeps s FpLine.fromSexpr (fun o => .ok (o.toSexpr i nl)) := by
  have h0 : FpLine.WF o := h
  have h' := Stable.keep h0
  exact keeps_of hs (FpLine.from_toVal h) ((Lexes.one fun _ _ hs => FpLine.lx h' hs).parse.trans (congrArg Except.ok (FpLine.toVal_canon o)))
example := C61_FpLine sampleFpLine sampleFpLine_wf

theorem C61_FpRect [TextRule] (o : FpRect) (h : o.WF) (s : Str) (hs : TextOf o.toVal s) (i : Nat) (nl : Bool) :
    Keeps s FpRect.fromSexpr (fun o => .ok (o.toSexpr i nl)) := by
  have h0 : FpRect.WF o := h
  have h' := Stable.keep h0
  exact keeps_of hs (FpRect.from_toVal h) ((Lexes.one fun _ _ hs => FpRect.lx h' hs).parse.trans (congrArg Except.ok (FpRect.toVal_canon o)))
example := C61_FpRect sampleFpRect sampleFpRect_wf

theorem C61_FpTextBox [TextRule] (o : FpTextBox) (h : o.WF) (s : Str) (hs : TextOf o.toVal s) (i : Nat) (nl : Bool) :
    Keeps s FpTextBox.fromSexpr (fun o => o.toSexpr i nl) := by
  have h0 : FpTextBox.WF o := h
  have h' := Stable.keep h0
  exact keeps_of hs (FpTextBox.from_toVal h) ((FpTextBox.lexes h' i nl).parse.trans (congrArg Except.ok (FpTextBox.toVal_canon o)))
example := C61_FpTextBox sampleFpTextBox sampleFpTextBox_wf

theorem C61_FpCircle [TextRule] (o : FpCircle) (h : o.WF) (s : Str) (hs : TextOf o.toVal s) (i : Nat) (nl : Bool) :
    Keeps s FpCircle.fromSexpr (fun o => .ok (o.toSexpr i nl)) := by
  have h0 : FpCircle.WF o := h
  have h' := Stable.keep h0
  exact keeps_of hs (FpCircle.from_toVal h) ((Lexes.one fun _ _ hs => FpCircle.lx h' hs).parse.trans (congrArg Except.ok (FpCircle.toVal_canon o)))
example := C61_FpCircle sampleFpCircle sampleFpCircle_wf

theorem C61_FpArc [TextRule] (o : FpArc) (h : o.WF) (s : Str) (hs : TextOf o.toVal s) (i : Nat) (nl : Bool) :
    Keeps s FpArc.fromSexpr (fun o => .ok (o.toSexpr i nl)) := by
  have h0 : FpArc.WF o := h
  have h' := Stable.keep h0
  exact keeps_of hs (FpArc.from_toVal h) ((Lexes.one fun _ _ hs => FpArc.lx h' hs).parse.trans (congrArg Except.ok (FpArc.toVal_canon o)))
example := C61_FpArc sampleFpArc sampleFpArc_wf

theorem C61_FpPoly [TextRule] (o : FpPoly) (h : o.WF) (s : Str) (hs : TextOf o.toVal s) (i : Nat) (nl : Bool) :
    Keeps s FpPoly.fromSexpr (fun o => .ok (o.toSexpr i nl)) := by
  have h0 : FpPoly.WF o := h
  have h' := Stable.keep h0
  exact keeps_of hs (FpPoly.from_toVal h) ((Lexes.one fun _ _ hs => FpPoly.lx h' hs).parse.trans (congrArg Except.ok (FpPoly.toVal_canon o)))
example := C61_FpPoly sampleFpPoly sampleFpPoly_wf

theorem C61_FpCurve [TextRule] (o : FpCurve) (h : o.WF) (s : Str) (hs : TextOf o.toVal s) (i : Nat) (nl : Bool) :
    Keeps s FpCurve.fromSexpr (fun o => .ok (o.toSexpr i nl)) := by
  have h0 : FpCurve.WF o := h
  have h' := Stable.keep h0
  exact keeps_of hs (FpCurve.from_toVal h) ((Lexes.one fun _ _ hs => FpCurve.lx h' hs).parse.trans (congrArg Except.ok (FpCurve.toVal_canon o)))
example := C61_FpCurve sampleFpCurve sampleFpCurve_wf

theorem C61_KeepoutSettings [TextRule] (o : KeepoutSettings) (h : o.WF) (s : Str) (hs : TextOf o.toVal s) (i : Nat) (nl : Bool) :
    Keeps s KeepoutSettings.fromSexpr (fun o => .ok (o.toSexpr i nl)) := by
  have h0 : KeepoutSettings.WF o := h
  have h' := Stable.keep h0
  exact keeps_of hs (KeepoutSettings.from_toVal h) ((Lexes.one fun _ _ hs => KeepoutSettings.lx h' hs).parse.trans (congrArg Except.ok (KeepoutSettings.toVal_canon o)))
example := C61_KeepoutSettings sampleKeepoutSettings sampleKeepoutSettings_wf

theorem C61_FillSettings [TextRule] (o : FillSettings) (h : o.WF) (s : Str) (hs : TextOf o.toVal s) (i : Nat) (nl : Bool) :
    Keeps s FillSettings.fromSexpr (fun o => .ok (o.toSexpr i nl)) := by
  have h0 : FillSettings.WF o := h
  have h' := Stable.keep h0
  exact keeps_of hs (FillSettings.from_toVal h) ((Lexes.one fun _ _ hs => FillSettings.lx h' hs).parse.trans (congrArg Except.ok (FillSettings.toVal_canon o)))
example := C61_FillSettings sampleFillSettings sampleFillSettings_wf

theorem C61_ZonePolygon [TextRule] (o : ZonePolygon) (h : o.WF) (s : Str) (hs : TextOf o.toVal s) (i : Nat) (nl : Bool) :
    Keeps s ZonePolygon.fromSexpr (fun o => .ok (o.toSexpr i nl)) := by
  have h0 : ZonePolygon.WF o := h
  have h' := Stable.keep h0
  exact keeps_of hs (ZonePolygon.from_toVal h) ((Lexes.one fun _ _ hs => ZonePolygon.lx h' hs).parse.trans (congrArg Except.ok (ZonePolygon.toVal_canon o)))
example := C61_ZonePolygon sampleZonePolygon sampleZonePolygon_wf

theorem C61_FilledPolygon [TextRule] (o : FilledPolygon) (h : o.WF) (s : Str) (hs : TextOf o.toVal s) (i : Nat) (nl : Bool) :
    Keeps s FilledPolygon.fromSexpr (fun o => .ok (o.toSexpr i nl)) := by
  have h0 : FilledPolygon.WF o := h
  have h' := Stable.keep h0
  exact keeps_of hs (FilledPolygon.from_toVal h) ((Lexes.one fun _ _ hs => FilledPolygon.lx h' hs).parse.trans (congrArg Except.ok (FilledPolygon.toVal_canon o)))
example := C61_FilledPolygon sampleFilledPolygon sampleFilledPolygon_wf

theorem C61_FillSegments [TextRule] (o : FillSegments) (h : o.WF) (s : Str) (hs : TextOf o.toVal s) (i : Nat) (nl : Bool) :
    Keeps s FillSegments.fromSexpr (fun o => .ok (o.toSexpr i nl)) := by
  have h0 : FillSegments.WF o := h
  have h' := Stable.keep h0
  exact keeps_of hs (FillSegments.from_toVal h) ((Lexes.one fun _ _ hs => FillSegments.lx h' hs).parse.trans (congrArg Except.ok (FillSegments.toVal_canon o)))
example := C61_FillSegments sampleFillSegments sampleFillSegments_wf

theorem C61_Zone [TextRule] (o : Zone) (h : o.WF) (s : Str) (hs : TextOf o.toVal s) (i : Nat) (nl : Bool) :
    Keeps s Zone.fromSexpr (fun o => o.toSexpr i nl) := by
  have h0 : Zone.WF o := h
  have h' := Stable.keep h0
  exact keeps_of hs (Zone.from_toVal h) ((Zone.lexes h' i nl).parse.trans (congrArg Except.ok (Zone.toVal_canon o)))
example := C61_Zone sampleZone sampleZone_wf

theorem C61_Attributes [TextRule] (o : Attributes) (h : o.WF) (he : o.isDefault = false) (s : Str) (hs : TextOf o.toVal s) (i : Nat) (nl : Bool) :
    Keeps s Attributes.fromSexpr (fun o => .ok (o.toSexpr i nl)) := by
  have h0 : Attributes.WF o := h
  have h' := Stable.keep h0
  have he' : (canon o).isDefault = false := Attributes.isDefault_canon he
  exact keeps_of hs (Attributes.from_toVal h) ((Attributes.lexes h' he' i nl).parse.trans (congrArg Except.ok (Attributes.toVal_canon o)))
example := C61_Attributes sampleAttributes sampleAttributes_wf rfl

theorem C61_Model [TextRule] (o : Model) (h : o.WF) (s : Str) (hs : TextOf o.toVal s) (i : Nat) (nl : Bool) :
    Keeps s Model.fromSexpr (fun o => .ok (o.toSexpr i nl)) := by
  have h0 : Model.WF o := h
  have h' := Stable.keep h0
  exact keeps_of hs (Model.from_toVal h) ((Lexes.one fun _ _ hs => Model.lx h' hs).parse.trans (congrArg Except.ok (Model.toVal_canon o)))
example := C61_Model sampleModel sampleModel_wf

theorem C61_DrillDefinition [TextRule] (o : DrillDefinition) (h : o.WF) (s : Str) (hs : TextOf o.toVal s) (i : Nat) (nl : Bool) :
    Keeps s DrillDefinition.fromSexpr (fun o => .ok (o.toSexpr i nl)) := by
  have h0 : DrillDefinition.WF o := h
  have h' := Stable.keep h0
  exact keeps_of hs (DrillDefinition.from_toVal h) ((Lexes.one fun _ _ hs => DrillDefinition.lx h' hs).parse.trans (congrArg Except.ok (DrillDefinition.toVal_canon o)))
example := C61_DrillDefinition sampleDrillDefinition sampleDrillDefinition_wf

theorem C61_PadOptions [TextRule] (o : PadOptions) (h : o.WF) (s : Str) (hs : TextOf o.toVal s) (i : Nat) (nl : Bool) :
    Keeps s PadOptions.fromSexpr (fun o => .ok (o.toSexpr i nl)) := by
  have h0 : PadOptions.WF o := h
  have h' := Stable.keep h0
  exact keeps_of hs (PadOptions.from_toVal h) ((Lexes.one fun _ _ hs => PadOptions.lx h' hs).parse.trans (congrArg Except.ok (PadOptions.toVal_canon o)))
example := C61_PadOptions samplePadOptions samplePadOptions_wf

theorem C61_Pad [TextRule] (o : Pad) (h : o.WF) (s : Str) (hs : TextOf o.toVal s) (i : Nat) (nl : Bool) :
    Keeps s Pad.fromSexpr (fun o => o.toSexpr i nl) := by
  have h0 : Pad.WF o := h
  have h' := Stable.keep h0
  exact keeps_of hs (Pad.from_toVal h) ((Pad.lexes h' i nl).parse.trans (congrArg Except.ok (Pad.toVal_canon o)))
example := C61_Pad samplePad samplePad_wf

theorem C61_Footprint [TextRule] (o : Footprint) (h : o.WF) (tedit : Val) (s : Str) (hs : TextOf o.toVal s) (i : Nat) (nl lf : Bool) :
    Keeps s (Footprint.fromSexpr tedit) (fun o => o.toSexpr i nl lf) := by
  have h0 : Footprint.WF { o with filePath := none } := (show Footprint.WF { o with filePath := none } from { h with })
  have h' := Stable.keep h0
  exact keeps_of hs (Footprint.from_toVal h tedit) ((Footprint.lexes h' i nl lf).parse.trans (congrArg Except.ok (Footprint.toVal_canon { o with filePath := none } h0)))
example := C61_Footprint sampleFootprint sampleFootprint_wf

theorem C61_GeneralSettings [TextRule] (o : GeneralSettings) (h : o.WF) (s : Str) (hs : TextOf o.toVal s) (i : Nat) (nl : Bool) :
    Keeps s GeneralSettings.fromSexpr (fun o => .ok (o.toSexpr i nl)) := by
  have h0 : GeneralSettings.WF o := h
  have h' := Stable.keep h0
  exact keeps_of hs (GeneralSettings.from_toVal h) ((Lexes.one fun _ _ hs => GeneralSettings.lx h' hs).parse.trans (congrArg Except.ok (GeneralSettings.toVal_canon o)))
example := C61_GeneralSettings sampleGeneralSettings sampleGeneralSettings_wf

theorem C61_LayerToken [TextRule] (o : LayerToken) (h : o.WF) (s : Str) (hs : TextOf o.toVal s) (i : Nat) (nl : Bool) :
    Keeps s LayerToken.fromSexpr (fun o => .ok (o.toSexpr i nl)) := by
  have h0 : LayerToken.WF o := h
  have h' := Stable.keep h0
  exact keeps_of hs LayerToken.from_toVal ((Lexes.one fun _ _ hs => LayerToken.lx h' hs).parse.trans (congrArg Except.ok (LayerToken.toVal_canon o)))
example := C61_LayerToken sampleLayerToken sampleLayerToken_wf

theorem C61_StackupLayer [TextRule] (o : StackupLayer) (h : o.WF) (s : Str) (hs : TextOf o.toVal s) (i : Nat) (nl : Bool) :
    Keeps s StackupLayer.fromSexpr (fun o => .ok (o.toSexpr i nl)) := by
  have h0 : StackupLayer.WF o := h
  have h' := Stable.keep h0
  exact keeps_of hs StackupLayer.from_toVal ((Lexes.one fun _ _ hs => StackupLayer.lx h' hs).parse.trans (congrArg Except.ok (StackupLayer.toVal_canon o)))
example := C61_StackupLayer sampleStackupLayer sampleStackupLayer_wf

theorem C61_Stackup [TextRule] (o : Stackup) (h : o.WF) (s : Str) (hs : TextOf o.toVal s) (i : Nat) (nl : Bool) :
    Keeps s Stackup.fromSexpr (fun o => .ok (o.toSexpr i nl)) := by
  have h0 : Stackup.WF o := h
  have h' := Stable.keep h0
  exact keeps_of hs (Stackup.from_toVal h) ((Lexes.one fun _ _ hs => Stackup.lx h' hs).parse.trans (congrArg Except.ok (Stackup.toVal_canon o)))
example := C61_Stackup sampleStackup sampleStackup_wf

theorem C61_PlotSettings [TextRule] (o : PlotSettings) (h : o.WF) (s : Str) (hs : TextOf o.toVal s) (i : Nat) (nl : Bool) :
    Rewrites s PlotSettings.fromSexpr (fun o => o.toSexpr i nl) (PlotSettings.toVal { o with useAuxOrigin := false }) := by
  have h0 : PlotSettings.WF o.asRead := PlotSettings.WF.asRead h
  have h' := Stable.keep h0
  have h1 : PlotSettings.toVal o.asRead = PlotSettings.toVal { o with useAuxOrigin := false } := rfl
  exact rewrites_of hs (PlotSettings.from_toVal h) ((PlotSettings.lexes h' i nl).parse.trans (congrArg Except.ok ((PlotSettings.toVal_canon o.asRead).trans h1)))
example := C61_PlotSettings samplePlotSettings samplePlotSettings_wf

theorem C61_SetupData [TextRule] (o : SetupData) (h : o.WF) (s : Str) (hs : TextOf o.toVal s) (i : Nat) (nl : Bool) :
    Rewrites s SetupData.fromSexpr (fun o => o.toSexpr i nl) (SetupData.toVal { o with plotSettings := o.plotSettings.map fun p => { p with useAuxOrigin := false } }) := by
  have h0 : SetupData.WF o.asRead := SetupData.WF.asRead h
  have h' := Stable.keep h0
  have h1 : SetupData.toVal o.asRead = SetupData.toVal { o with plotSettings := o.plotSettings.map fun p => { p with useAuxOrigin := false } } := rfl
  exact rewrites_of hs (SetupData.from_toVal h) ((SetupData.lexes h' i nl).parse.trans (congrArg Except.ok ((SetupData.toVal_canon o.asRead).trans h1)))
example := C61_SetupData sampleSetupData sampleSetupData_wf

theorem C61_Segment [TextRule] (o : Segment) (h : o.WF) (s : Str) (hs : TextOf o.toVal s) (i : Nat) (nl : Bool) :
    Keeps s Segment.fromSexpr (fun o => .ok (o.toSexpr i nl)) := by
  have h0 : Segment.WF o := h
  have h' := Stable.keep h0
  exact keeps_of hs (Segment.from_toVal h) ((Lexes.one fun _ _ hs => Segment.lx h' hs).parse.trans (congrArg Except.ok (Segment.toVal_canon o)))
example := C61_Segment sampleSegment sampleSegment_wf

theorem C61_Via [TextRule] (o : Via) (h : o.WF) (s : Str) (hs : TextOf o.toVal s) (i : Nat) (nl : Bool) :
    Keeps s Via.fromSexpr (fun o => .ok (o.toSexpr i nl)) := by
  have h0 : Via.WF o := h
  have h' := Stable.keep h0
  exact keeps_of hs (Via.from_toVal h) ((Lexes.one fun _ _ hs => Via.lx h' hs).parse.trans (congrArg Except.ok (Via.toVal_canon o)))
example := C61_Via sampleVia sampleVia_wf

theorem C61_TraceArc [TextRule] (o : TraceArc) (h : o.WF) (s : Str) (hs : TextOf o.toVal s) (i : Nat) (nl : Bool) :
    Keeps s TraceArc.fromSexpr (fun o => .ok (o.toSexpr i nl)) := by
  have h0 : TraceArc.WF o := h
  have h' := Stable.keep h0
  exact keeps_of hs (TraceArc.from_toVal h) ((Lexes.one fun _ _ hs => TraceArc.lx h' hs).parse.trans (congrArg Except.ok (TraceArc.toVal_canon o)))
example := C61_TraceArc sampleTraceArc sampleTraceArc_wf

theorem C61_Target [TextRule] (o : Target) (h : o.WF) (s : Str) (hs : TextOf o.toVal s) (i : Nat) (nl : Bool) :
    Keeps s Target.fromSexpr (fun o => .ok (o.toSexpr i nl)) := by
  have h0 : Target.WF o := h
  have h' := Stable.keep h0
  exact keeps_of hs (Target.from_toVal h) ((Lexes.one fun _ _ hs => Target.lx h' hs).parse.trans (congrArg Except.ok (Target.toVal_canon o)))
example := C61_Target sampleTarget sampleTarget_wf

theorem C61_DimensionFormat [TextRule] (o : DimensionFormat) (h : o.WF) (s : Str) (hs : TextOf o.toVal s) (i : Nat) (nl : Bool) :
    Keeps s DimensionFormat.fromSexpr (fun o => .ok (o.toSexpr i nl)) := by
  have h0 : DimensionFormat.WF o := h
  have h' := Stable.keep h0
  exact keeps_of hs (DimensionFormat.from_toVal h) ((Lexes.one fun _ _ hs => DimensionFormat.lx h' hs).parse.trans (congrArg Except.ok (DimensionFormat.toVal_canon o)))
example := C61_DimensionFormat sampleDimensionFormat sampleDimensionFormat_wf

theorem C61_DimensionStyle [TextRule] (o : DimensionStyle) (h : o.WF) (s : Str) (hs : TextOf o.toVal s) (i : Nat) (nl : Bool) :
    Keeps s DimensionStyle.fromSexpr (fun o => .ok (o.toSexpr i nl)) := by
  have h0 : DimensionStyle.WF o := h
  have h' := Stable.keep h0
  exact keeps_of hs (DimensionStyle.from_toVal h) ((Lexes.one fun _ _ hs => DimensionStyle.lx h' hs).parse.trans (congrArg Except.ok (DimensionStyle.toVal_canon o)))
example := C61_DimensionStyle sampleDimensionStyle sampleDimensionStyle_wf

theorem C61_Dimension [TextRule] (o : Dimension) (h : o.WF) (s : Str) (hs : TextOf o.toVal s) (i : Nat) (nl : Bool) :
    Keeps s Dimension.fromSexpr (fun o => o.toSexpr i nl) := by
  have h0 : Dimension.WF o := h
  have h' := Stable.keep h0
  exact keeps_of hs (Dimension.from_toVal h) ((Dimension.lexes h' i nl).parse.trans (congrArg Except.ok (Dimension.toVal_canon o)))
example := C61_Dimension sampleDimension sampleDimension_wf

theorem C61_Board [TextRule] (o : Board) (h : o.WF) (tedit : Val) (s : Str) (hs : TextOf o.toVal s) (i : Nat) (nl : Bool) :
    Rewrites s (Board.fromSexpr tedit) (fun o => o.toSexpr i nl) (Board.toVal { o with setup := { o.setup with plotSettings := o.setup.plotSettings.map fun p => { p with useAuxOrigin := false } } }) := by
  have h0 : Board.WF o.asRead := Board.WF.asRead h
  have h' := Stable.keep h0
  have h1 : Board.toVal o.asRead = Board.toVal { o with setup := { o.setup with plotSettings := o.setup.plotSettings.map fun p => { p with useAuxOrigin := false } } } := (by simp only [Board.asRead, Board.toVal, Board.asRead_footprints]; rfl)
  exact rewrites_of hs (Board.from_toVal h tedit) ((Board.lexes h' i nl).parse.trans (congrArg Except.ok ((Board.toVal_canon o.asRead h0).trans h1)))
example := C61_Board sampleBoard sampleBoard_wf

theorem C61_Line [TextRule] (o : WksShape) (h : o.WF) (s : Str) (hs : TextOf (o.toVal k!"line") s) (i : Nat) (nl : Bool) :
    Keeps s (WksShape.fromSexpr k!"line") (fun o => .ok (o.toSexpr k!"line" i nl)) :=
  keeps_of hs WksShape.from_toVal (by
    rw [(Lexes.one fun _ _ hs => WksShape.lx rfl h.stable hs).parse, WksShape.toVal_canon])
example := C61_Line sampleWksShape sampleWksShape_wf

theorem C61_Rect [TextRule] (o : WksShape) (h : o.WF) (s : Str) (hs : TextOf (o.toVal k!"rect") s) (i : Nat) (nl : Bool) :
    Keeps s (WksShape.fromSexpr k!"rect") (fun o => .ok (o.toSexpr k!"rect" i nl)) :=
  keeps_of hs WksShape.from_toVal (by
    rw [(Lexes.one fun _ _ hs => WksShape.lx rfl h.stable hs).parse, WksShape.toVal_canon])
example := C61_Rect sampleWksShape sampleWksShape_wf

/-- Design rules: the text is a sequence of expressions, which are read in brackets. -/
theorem C61_DesignRules [TextRule] (o : DesignRules) (h : o.WF) (s : Str) (hs : PrintsSeq o.toVals s) (i : Nat) (nl : Bool) :
    ∃ o' t v, DesignRules.parseText s = .ok o' ∧ o'.toSexpr i nl = .ok t ∧ parseSexp ('(' :: (s ++ [')'])) = .ok v ∧
      parseSexp ('(' :: (t ++ [')'])) = .ok v := by
  have hp : parseSexp ('(' :: (s ++ [')'])) = .ok (.list o.toVals) :=
    C06_tree_round_trip _ _ ⟨[], s, fun _ h => absurd h List.not_mem_nil, hs, rfl⟩
  have h' := Stable.keep (show DesignRules.WF { o with filePath := none } from { h with })
  have hd := C48_DesignRules _ h' i nl
  have ht : (canon ({ o with filePath := none } : DesignRules)).toVals = o.toVals := DesignRules.toVals_canon { o with filePath := none }
  rw [ht] at hd
  unfold Denotes at hd
  cases hx : (canon ({ o with filePath := none } : DesignRules)).toSexpr i nl with
  | error e => rw [hx] at hd; cases hd
  | ok t =>
    rw [hx] at hd
    refine ⟨_, t, _, ?_, hx, hp, hd⟩
    rw [DesignRules.parseText, hp]
    exact DesignRules.from_toVals h
example := C61_DesignRules sampleDesignRules sampleDesignRules_wf

end Kiutils
