import Verif.Proofs.Stable
import Verif.Props.RoundTrip
/-!
# Saving is stable after one load (C21)
-/
namespace Kiutils

/-! ## Specification -/

/-- Saving `o` (with `save`) and loading it gives an object that does not change any more when it is saved (with any layout,
`save'`) and loaded. -/
def Settles {α : Type} (save save' : α → PyM Str) (load : Val → PyM α) (o : α) : Prop :=
  ∃ o', (save o >>= parseSexp >>= load) = .ok o' ∧ (save' o' >>= parseSexp >>= load) = .ok o'

/-- Hence the text saved from a loaded object is a fixed point of loading and saving. -/
theorem Settles.text {α : Type} {save save' : α → PyM Str} {load : Val → PyM α} {o : α} (h : Settles save save' load o) :
    ∃ o', (save o >>= parseSexp >>= load) = .ok o' ∧ (save' o' >>= parseSexp >>= load >>= save') = save' o' := by
  obtain ⟨o', h1, h2⟩ := h
  exact ⟨o', h1, by rw [h2]; rfl⟩

/-! ## Lemmas -/

theorem Lexes.loads [TextRule] {α : Type} {m : PyM Str} {v : Val} (h : Lexes m [v]) {load : Val → PyM α}
    {e : α} (hl : load v = .ok e) : (m >>= parseSexp >>= load) = .ok e := by
  rw [h.parse]
  exact hl

theorem Justify.isEmpty_canon {o : Justify} (h : o.isEmpty = false) : (canon o).isEmpty = false := by
  obtain ⟨x, y, m⟩ := o
  revert h
  cases x <;> cases y <;> cases m <;> exact id

theorem Attributes.isDefault_canon {o : Attributes} (h : o.isDefault = false) : (canon o).isDefault = false := by
  obtain ⟨x, a, b, c, d⟩ := o
  revert h
  cases x <;> cases a <;> cases b <;> cases c <;> cases d <;> exact id

theorem Junction.WF.asRead [TextRule] {o : Junction} (h : o.WF) : o.asRead.WF := { h with diameter := ok_int (by decide) }
theorem Junction.asRead_idem (o : Junction) : canon (canon o.asRead).asRead = canon o.asRead := idem o.asRead

theorem PlotSettings.WF.asRead [TextRule] {o : PlotSettings} (h : o.WF) : o.asRead.WF := { h with }
theorem PlotSettings.asRead_idem (o : PlotSettings) : canon (canon o.asRead).asRead = canon o.asRead := idem o.asRead

theorem SetupData.WF.asRead [TextRule] {o : SetupData} (h : o.WF) : o.asRead.WF := { h with
  plotSettings := fun v hv => by
    obtain ⟨p, hp, rfl⟩ := Option.map_eq_some_iff.1 hv
    exact (h.plotSettings p hp).asRead }
theorem SetupData.asRead_fix (o : SetupData) : (canon o.asRead).asRead = canon o.asRead := by
  obtain ⟨⟩ := o
  rename_i p
  cases p <;> rfl
theorem SetupData.asRead_idem (o : SetupData) : canon (canon o.asRead).asRead = canon o.asRead := by
  rw [SetupData.asRead_fix]; exact idem o.asRead

theorem HierarchicalSheet.WF.asRead [TextRule] {o : HierarchicalSheet} (h : o.WF) (hf : FixOk 4 o.fill.A) : o.asRead.WF := { h with
  fill := { h.fill with A := .inr ⟨4, rfl, hf⟩ } }
theorem HierarchicalSheet.asRead_idem (o : HierarchicalSheet) : canon (canon o.asRead).asRead = canon o.asRead := idem o.asRead

theorem map_congr_self {α : Type} {f : α → α} {l : List α} (h : ∀ a ∈ l, f a = a) : l.map f = l := by
  rw [List.map_congr_left h, List.map_id']

theorem Schematic.WF.asRead [TextRule] {o : Schematic} (h : o.WF) (hf : ∀ v ∈ o.sheets, FixOk 4 v.fill.A) : o.asRead.WF := { h with
  junctions := fun v hv => by
    obtain ⟨p, hp, rfl⟩ := List.mem_map.1 hv
    exact (h.junctions p hp).asRead
  sheets := fun v hv => by
    obtain ⟨p, hp, rfl⟩ := List.mem_map.1 hv
    exact (h.sheets p hp).asRead (hf p hp) }
theorem Schematic.asRead_idem (o : Schematic) : canon (canon o.asRead).asRead = canon o.asRead := by
  refine Eq.trans (congrArg canon ?_) (idem o.asRead)
  have h1 : (canon o.asRead).junctions.map Junction.asRead = (canon o.asRead).junctions := map_congr_self fun v hv => by
    obtain ⟨a, ha, rfl⟩ := Stable.mem_inv (x := o.asRead.junctions) hv
    obtain ⟨b, _, rfl⟩ := List.mem_map.1 ha
    rfl
  have h2 : (canon o.asRead).sheets.map HierarchicalSheet.asRead = (canon o.asRead).sheets := map_congr_self fun v hv => by
    obtain ⟨a, ha, rfl⟩ := Stable.mem_inv (x := o.asRead.sheets) hv
    obtain ⟨b, _, rfl⟩ := List.mem_map.1 ha
    rfl
  show Schematic.asRead (canon o.asRead) = _
  unfold Schematic.asRead
  unfold Schematic.asRead at h1 h2
  rw [h1, h2]
  rfl

theorem Board.WF.asRead [TextRule] {o : Board} (h : o.WF) : o.asRead.WF := { h with
  setup := h.setup.asRead
  footprints := fun v hv => by
    obtain ⟨p, hp, rfl⟩ := List.mem_map.1 hv
    exact { h.footprints p hp with } }
theorem Board.asRead_idem (o : Board) : canon (canon o.asRead).asRead = canon o.asRead := by
  refine Eq.trans (congrArg canon ?_) (idem o.asRead)
  have h0 : (canon o.asRead).setup.asRead = (canon o.asRead).setup := SetupData.asRead_fix o.setup
  have h1 : (canon o.asRead).footprints.map (fun f => { f with filePath := none }) = (canon o.asRead).footprints :=
    map_congr_self fun v hv => by
      obtain ⟨a, ha, rfl⟩ := Stable.mem_inv (x := o.asRead.footprints) hv
      obtain ⟨b, _, rfl⟩ := List.mem_map.1 ha
      rfl
  show Board.asRead (canon o.asRead) = _
  unfold Board.asRead
  unfold Board.asRead at h0 h1
  rw [h0, h1]
  rfl

/-! ## Classes whose text is special -/

theorem C21_Position [TextRule] (o : Position) (h : o.WF) (k k' : Str) (hk : isKeyword k = true) (hu : (k == k!"unlocked") = false)
    (hk' : isKeyword k' = true) (hu' : (k' == k!"unlocked") = false) :
    Settles (fun o => .ok ('(' :: (k ++ ' ' :: (o.X.pyStr ++ ' ' :: (o.Y.pyStr ++ ((optS o.angle fun a => ' ' :: a.pyStr) ++ [')']))))))
      (fun o => .ok ('(' :: (k' ++ ' ' :: (o.X.pyStr ++ ' ' :: (o.Y.pyStr ++ ((optS o.angle fun a => ' ' :: a.pyStr) ++ [')']))))))
      Position.fromSexpr o :=
  ⟨_, (Lexes.one fun _ _ hs => by simpa [kw] using Position.lx h hk hs).loads (Position.from_toVal h hu),
    (Lexes.one fun _ _ hs => by simpa [kw] using Position.lx h.stable hk' hs).loads
      ((Position.from_toVal h.stable hu').trans (congrArg Except.ok (idem o)))⟩
example := C21_Position samplePosition samplePosition_wf k!"at" k!"start" rfl rfl rfl rfl

/-- Design rules: the text is a sequence of expressions, which `from_file` wraps in brackets. -/
theorem C21_DesignRules [TextRule] (o : DesignRules) (h : o.WF) (i i' : Nat) (nl nl' : Bool) :
    ∃ o', (o.toSexpr i nl >>= DesignRules.parseText) = .ok o' ∧ (o'.toSexpr i' nl' >>= DesignRules.parseText) = .ok o' := by
  have h' : (canon ({ o with filePath := none } : DesignRules)).WF :=
    Stable.keep (show DesignRules.WF { o with filePath := none } from { h with })
  exact ⟨_, DesignRules.parse h i nl, (DesignRules.parse h' i' nl').trans (congrArg Except.ok (idem ({ o with filePath := none } : DesignRules)))⟩
example := C21_DesignRules sampleDesignRules sampleDesignRules_wf

theorem C21_Line [TextRule] (o : WksShape) (h : o.WF) (i i' : Nat) (nl nl' : Bool) :
    Settles (fun o => .ok (o.toSexpr k!"line" i nl)) (fun o => .ok (o.toSexpr k!"line" i' nl')) (WksShape.fromSexpr k!"line") o :=
  ⟨_, (Lexes.one fun _ _ hs => WksShape.lx rfl h hs).loads WksShape.from_toVal,
    (Lexes.one fun _ _ hs => WksShape.lx rfl h.stable hs).loads (WksShape.from_toVal.trans (congrArg Except.ok (idem o)))⟩
example := C21_Line sampleWksShape sampleWksShape_wf

theorem C21_Rect [TextRule] (o : WksShape) (h : o.WF) (i i' : Nat) (nl nl' : Bool) :
    Settles (fun o => .ok (o.toSexpr k!"rect" i nl)) (fun o => .ok (o.toSexpr k!"rect" i' nl')) (WksShape.fromSexpr k!"rect") o :=
  ⟨_, (Lexes.one fun _ _ hs => WksShape.lx rfl h hs).loads WksShape.from_toVal,
    (Lexes.one fun _ _ hs => WksShape.lx rfl h.stable hs).loads (WksShape.from_toVal.trans (congrArg Except.ok (idem o)))⟩
example := C21_Rect sampleWksShape sampleWksShape_wf

/-! ## The classes with a text of their own -/

theorem C21_Coordinate [TextRule] (o : Coordinate) (h : o.WF) (i : Nat) (nl : Bool) (i' : Nat) (nl' : Bool) :
    Settles (fun o : Coordinate => .ok (o.toSexpr i nl)) (fun o => .ok (o.toSexpr i' nl')) Coordinate.fromSexpr o := by
  have h' : (canon o).WF := Stable.keep (h)
  exact ⟨canon o, (Lexes.one fun _ _ hs => Coordinate.lx h hs).loads Coordinate.from_toVal,
    (Lexes.one fun _ _ hs => Coordinate.lx h' hs).loads (Coordinate.from_toVal.trans (congrArg Except.ok (idem o)))⟩
example := C21_Coordinate sampleCoordinate sampleCoordinate_wf

theorem C21_ColorRGBA [TextRule] (o : ColorRGBA) (h : o.WF) (i : Nat) (nl : Bool) (i' : Nat) (nl' : Bool) :
    Settles (fun o : ColorRGBA => .ok (o.toSexpr i nl)) (fun o => .ok (o.toSexpr i' nl')) ColorRGBA.fromSexpr o := by
  have h' : (canon o).WF := Stable.keep (h)
  exact ⟨canon o, (Lexes.one fun _ _ hs => ColorRGBA.lx h hs).loads (ColorRGBA.from_toVal h),
    (Lexes.one fun _ _ hs => ColorRGBA.lx h' hs).loads ((ColorRGBA.from_toVal h').trans (congrArg Except.ok (idem o)))⟩
example := C21_ColorRGBA sampleColorRGBA sampleColorRGBA_wf

theorem C21_Stroke [TextRule] (o : Stroke) (h : o.WF) (i : Nat) (nl : Bool) (i' : Nat) (nl' : Bool) :
    Settles (fun o : Stroke => .ok (o.toSexpr i nl)) (fun o => .ok (o.toSexpr i' nl')) Stroke.fromSexpr o := by
  have h' : (canon o).WF := Stable.keep (h)
  exact ⟨canon o, (Lexes.one fun _ _ hs => Stroke.lx h hs).loads (Stroke.from_toVal h),
    (Lexes.one fun _ _ hs => Stroke.lx h' hs).loads ((Stroke.from_toVal h').trans (congrArg Except.ok (idem o)))⟩
example := C21_Stroke sampleStroke sampleStroke_wf

theorem C21_Font [TextRule] (o : Font) (h : o.WF) (i : Nat) (nl : Bool) (i' : Nat) (nl' : Bool) :
    Settles (fun o : Font => .ok (o.toSexpr i nl)) (fun o => .ok (o.toSexpr i' nl')) Font.fromSexpr o := by
  have h' : (canon o).WF := Stable.keep (h)
  exact ⟨canon o, (Lexes.one fun _ _ hs => Font.lx h hs).loads (Font.from_toVal h),
    (Lexes.one fun _ _ hs => Font.lx h' hs).loads ((Font.from_toVal h').trans (congrArg Except.ok (idem o)))⟩
example := C21_Font sampleFont sampleFont_wf

theorem C21_Justify [TextRule] (o : Justify) (h : o.WF) (he : o.isEmpty = false) (i : Nat) (nl : Bool) (i' : Nat) (nl' : Bool) :
    Settles (fun o : Justify => .ok (o.toSexpr i nl)) (fun o => .ok (o.toSexpr i' nl')) Justify.fromSexpr o := by
  have h' : (canon o).WF := Stable.keep (h)
  have he' : (canon o).isEmpty = false := Justify.isEmpty_canon he
  exact ⟨canon o, (Lexes.one fun _ _ hs => Justify.lx h he hs).loads (Justify.from_toVal h),
    (Lexes.one fun _ _ hs => Justify.lx h' he' hs).loads ((Justify.from_toVal h').trans (congrArg Except.ok (idem o)))⟩
example := C21_Justify sampleJustify sampleJustify_wf rfl

theorem C21_Effects [TextRule] (o : Effects) (h : o.WF) (i : Nat) (nl : Bool) (i' : Nat) (nl' : Bool) :
    Settles (fun o : Effects => .ok (o.toSexpr i nl)) (fun o => .ok (o.toSexpr i' nl')) Effects.fromSexpr o := by
  have h' : (canon o).WF := Stable.keep (h)
  exact ⟨canon o, (Lexes.one fun _ _ hs => Effects.lx h hs).loads (Effects.from_toVal h),
    (Lexes.one fun _ _ hs => Effects.lx h' hs).loads ((Effects.from_toVal h').trans (congrArg Except.ok (idem o)))⟩
example := C21_Effects sampleEffects sampleEffects_wf

theorem C21_Net [TextRule] (o : Net) (h : o.WF) (i : Nat) (nl : Bool) (i' : Nat) (nl' : Bool) :
    Settles (fun o : Net => .ok (o.toSexpr i nl)) (fun o => .ok (o.toSexpr i' nl')) Net.fromSexpr o := by
  have h' : (canon o).WF := Stable.keep (h)
  exact ⟨canon o, (Lexes.one fun _ _ hs => Net.lx h hs).loads Net.from_toVal,
    (Lexes.one fun _ _ hs => Net.lx h' hs).loads (Net.from_toVal.trans (congrArg Except.ok (idem o)))⟩
example := C21_Net sampleNet sampleNet_wf

theorem C21_Group [TextRule] (o : Group) (h : o.WF) (i : Nat) (nl : Bool) (i' : Nat) (nl' : Bool) :
    Settles (fun o : Group => .ok (o.toSexpr i nl)) (fun o => .ok (o.toSexpr i' nl')) Group.fromSexpr o := by
  have h' : (canon o).WF := Stable.keep (h)
  exact ⟨canon o, (Lexes.one fun _ _ hs => Group.lx h hs).loads (Group.from_toVal h),
    (Lexes.one fun _ _ hs => Group.lx h' hs).loads ((Group.from_toVal h').trans (congrArg Except.ok (idem o)))⟩
example := C21_Group sampleGroup sampleGroup_wf

theorem C21_PageSettings [TextRule] (o : PageSettings) (h : o.WF) (i : Nat) (nl : Bool) (i' : Nat) (nl' : Bool) :
    Settles (fun o : PageSettings => o.toSexpr i nl) (fun o => o.toSexpr i' nl') PageSettings.fromSexpr o := by
  have h' : (canon o).WF := Stable.keep (h)
  exact ⟨canon o, (PageSettings.lx h i nl).loads (PageSettings.from_toVal h),
    (PageSettings.lx h' i' nl').loads ((PageSettings.from_toVal h').trans (congrArg Except.ok (idem o)))⟩
example := C21_PageSettings samplePageSettings samplePageSettings_wf

theorem C21_TitleBlock [TextRule] (o : TitleBlock) (h : o.WF) (i : Nat) (nl : Bool) (i' : Nat) (nl' : Bool) :
    Settles (fun o : TitleBlock => .ok (o.toSexpr i nl)) (fun o => .ok (o.toSexpr i' nl')) TitleBlock.fromSexpr o := by
  have h' : (canon o).WF := Stable.keep (h)
  exact ⟨canon o, (Lexes.one fun _ _ hs => TitleBlock.lx h hs).loads (TitleBlock.from_toVal h),
    (Lexes.one fun _ _ hs => TitleBlock.lx h' hs).loads ((TitleBlock.from_toVal h').trans (congrArg Except.ok (idem o)))⟩
example := C21_TitleBlock sampleTitleBlock sampleTitleBlock_wf

theorem C21_Property [TextRule] (o : Property) (h : o.WF) (i : Nat) (nl : Bool) (i' : Nat) (nl' : Bool) :
    Settles (fun o : Property => .ok (o.toSexpr i nl)) (fun o => .ok (o.toSexpr i' nl')) Property.fromSexpr o := by
  have h' : (canon o).WF := Stable.keep (h)
  exact ⟨canon o, (Lexes.one fun _ _ hs => Property.lx h hs).loads (Property.from_toVal h),
    (Lexes.one fun _ _ hs => Property.lx h' hs).loads ((Property.from_toVal h').trans (congrArg Except.ok (idem o)))⟩
example := C21_Property sampleProperty sampleProperty_wf

theorem C21_RenderCachePolygon [TextRule] (o : RenderCachePolygon) (h : o.WF) (i : Nat) (nl : Bool) (i' : Nat) (nl' : Bool) :
    Settles (fun o : RenderCachePolygon => .ok (o.toSexpr i nl)) (fun o => .ok (o.toSexpr i' nl')) RenderCachePolygon.fromSexpr o := by
  have h' : (canon o).WF := Stable.keep (h)
  exact ⟨canon o, (Lexes.one fun _ _ hs => RenderCachePolygon.lx h hs).loads (RenderCachePolygon.from_toVal h),
    (Lexes.one fun _ _ hs => RenderCachePolygon.lx h' hs).loads ((RenderCachePolygon.from_toVal h').trans (congrArg Except.ok (idem o)))⟩
example := C21_RenderCachePolygon sampleRenderCachePolygon sampleRenderCachePolygon_wf

theorem C21_RenderCache [TextRule] (o : RenderCache) (h : o.WF) (i : Nat) (nl : Bool) (i' : Nat) (nl' : Bool) :
    Settles (fun o : RenderCache => .ok (o.toSexpr i nl)) (fun o => .ok (o.toSexpr i' nl')) RenderCache.fromSexpr o := by
  have h' : (canon o).WF := Stable.keep (h)
  exact ⟨canon o, (Lexes.one fun _ _ hs => RenderCache.lx h hs).loads (RenderCache.from_toVal h),
    (Lexes.one fun _ _ hs => RenderCache.lx h' hs).loads ((RenderCache.from_toVal h').trans (congrArg Except.ok (idem o)))⟩
example := C21_RenderCache sampleRenderCache sampleRenderCache_wf

theorem C21_Fill [TextRule] (o : Fill) (h : o.WF) (i : Nat) (nl : Bool) (i' : Nat) (nl' : Bool) :
    Settles (fun o : Fill => .ok (o.toSexpr i nl)) (fun o => .ok (o.toSexpr i' nl')) Fill.fromSexpr o := by
  have h' : (canon o).WF := Stable.keep (h)
  exact ⟨canon o, (Lexes.one fun _ _ hs => Fill.lx h hs).loads (Fill.from_toVal h),
    (Lexes.one fun _ _ hs => Fill.lx h' hs).loads ((Fill.from_toVal h').trans (congrArg Except.ok (idem o)))⟩
example := C21_Fill sampleFill sampleFill_wf

theorem C21_Image [TextRule] (o : Image) (h : o.WF) (i : Nat) (nl : Bool) (i' : Nat) (nl' : Bool) :
    Settles (fun o : Image => .ok (o.toSexpr i nl)) (fun o => .ok (o.toSexpr i' nl')) Image.fromSexpr o := by
  have h' : (canon o).WF := Stable.keep (h)
  exact ⟨canon o, (Lexes.one fun _ _ hs => Image.lx h hs).loads (Image.from_toVal h),
    (Lexes.one fun _ _ hs => Image.lx h' hs).loads ((Image.from_toVal h').trans (congrArg Except.ok (idem o)))⟩
example := C21_Image sampleImage sampleImage_wf

theorem C21_Library [TextRule] (o : Library) (h : o.WF) (i : Nat) (nl : Bool) (i' : Nat) (nl' : Bool) :
    Settles (fun o : Library => .ok (o.toSexpr i nl)) (fun o => .ok (o.toSexpr i' nl')) Library.fromSexpr o := by
  have h' : (canon o).WF := Stable.keep (h)
  exact ⟨canon o, (Lexes.one fun _ _ hs => Library.lx h hs).loads (Library.from_toVal h),
    (Lexes.one fun _ _ hs => Library.lx h' hs).loads ((Library.from_toVal h').trans (congrArg Except.ok (idem o)))⟩
example := C21_Library sampleLibrary sampleLibrary_wf

theorem C21_LibTable [TextRule] (o : LibTable) (h : o.WF) (i : Nat) (nl : Bool) (i' : Nat) (nl' : Bool) :
    Settles (fun o : LibTable => .ok (o.toSexpr i nl)) (fun o => .ok (o.toSexpr i' nl')) LibTable.fromSexpr o := by
  have h' : (canon { o with filePath := none }).WF := Stable.keep ((show LibTable.WF { o with filePath := none } from { h with }))
  exact ⟨canon { o with filePath := none }, (Lexes.one fun _ _ hs => LibTable.lx h hs).loads (LibTable.from_toVal h),
    (Lexes.one fun _ _ hs => LibTable.lx h' hs).loads ((LibTable.from_toVal h').trans (congrArg Except.ok (show canon { canon ({ o with filePath := none } : LibTable) with filePath := none } = _ from idem { o with filePath := none })))⟩
example := C21_LibTable sampleLibTable sampleLibTable_wf

theorem C21_Constraint [TextRule] (o : Constraint) (h : o.WF) (i : Nat) (nl : Bool) (i' : Nat) (nl' : Bool) :
    Settles (fun o : Constraint => o.toSexpr i nl) (fun o => o.toSexpr i' nl') Constraint.fromSexpr o := by
  have h' : (canon o).WF := Stable.keep (h)
  exact ⟨canon o, (Constraint.lx h i nl).loads (Constraint.from_toVal h),
    (Constraint.lx h' i' nl').loads ((Constraint.from_toVal h').trans (congrArg Except.ok (idem o)))⟩
example := C21_Constraint sampleConstraint sampleConstraint_wf

theorem C21_Rule [TextRule] (o : Rule) (h : o.WF) (i : Nat) (i' : Nat) :
    Settles (fun o : Rule => o.toSexpr i) (fun o => o.toSexpr i') Rule.fromSexpr o := by
  have h' : (canon o).WF := Stable.keep (h)
  exact ⟨canon o, (Rule.lx h i).loads (Rule.from_toVal h),
    (Rule.lx h' i').loads ((Rule.from_toVal h').trans (congrArg Except.ok (idem o)))⟩
example := C21_Rule sampleRule sampleRule_wf

theorem C21_WksFontSize [TextRule] (o : WksFontSize) (h : o.WF) (i : Nat) (nl : Bool) (i' : Nat) (nl' : Bool) :
    Settles (fun o : WksFontSize => .ok (o.toSexpr i nl)) (fun o => .ok (o.toSexpr i' nl')) WksFontSize.fromSexpr o := by
  have h' : (canon o).WF := Stable.keep (h)
  exact ⟨canon o, (Lexes.one fun _ _ hs => WksFontSize.lx h hs).loads WksFontSize.from_toVal,
    (Lexes.one fun _ _ hs => WksFontSize.lx h' hs).loads (WksFontSize.from_toVal.trans (congrArg Except.ok (idem o)))⟩
example := C21_WksFontSize sampleWksFontSize sampleWksFontSize_wf

theorem C21_Bitmap [TextRule] (o : Bitmap) (h : o.WF) (i : Nat) (nl : Bool) (i' : Nat) (nl' : Bool) :
    Settles (fun o : Bitmap => .ok (o.toSexpr i nl)) (fun o => .ok (o.toSexpr i' nl')) Bitmap.fromSexpr o := by
  have h' : (canon o).WF := Stable.keep (h)
  exact ⟨canon o, (Lexes.one fun _ _ hs => Bitmap.lx h hs).loads (Bitmap.from_toVal h),
    (Lexes.one fun _ _ hs => Bitmap.lx h' hs).loads ((Bitmap.from_toVal h').trans (congrArg Except.ok (idem o)))⟩
example := C21_Bitmap sampleBitmap sampleBitmap_wf

theorem C21_TbText [TextRule] (o : TbText) (h : o.WF) (i : Nat) (nl : Bool) (i' : Nat) (nl' : Bool) :
    Settles (fun o : TbText => .ok (o.toSexpr i nl)) (fun o => .ok (o.toSexpr i' nl')) TbText.fromSexpr o := by
  have h' : (canon o).WF := Stable.keep (h)
  exact ⟨canon o, (Lexes.one fun _ _ hs => TbText.lx h hs).loads (TbText.from_toVal h),
    (Lexes.one fun _ _ hs => TbText.lx h' hs).loads ((TbText.from_toVal h').trans (congrArg Except.ok (idem o)))⟩
example := C21_TbText sampleTbText sampleTbText_wf

theorem C21_TextSize [TextRule] (o : TextSize) (h : o.WF) (i : Nat) (nl : Bool) (i' : Nat) (nl' : Bool) :
    Settles (fun o : TextSize => .ok (o.toSexpr i nl)) (fun o => .ok (o.toSexpr i' nl')) TextSize.fromSexpr o := by
  have h' : (canon o).WF := Stable.keep (h)
  exact ⟨canon o, (Lexes.one fun _ _ hs => TextSize.lx h hs).loads TextSize.from_toVal,
    (Lexes.one fun _ _ hs => TextSize.lx h' hs).loads (TextSize.from_toVal.trans (congrArg Except.ok (idem o)))⟩
example := C21_TextSize sampleTextSize sampleTextSize_wf

theorem C21_Setup [TextRule] (o : Setup) (h : o.WF) (i : Nat) (nl : Bool) (i' : Nat) (nl' : Bool) :
    Settles (fun o : Setup => .ok (o.toSexpr i nl)) (fun o => .ok (o.toSexpr i' nl')) Setup.fromSexpr o := by
  have h' : (canon o).WF := Stable.keep (h)
  exact ⟨canon o, (Lexes.one fun _ _ hs => Setup.lx h hs).loads Setup.from_toVal,
    (Lexes.one fun _ _ hs => Setup.lx h' hs).loads (Setup.from_toVal.trans (congrArg Except.ok (idem o)))⟩
example := C21_Setup sampleSetup sampleSetup_wf

theorem C21_WorkSheet [TextRule] (o : WorkSheet) (h : o.WF) (i : Nat) (nl : Bool) (i' : Nat) (nl' : Bool) :
    Settles (fun o : WorkSheet => o.toSexpr i nl) (fun o => o.toSexpr i' nl') WorkSheet.fromSexpr o := by
  have h' : (canon { o with filePath := none }).WF := Stable.keep ((show WorkSheet.WF { o with filePath := none } from { h with }))
  exact ⟨canon { o with filePath := none }, (WorkSheet.lx h i nl).loads (WorkSheet.from_toVal h),
    (WorkSheet.lx h' i' nl').loads ((WorkSheet.from_toVal h').trans (congrArg Except.ok (show canon { canon ({ o with filePath := none } : WorkSheet) with filePath := none } = _ from idem { o with filePath := none })))⟩
example := C21_WorkSheet sampleWorkSheet sampleWorkSheet_wf

theorem C21_SyArc [TextRule] (o : SyArc) (h : o.WF) (i : Nat) (nl : Bool) (i' : Nat) (nl' : Bool) :
    Settles (fun o : SyArc => .ok (o.toSexpr i nl)) (fun o => .ok (o.toSexpr i' nl')) SyArc.fromSexpr o := by
  have h' : (canon o).WF := Stable.keep (h)
  exact ⟨canon o, (Lexes.one fun _ _ hs => SyArc.lx h hs).loads (SyArc.from_toVal h),
    (Lexes.one fun _ _ hs => SyArc.lx h' hs).loads ((SyArc.from_toVal h').trans (congrArg Except.ok (idem o)))⟩
example := C21_SyArc sampleSyArc sampleSyArc_wf

theorem C21_SyCircle [TextRule] (o : SyCircle) (h : o.WF) (i : Nat) (nl : Bool) (i' : Nat) (nl' : Bool) :
    Settles (fun o : SyCircle => .ok (o.toSexpr i nl)) (fun o => .ok (o.toSexpr i' nl')) SyCircle.fromSexpr o := by
  have h' : (canon o).WF := Stable.keep (h)
  exact ⟨canon o, (Lexes.one fun _ _ hs => SyCircle.lx h hs).loads (SyCircle.from_toVal h),
    (Lexes.one fun _ _ hs => SyCircle.lx h' hs).loads ((SyCircle.from_toVal h').trans (congrArg Except.ok (idem o)))⟩
example := C21_SyCircle sampleSyCircle sampleSyCircle_wf

theorem C21_SyPolyLine [TextRule] (o : SyPolyLine) (h : o.WF) (i : Nat) (nl : Bool) (i' : Nat) (nl' : Bool) :
    Settles (fun o : SyPolyLine => .ok (o.toSexpr i nl)) (fun o => .ok (o.toSexpr i' nl')) SyPolyLine.fromSexpr o := by
  have h' : (canon o).WF := Stable.keep (h)
  exact ⟨canon o, (Lexes.one fun _ _ hs => SyPolyLine.lx h hs).loads (SyPolyLine.from_toVal h),
    (Lexes.one fun _ _ hs => SyPolyLine.lx h' hs).loads ((SyPolyLine.from_toVal h').trans (congrArg Except.ok (idem o)))⟩
example := C21_SyPolyLine sampleSyPolyLine sampleSyPolyLine_wf

theorem C21_SyRect [TextRule] (o : SyRect) (h : o.WF) (i : Nat) (nl : Bool) (i' : Nat) (nl' : Bool) :
    Settles (fun o : SyRect => .ok (o.toSexpr i nl)) (fun o => .ok (o.toSexpr i' nl')) SyRect.fromSexpr o := by
  have h' : (canon o).WF := Stable.keep (h)
  exact ⟨canon o, (Lexes.one fun _ _ hs => SyRect.lx h hs).loads (SyRect.from_toVal h),
    (Lexes.one fun _ _ hs => SyRect.lx h' hs).loads ((SyRect.from_toVal h').trans (congrArg Except.ok (idem o)))⟩
example := C21_SyRect sampleSyRect sampleSyRect_wf

theorem C21_SyText [TextRule] (o : SyText) (h : o.WF) (i : Nat) (nl : Bool) (i' : Nat) (nl' : Bool) :
    Settles (fun o : SyText => .ok (o.toSexpr i nl)) (fun o => .ok (o.toSexpr i' nl')) SyText.fromSexpr o := by
  have h' : (canon o).WF := Stable.keep (h)
  exact ⟨canon o, (Lexes.one fun _ _ hs => SyText.lx h hs).loads (SyText.from_toVal h),
    (Lexes.one fun _ _ hs => SyText.lx h' hs).loads ((SyText.from_toVal h').trans (congrArg Except.ok (idem o)))⟩
example := C21_SyText sampleSyText sampleSyText_wf

theorem C21_SyTextBox [TextRule] (o : SyTextBox) (h : o.WF) (i : Nat) (nl : Bool) (i' : Nat) (nl' : Bool) :
    Settles (fun o : SyTextBox => .ok (o.toSexpr i nl)) (fun o => .ok (o.toSexpr i' nl')) SyTextBox.fromSexpr o := by
  have h' : (canon o).WF := Stable.keep (h)
  exact ⟨canon o, (Lexes.one fun _ _ hs => SyTextBox.lx h hs).loads (SyTextBox.from_toVal h),
    (Lexes.one fun _ _ hs => SyTextBox.lx h' hs).loads ((SyTextBox.from_toVal h').trans (congrArg Except.ok (idem o)))⟩
example := C21_SyTextBox sampleSyTextBox sampleSyTextBox_wf

theorem C21_SymbolAlternativePin [TextRule] (o : SymbolAlternativePin) (h : o.WF) (i : Nat) (nl : Bool) (i' : Nat) (nl' : Bool) :
    Settles (fun o : SymbolAlternativePin => .ok (o.toSexpr i nl)) (fun o => .ok (o.toSexpr i' nl')) SymbolAlternativePin.fromSexpr o := by
  have h' : (canon o).WF := Stable.keep (h)
  exact ⟨canon o, (Lexes.one fun _ _ hs => SymbolAlternativePin.lx h hs).loads SymbolAlternativePin.from_toVal,
    (Lexes.one fun _ _ hs => SymbolAlternativePin.lx h' hs).loads (SymbolAlternativePin.from_toVal.trans (congrArg Except.ok (idem o)))⟩
example := C21_SymbolAlternativePin sampleSymbolAlternativePin sampleSymbolAlternativePin_wf

theorem C21_SymbolPin [TextRule] (o : SymbolPin) (h : o.WF) (i : Nat) (nl : Bool) (i' : Nat) (nl' : Bool) :
    Settles (fun o : SymbolPin => .ok (o.toSexpr i nl)) (fun o => .ok (o.toSexpr i' nl')) SymbolPin.fromSexpr o := by
  have h' : (canon o).WF := Stable.keep (h)
  exact ⟨canon o, (Lexes.one fun _ _ hs => SymbolPin.lx h hs).loads (SymbolPin.from_toVal h),
    (Lexes.one fun _ _ hs => SymbolPin.lx h' hs).loads ((SymbolPin.from_toVal h').trans (congrArg Except.ok (idem o)))⟩
example := C21_SymbolPin sampleSymbolPin sampleSymbolPin_wf

theorem C21_Symbol [TextRule] (o : Symbol) (h : o.WF) (i : Nat) (nl : Bool) (i' : Nat) (nl' : Bool) :
    Settles (fun o : Symbol => .ok (o.toSexpr i nl)) (fun o => .ok (o.toSexpr i' nl')) Symbol.fromSexpr o := by
  have h' : (canon o).WF := Stable.keep (h)
  exact ⟨canon o, (Lexes.one fun _ _ hs => Symbol.lx h hs).loads (Symbol.from_toVal h),
    (Lexes.one fun _ _ hs => Symbol.lx h' hs).loads ((Symbol.from_toVal h').trans (congrArg Except.ok (idem o)))⟩
example := C21_Symbol sampleSymbol sampleSymbol_wf

theorem C21_SymbolLib [TextRule] (o : SymbolLib) (h : o.WF) (i : Nat) (nl : Bool) (i' : Nat) (nl' : Bool) :
    Settles (fun o : SymbolLib => .ok (o.toSexpr i nl)) (fun o => .ok (o.toSexpr i' nl')) SymbolLib.fromSexpr o := by
  have h' : (canon { o with filePath := none }).WF := Stable.keep ((show SymbolLib.WF { o with filePath := none } from { h with }))
  exact ⟨canon { o with filePath := none }, (Lexes.one fun _ _ hs => SymbolLib.lx h hs).loads (SymbolLib.from_toVal h),
    (Lexes.one fun _ _ hs => SymbolLib.lx h' hs).loads ((SymbolLib.from_toVal h').trans (congrArg Except.ok (show canon { canon ({ o with filePath := none } : SymbolLib) with filePath := none } = _ from idem { o with filePath := none })))⟩
example := C21_SymbolLib sampleSymbolLib sampleSymbolLib_wf

theorem C21_Junction [TextRule] (o : Junction) (h : o.WF) (i : Nat) (nl : Bool) (i' : Nat) (nl' : Bool) :
    Settles (fun o : Junction => o.toSexpr i nl) (fun o => o.toSexpr i' nl') Junction.fromSexpr o := by
  have h' : (canon o.asRead).WF := Stable.keep (Junction.WF.asRead h)
  exact ⟨canon o.asRead, (Junction.lexes h i nl).loads (Junction.from_toVal h),
    (Junction.lexes h' i' nl').loads ((Junction.from_toVal h').trans (congrArg Except.ok (Junction.asRead_idem o)))⟩
example := C21_Junction sampleJunction sampleJunction_wf

theorem C21_NoConnect [TextRule] (o : NoConnect) (h : o.WF) (i : Nat) (nl : Bool) (i' : Nat) (nl' : Bool) :
    Settles (fun o : NoConnect => .ok (o.toSexpr i nl)) (fun o => .ok (o.toSexpr i' nl')) NoConnect.fromSexpr o := by
  have h' : (canon o).WF := Stable.keep (h)
  exact ⟨canon o, (Lexes.one fun _ _ hs => NoConnect.lx h hs).loads (NoConnect.from_toVal h),
    (Lexes.one fun _ _ hs => NoConnect.lx h' hs).loads ((NoConnect.from_toVal h').trans (congrArg Except.ok (idem o)))⟩
example := C21_NoConnect sampleNoConnect sampleNoConnect_wf

theorem C21_BusEntry [TextRule] (o : BusEntry) (h : o.WF) (i : Nat) (nl : Bool) (i' : Nat) (nl' : Bool) :
    Settles (fun o : BusEntry => .ok (o.toSexpr i nl)) (fun o => .ok (o.toSexpr i' nl')) BusEntry.fromSexpr o := by
  have h' : (canon o).WF := Stable.keep (h)
  exact ⟨canon o, (Lexes.one fun _ _ hs => BusEntry.lx h hs).loads (BusEntry.from_toVal h),
    (Lexes.one fun _ _ hs => BusEntry.lx h' hs).loads ((BusEntry.from_toVal h').trans (congrArg Except.ok (idem o)))⟩
example := C21_BusEntry sampleBusEntry sampleBusEntry_wf

theorem C21_BusAlias [TextRule] (o : BusAlias) (h : o.WF) (i : Nat) (nl : Bool) (i' : Nat) (nl' : Bool) :
    Settles (fun o : BusAlias => .ok (o.toSexpr i nl)) (fun o => .ok (o.toSexpr i' nl')) BusAlias.fromSexpr o := by
  have h' : (canon o).WF := Stable.keep (h)
  exact ⟨canon o, (Lexes.one fun _ _ hs => BusAlias.lx h hs).loads BusAlias.from_toVal,
    (Lexes.one fun _ _ hs => BusAlias.lx h' hs).loads (BusAlias.from_toVal.trans (congrArg Except.ok (idem o)))⟩
example := C21_BusAlias sampleBusAlias sampleBusAlias_wf

theorem C21_Connection [TextRule] (o : Connection) (h : o.WF) (i : Nat) (nl : Bool) (i' : Nat) (nl' : Bool) :
    Settles (fun o : Connection => .ok (o.toSexpr i nl)) (fun o => .ok (o.toSexpr i' nl')) Connection.fromSexpr o := by
  have h' : (canon o).WF := Stable.keep (h)
  exact ⟨canon o, (Lexes.one fun _ _ hs => Connection.lx h hs).loads (Connection.from_toVal h),
    (Lexes.one fun _ _ hs => Connection.lx h' hs).loads ((Connection.from_toVal h').trans (congrArg Except.ok (idem o)))⟩
example := C21_Connection sampleConnection sampleConnection_wf

theorem C21_PolyLine [TextRule] (o : PolyLine) (h : o.WF) (i : Nat) (nl : Bool) (i' : Nat) (nl' : Bool) :
    Settles (fun o : PolyLine => .ok (o.toSexpr i nl)) (fun o => .ok (o.toSexpr i' nl')) PolyLine.fromSexpr o := by
  have h' : (canon o).WF := Stable.keep (h)
  exact ⟨canon o, (Lexes.one fun _ _ hs => PolyLine.lx h hs).loads (PolyLine.from_toVal h),
    (Lexes.one fun _ _ hs => PolyLine.lx h' hs).loads ((PolyLine.from_toVal h').trans (congrArg Except.ok (idem o)))⟩
example := C21_PolyLine samplePolyLine samplePolyLine_wf

theorem C21_Text [TextRule] (o : Text) (h : o.WF) (i : Nat) (nl : Bool) (i' : Nat) (nl' : Bool) :
    Settles (fun o : Text => o.toSexpr i nl) (fun o => o.toSexpr i' nl') Text.fromSexpr o := by
  have h' : (canon o).WF := Stable.keep (h)
  exact ⟨canon o, (Text.lexes h i nl).loads (Text.from_toVal h),
    (Text.lexes h' i' nl').loads ((Text.from_toVal h').trans (congrArg Except.ok (idem o)))⟩
example := C21_Text sampleText sampleText_wf

theorem C21_TextBox [TextRule] (o : TextBox) (h : o.WF) (i : Nat) (nl : Bool) (i' : Nat) (nl' : Bool) :
    Settles (fun o : TextBox => .ok (o.toSexpr i nl)) (fun o => .ok (o.toSexpr i' nl')) TextBox.fromSexpr o := by
  have h' : (canon o).WF := Stable.keep (h)
  exact ⟨canon o, (Lexes.one fun _ _ hs => TextBox.lx h hs).loads (TextBox.from_toVal h),
    (Lexes.one fun _ _ hs => TextBox.lx h' hs).loads ((TextBox.from_toVal h').trans (congrArg Except.ok (idem o)))⟩
example := C21_TextBox sampleTextBox sampleTextBox_wf

theorem C21_LocalLabel [TextRule] (o : LocalLabel) (h : o.WF) (i : Nat) (nl : Bool) (i' : Nat) (nl' : Bool) :
    Settles (fun o : LocalLabel => .ok (o.toSexpr i nl)) (fun o => .ok (o.toSexpr i' nl')) LocalLabel.fromSexpr o := by
  have h' : (canon o).WF := Stable.keep (h)
  exact ⟨canon o, (Lexes.one fun _ _ hs => LocalLabel.lx h hs).loads (LocalLabel.from_toVal h),
    (Lexes.one fun _ _ hs => LocalLabel.lx h' hs).loads ((LocalLabel.from_toVal h').trans (congrArg Except.ok (idem o)))⟩
example := C21_LocalLabel sampleLocalLabel sampleLocalLabel_wf

theorem C21_GlobalLabel [TextRule] (o : GlobalLabel) (h : o.WF) (i : Nat) (nl : Bool) (i' : Nat) (nl' : Bool) :
    Settles (fun o : GlobalLabel => .ok (o.toSexpr i nl)) (fun o => .ok (o.toSexpr i' nl')) GlobalLabel.fromSexpr o := by
  have h' : (canon o).WF := Stable.keep (h)
  exact ⟨canon o, (Lexes.one fun _ _ hs => GlobalLabel.lx h hs).loads (GlobalLabel.from_toVal h),
    (Lexes.one fun _ _ hs => GlobalLabel.lx h' hs).loads ((GlobalLabel.from_toVal h').trans (congrArg Except.ok (idem o)))⟩
example := C21_GlobalLabel sampleGlobalLabel sampleGlobalLabel_wf

theorem C21_HierarchicalLabel [TextRule] (o : HierarchicalLabel) (h : o.WF) (i : Nat) (nl : Bool) (i' : Nat) (nl' : Bool) :
    Settles (fun o : HierarchicalLabel => .ok (o.toSexpr i nl)) (fun o => .ok (o.toSexpr i' nl')) HierarchicalLabel.fromSexpr o := by
  have h' : (canon o).WF := Stable.keep (h)
  exact ⟨canon o, (Lexes.one fun _ _ hs => HierarchicalLabel.lx h hs).loads (HierarchicalLabel.from_toVal h),
    (Lexes.one fun _ _ hs => HierarchicalLabel.lx h' hs).loads ((HierarchicalLabel.from_toVal h').trans (congrArg Except.ok (idem o)))⟩
example := C21_HierarchicalLabel sampleHierarchicalLabel sampleHierarchicalLabel_wf

theorem C21_SymbolProjectPath [TextRule] (o : SymbolProjectPath) (h : o.WF) (i : Nat) (nl : Bool) (i' : Nat) (nl' : Bool) :
    Settles (fun o : SymbolProjectPath => .ok (o.toSexpr i nl)) (fun o => .ok (o.toSexpr i' nl')) SymbolProjectPath.fromSexpr o := by
  have h' : (canon o).WF := Stable.keep (h)
  exact ⟨canon o, (Lexes.one fun _ _ hs => SymbolProjectPath.lx h hs).loads (SymbolProjectPath.from_toVal h),
    (Lexes.one fun _ _ hs => SymbolProjectPath.lx h' hs).loads ((SymbolProjectPath.from_toVal h').trans (congrArg Except.ok (idem o)))⟩
example := C21_SymbolProjectPath sampleSymbolProjectPath sampleSymbolProjectPath_wf

theorem C21_SymbolProjectInstance [TextRule] (o : SymbolProjectInstance) (h : o.WF) (i : Nat) (nl : Bool) (i' : Nat) (nl' : Bool) :
    Settles (fun o : SymbolProjectInstance => .ok (o.toSexpr i nl)) (fun o => .ok (o.toSexpr i' nl')) SymbolProjectInstance.fromSexpr o := by
  have h' : (canon o).WF := Stable.keep (h)
  exact ⟨canon o, (Lexes.one fun _ _ hs => SymbolProjectInstance.lx h hs).loads (SymbolProjectInstance.from_toVal h),
    (Lexes.one fun _ _ hs => SymbolProjectInstance.lx h' hs).loads ((SymbolProjectInstance.from_toVal h').trans (congrArg Except.ok (idem o)))⟩
example := C21_SymbolProjectInstance sampleSymbolProjectInstance sampleSymbolProjectInstance_wf

theorem C21_SchematicSymbol [TextRule] (o : SchematicSymbol) (h : o.WF) (i : Nat) (nl : Bool) (i' : Nat) (nl' : Bool) :
    Settles (fun o : SchematicSymbol => .ok (o.toSexpr i nl)) (fun o => .ok (o.toSexpr i' nl')) SchematicSymbol.fromSexpr o := by
  have h' : (canon o).WF := Stable.keep (h)
  exact ⟨canon o, (Lexes.one fun _ _ hs => SchematicSymbol.lx h hs).loads (SchematicSymbol.from_toVal h),
    (Lexes.one fun _ _ hs => SchematicSymbol.lx h' hs).loads ((SchematicSymbol.from_toVal h').trans (congrArg Except.ok (idem o)))⟩
example := C21_SchematicSymbol sampleSchematicSymbol sampleSchematicSymbol_wf

theorem C21_HierarchicalPin [TextRule] (o : HierarchicalPin) (h : o.WF) (i : Nat) (nl : Bool) (i' : Nat) (nl' : Bool) :
    Settles (fun o : HierarchicalPin => .ok (o.toSexpr i nl)) (fun o => .ok (o.toSexpr i' nl')) HierarchicalPin.fromSexpr o := by
  have h' : (canon o).WF := Stable.keep (h)
  exact ⟨canon o, (Lexes.one fun _ _ hs => HierarchicalPin.lx h hs).loads (HierarchicalPin.from_toVal h),
    (Lexes.one fun _ _ hs => HierarchicalPin.lx h' hs).loads ((HierarchicalPin.from_toVal h').trans (congrArg Except.ok (idem o)))⟩
example := C21_HierarchicalPin sampleHierarchicalPin sampleHierarchicalPin_wf

theorem C21_HierarchicalSheetProjectPath [TextRule] (o : HierarchicalSheetProjectPath) (h : o.WF) (i : Nat) (nl : Bool) (i' : Nat) (nl' : Bool) :
    Settles (fun o : HierarchicalSheetProjectPath => .ok (o.toSexpr i nl)) (fun o => .ok (o.toSexpr i' nl')) HierarchicalSheetProjectPath.fromSexpr o := by
  have h' : (canon o).WF := Stable.keep (h)
  exact ⟨canon o, (Lexes.one fun _ _ hs => HierarchicalSheetProjectPath.lx h hs).loads (HierarchicalSheetProjectPath.from_toVal h),
    (Lexes.one fun _ _ hs => HierarchicalSheetProjectPath.lx h' hs).loads ((HierarchicalSheetProjectPath.from_toVal h').trans (congrArg Except.ok (idem o)))⟩
example := C21_HierarchicalSheetProjectPath sampleHierarchicalSheetProjectPath sampleHierarchicalSheetProjectPath_wf

theorem C21_HierarchicalSheetProjectInstance [TextRule] (o : HierarchicalSheetProjectInstance) (h : o.WF) (i : Nat) (nl : Bool) (i' : Nat) (nl' : Bool) :
    Settles (fun o : HierarchicalSheetProjectInstance => .ok (o.toSexpr i nl)) (fun o => .ok (o.toSexpr i' nl')) HierarchicalSheetProjectInstance.fromSexpr o := by
  have h' : (canon o).WF := Stable.keep (h)
  exact ⟨canon o, (Lexes.one fun _ _ hs => HierarchicalSheetProjectInstance.lx h hs).loads (HierarchicalSheetProjectInstance.from_toVal h),
    (Lexes.one fun _ _ hs => HierarchicalSheetProjectInstance.lx h' hs).loads ((HierarchicalSheetProjectInstance.from_toVal h').trans (congrArg Except.ok (idem o)))⟩
example := C21_HierarchicalSheetProjectInstance sampleHierarchicalSheetProjectInstance sampleHierarchicalSheetProjectInstance_wf

theorem C21_HierarchicalSheet_partial [TextRule] (o : HierarchicalSheet) (h : o.WF) (hf : FixOk 4 o.fill.A) (i : Nat) (nl : Bool) (i' : Nat) (nl' : Bool) :
    Settles (fun o : HierarchicalSheet => o.toSexpr i nl) (fun o => o.toSexpr i' nl') HierarchicalSheet.fromSexpr o := by
  have h' : (canon o.asRead).WF := Stable.keep (HierarchicalSheet.WF.asRead h hf)
  exact ⟨canon o.asRead, (HierarchicalSheet.lexes h _ _).loads (HierarchicalSheet.from_toVal h),
    (HierarchicalSheet.lexes h' _ _).loads ((HierarchicalSheet.from_toVal h').trans (congrArg Except.ok (HierarchicalSheet.asRead_idem o)))⟩
example := C21_HierarchicalSheet_partial sampleHierarchicalSheet sampleHierarchicalSheet_wf (fixOk_int (exactInt_of_le (by decide)))

theorem C21_HierarchicalSheetInstance [TextRule] (o : HierarchicalSheetInstance) (h : o.WF) (i : Nat) (nl : Bool) (i' : Nat) (nl' : Bool) :
    Settles (fun o : HierarchicalSheetInstance => .ok (o.toSexpr i nl)) (fun o => .ok (o.toSexpr i' nl')) HierarchicalSheetInstance.fromSexpr o := by
  have h' : (canon o).WF := Stable.keep (h)
  exact ⟨canon o, (Lexes.one fun _ _ hs => HierarchicalSheetInstance.lx h hs).loads (HierarchicalSheetInstance.from_toVal h),
    (Lexes.one fun _ _ hs => HierarchicalSheetInstance.lx h' hs).loads ((HierarchicalSheetInstance.from_toVal h').trans (congrArg Except.ok (idem o)))⟩
example := C21_HierarchicalSheetInstance sampleHierarchicalSheetInstance sampleHierarchicalSheetInstance_wf

theorem C21_SymbolInstance [TextRule] (o : SymbolInstance) (h : o.WF) (i : Nat) (nl : Bool) (i' : Nat) (nl' : Bool) :
    Settles (fun o : SymbolInstance => .ok (o.toSexpr i nl)) (fun o => .ok (o.toSexpr i' nl')) SymbolInstance.fromSexpr o := by
  have h' : (canon o).WF := Stable.keep (h)
  exact ⟨canon o, (Lexes.one fun _ _ hs => SymbolInstance.lx h hs).loads (SymbolInstance.from_toVal h),
    (Lexes.one fun _ _ hs => SymbolInstance.lx h' hs).loads ((SymbolInstance.from_toVal h').trans (congrArg Except.ok (idem o)))⟩
example := C21_SymbolInstance sampleSymbolInstance sampleSymbolInstance_wf

theorem C21_Rectangle [TextRule] (o : Rectangle) (h : o.WF) (i : Nat) (nl : Bool) (i' : Nat) (nl' : Bool) :
    Settles (fun o : Rectangle => .ok (o.toSexpr i nl)) (fun o => .ok (o.toSexpr i' nl')) Rectangle.fromSexpr o := by
  have h' : (canon o).WF := Stable.keep (h)
  exact ⟨canon o, (Lexes.one fun _ _ hs => Rectangle.lx h hs).loads (Rectangle.from_toVal h),
    (Lexes.one fun _ _ hs => Rectangle.lx h' hs).loads ((Rectangle.from_toVal h').trans (congrArg Except.ok (idem o)))⟩
example := C21_Rectangle sampleRectangle sampleRectangle_wf

theorem C21_Arc [TextRule] (o : Arc) (h : o.WF) (i : Nat) (nl : Bool) (i' : Nat) (nl' : Bool) :
    Settles (fun o : Arc => .ok (o.toSexpr i nl)) (fun o => .ok (o.toSexpr i' nl')) Arc.fromSexpr o := by
  have h' : (canon o).WF := Stable.keep (h)
  exact ⟨canon o, (Lexes.one fun _ _ hs => Arc.lx h hs).loads (Arc.from_toVal h),
    (Lexes.one fun _ _ hs => Arc.lx h' hs).loads ((Arc.from_toVal h').trans (congrArg Except.ok (idem o)))⟩
example := C21_Arc sampleArc sampleArc_wf

theorem C21_Circle [TextRule] (o : Circle) (h : o.WF) (i : Nat) (nl : Bool) (i' : Nat) (nl' : Bool) :
    Settles (fun o : Circle => .ok (o.toSexpr i nl)) (fun o => .ok (o.toSexpr i' nl')) Circle.fromSexpr o := by
  have h' : (canon o).WF := Stable.keep (h)
  exact ⟨canon o, (Lexes.one fun _ _ hs => Circle.lx h hs).loads (Circle.from_toVal h),
    (Lexes.one fun _ _ hs => Circle.lx h' hs).loads ((Circle.from_toVal h').trans (congrArg Except.ok (idem o)))⟩
example := C21_Circle sampleCircle sampleCircle_wf

theorem C21_NetclassFlag [TextRule] (o : NetclassFlag) (h : o.WF) (i : Nat) (nl : Bool) (i' : Nat) (nl' : Bool) :
    Settles (fun o : NetclassFlag => o.toSexpr i nl) (fun o => o.toSexpr i' nl') NetclassFlag.fromSexpr o := by
  have h' : (canon o).WF := Stable.keep (h)
  exact ⟨canon o, (NetclassFlag.lexes h i nl).loads (NetclassFlag.from_toVal h),
    (NetclassFlag.lexes h' i' nl').loads ((NetclassFlag.from_toVal h').trans (congrArg Except.ok (idem o)))⟩
example := C21_NetclassFlag sampleNetclassFlag sampleNetclassFlag_wf

theorem C21_Schematic_partial [TextRule] (o : Schematic) (h : o.WF) (hf : ∀ v ∈ o.sheets, FixOk 4 v.fill.A) (i : Nat) (nl : Bool) (i' : Nat) (nl' : Bool) :
    Settles (fun o : Schematic => o.toSexpr i nl) (fun o => o.toSexpr i' nl') Schematic.fromSexpr o := by
  have h' : (canon o.asRead).WF := Stable.keep (Schematic.WF.asRead h hf)
  exact ⟨canon o.asRead, (Schematic.lexes h i nl).loads (Schematic.from_toVal h),
    (Schematic.lexes h' i' nl').loads ((Schematic.from_toVal h').trans (congrArg Except.ok (Schematic.asRead_idem o)))⟩
example := C21_Schematic_partial sampleSchematic sampleSchematic_wf (by listOk; exact fixOk_int (exactInt_of_le (by decide)))

theorem C21_GrText [TextRule] (o : GrText) (h : o.WF) (i : Nat) (nl : Bool) (i' : Nat) (nl' : Bool) :
    Settles (fun o : GrText => .ok (o.toSexpr i nl)) (fun o => .ok (o.toSexpr i' nl')) GrText.fromSexpr o := by
  have h' : (canon o).WF := Stable.keep (h)
  exact ⟨canon o, (Lexes.one fun _ _ hs => GrText.lx h hs).loads (GrText.from_toVal h),
    (Lexes.one fun _ _ hs => GrText.lx h' hs).loads ((GrText.from_toVal h').trans (congrArg Except.ok (idem o)))⟩
example := C21_GrText sampleGrText sampleGrText_wf

theorem C21_GrTextBox [TextRule] (o : GrTextBox) (h : o.WF) (i : Nat) (nl : Bool) (i' : Nat) (nl' : Bool) :
    Settles (fun o : GrTextBox => o.toSexpr i nl) (fun o => o.toSexpr i' nl') GrTextBox.fromSexpr o := by
  have h' : (canon o).WF := Stable.keep (h)
  exact ⟨canon o, (GrTextBox.lexes h i nl).loads (GrTextBox.from_toVal h),
    (GrTextBox.lexes h' i' nl').loads ((GrTextBox.from_toVal h').trans (congrArg Except.ok (idem o)))⟩
example := C21_GrTextBox sampleGrTextBox sampleGrTextBox_wf

theorem C21_GrLine [TextRule] (o : GrLine) (h : o.WF) (i : Nat) (nl : Bool) (i' : Nat) (nl' : Bool) :
    Settles (fun o : GrLine => .ok (o.toSexpr i nl)) (fun o => .ok (o.toSexpr i' nl')) GrLine.fromSexpr o := by
  have h' : (canon o).WF := Stable.keep (h)
  exact ⟨canon o, (Lexes.one fun _ _ hs => GrLine.lx h hs).loads (GrLine.from_toVal h),
    (Lexes.one fun _ _ hs => GrLine.lx h' hs).loads ((GrLine.from_toVal h').trans (congrArg Except.ok (idem o)))⟩
example := C21_GrLine sampleGrLine sampleGrLine_wf

theorem C21_GrRect [TextRule] (o : GrRect) (h : o.WF) (i : Nat) (nl : Bool) (i' : Nat) (nl' : Bool) :
    Settles (fun o : GrRect => .ok (o.toSexpr i nl)) (fun o => .ok (o.toSexpr i' nl')) GrRect.fromSexpr o := by
  have h' : (canon o).WF := Stable.keep (h)
  exact ⟨canon o, (Lexes.one fun _ _ hs => GrRect.lx h hs).loads (GrRect.from_toVal h),
    (Lexes.one fun _ _ hs => GrRect.lx h' hs).loads ((GrRect.from_toVal h').trans (congrArg Except.ok (idem o)))⟩
example := C21_GrRect sampleGrRect sampleGrRect_wf

theorem C21_GrCircle [TextRule] (o : GrCircle) (h : o.WF) (i : Nat) (nl : Bool) (i' : Nat) (nl' : Bool) :
    Settles (fun o : GrCircle => .ok (o.toSexpr i nl)) (fun o => .ok (o.toSexpr i' nl')) GrCircle.fromSexpr o := by
  have h' : (canon o).WF := Stable.keep (h)
  exact ⟨canon o, (Lexes.one fun _ _ hs => GrCircle.lx h hs).loads (GrCircle.from_toVal h),
    (Lexes.one fun _ _ hs => GrCircle.lx h' hs).loads ((GrCircle.from_toVal h').trans (congrArg Except.ok (idem o)))⟩
example := C21_GrCircle sampleGrCircle sampleGrCircle_wf

theorem C21_GrArc [TextRule] (o : GrArc) (h : o.WF) (i : Nat) (nl : Bool) (i' : Nat) (nl' : Bool) :
    Settles (fun o : GrArc => .ok (o.toSexpr i nl)) (fun o => .ok (o.toSexpr i' nl')) GrArc.fromSexpr o := by
  have h' : (canon o).WF := Stable.keep (h)
  exact ⟨canon o, (Lexes.one fun _ _ hs => GrArc.lx h hs).loads (GrArc.from_toVal h),
    (Lexes.one fun _ _ hs => GrArc.lx h' hs).loads ((GrArc.from_toVal h').trans (congrArg Except.ok (idem o)))⟩
example := C21_GrArc sampleGrArc sampleGrArc_wf

theorem C21_GrPoly [TextRule] (o : GrPoly) (h : o.WF) (i : Nat) (nl pn : Bool) (i' : Nat) (nl' pn' : Bool) :
    Settles (fun o : GrPoly => .ok (o.toSexpr i nl pn)) (fun o => .ok (o.toSexpr i' nl' pn')) GrPoly.fromSexpr o := by
  have h' : (canon o).WF := Stable.keep (h)
  exact ⟨canon o, (Lexes.one fun _ _ hs => GrPoly.lx h hs).loads (GrPoly.from_toVal h),
    (Lexes.one fun _ _ hs => GrPoly.lx h' hs).loads ((GrPoly.from_toVal h').trans (congrArg Except.ok (idem o)))⟩
example := C21_GrPoly sampleGrPoly sampleGrPoly_wf

theorem C21_GrCurve [TextRule] (o : GrCurve) (h : o.WF) (i : Nat) (nl : Bool) (i' : Nat) (nl' : Bool) :
    Settles (fun o : GrCurve => .ok (o.toSexpr i nl)) (fun o => .ok (o.toSexpr i' nl')) GrCurve.fromSexpr o := by
  have h' : (canon o).WF := Stable.keep (h)
  exact ⟨canon o, (Lexes.one fun _ _ hs => GrCurve.lx h hs).loads (GrCurve.from_toVal h),
    (Lexes.one fun _ _ hs => GrCurve.lx h' hs).loads ((GrCurve.from_toVal h').trans (congrArg Except.ok (idem o)))⟩
example := C21_GrCurve sampleGrCurve sampleGrCurve_wf

theorem C21_FpText [TextRule] (o : FpText) (h : o.WF) (i : Nat) (nl : Bool) (i' : Nat) (nl' : Bool) :
    Settles (fun o : FpText => .ok (o.toSexpr i nl)) (fun o => .ok (o.toSexpr i' nl')) FpText.fromSexpr o := by
  have h' : (canon o).WF := Stable.keep (h)
  exact ⟨canon o, (Lexes.one fun _ _ hs => FpText.lx h hs).loads (FpText.from_toVal h),
    (Lexes.one fun _ _ hs => FpText.lx h' hs).loads ((FpText.from_toVal h').trans (congrArg Except.ok (idem o)))⟩
example := C21_FpText sampleFpText sampleFpText_wf

theorem C21_FpLine [TextRule] (o : FpLine) (h : o.WF) (i : Nat) (nl : Bool) (i' : Nat) (nl' : Bool) :
    Settles (fun o : FpLine => .ok (o.toSexpr i nl)) (fun o => .ok (o.toSexpr i' nl')) FpLine.fromSexpr o := by
  have h' : (canon o).WF := Stable.keep (h)
  exact ⟨canon o, (Lexes.one fun _ _ hs => FpLine.lx h hs).loads (FpLine.from_toVal h),
    (Lexes.one fun _ _ hs => FpLine.lx h' hs).loads ((FpLine.from_toVal h').trans (congrArg Except.ok (idem o)))⟩
example := C21_FpLine sampleFpLine sampleFpLine_wf

theorem C21_FpRect [TextRule] (o : FpRect) (h : o.WF) (i : Nat) (nl : Bool) (i' : Nat) (nl' : Bool) :
    Settles (fun o : FpRect => .ok (o.toSexpr i nl)) (fun o => .ok (o.toSexpr i' nl')) FpRect.fromSexpr o := by
  have h' : (canon o).WF := Stable.keep (h)
  exact ⟨canon o, (Lexes.one fun _ _ hs => FpRect.lx h hs).loads (FpRect.from_toVal h),
    (Lexes.one fun _ _ hs => FpRect.lx h' hs).loads ((FpRect.from_toVal h').trans (congrArg Except.ok (idem o)))⟩
example := C21_FpRect sampleFpRect sampleFpRect_wf

theorem C21_FpTextBox [TextRule] (o : FpTextBox) (h : o.WF) (i : Nat) (nl : Bool) (i' : Nat) (nl' : Bool) :
    Settles (fun o : FpTextBox => o.toSexpr i nl) (fun o => o.toSexpr i' nl') FpTextBox.fromSexpr o := by
  have h' : (canon o).WF := Stable.keep (h)
  exact ⟨canon o, (FpTextBox.lexes h i nl).loads (FpTextBox.from_toVal h),
    (FpTextBox.lexes h' i' nl').loads ((FpTextBox.from_toVal h').trans (congrArg Except.ok (idem o)))⟩
example := C21_FpTextBox sampleFpTextBox sampleFpTextBox_wf

theorem C21_FpCircle [TextRule] (o : FpCircle) (h : o.WF) (i : Nat) (nl : Bool) (i' : Nat) (nl' : Bool) :
    Settles (fun o : FpCircle => .ok (o.toSexpr i nl)) (fun o => .ok (o.toSexpr i' nl')) FpCircle.fromSexpr o := by
  have h' : (canon o).WF := Stable.keep (h)
  exact ⟨canon o, (Lexes.one fun _ _ hs => FpCircle.lx h hs).loads (FpCircle.from_toVal h),
    (Lexes.one fun _ _ hs => FpCircle.lx h' hs).loads ((FpCircle.from_toVal h').trans (congrArg Except.ok (idem o)))⟩
example := C21_FpCircle sampleFpCircle sampleFpCircle_wf

theorem C21_FpArc [TextRule] (o : FpArc) (h : o.WF) (i : Nat) (nl : Bool) (i' : Nat) (nl' : Bool) :
    Settles (fun o : FpArc => .ok (o.toSexpr i nl)) (fun o => .ok (o.toSexpr i' nl')) FpArc.fromSexpr o := by
  have h' : (canon o).WF := Stable.keep (h)
  exact ⟨canon o, (Lexes.one fun _ _ hs => FpArc.lx h hs).loads (FpArc.from_toVal h),
    (Lexes.one fun _ _ hs => FpArc.lx h' hs).loads ((FpArc.from_toVal h').trans (congrArg Except.ok (idem o)))⟩
example := C21_FpArc sampleFpArc sampleFpArc_wf

theorem C21_FpPoly [TextRule] (o : FpPoly) (h : o.WF) (i : Nat) (nl : Bool) (i' : Nat) (nl' : Bool) :
    Settles (fun o : FpPoly => .ok (o.toSexpr i nl)) (fun o => .ok (o.toSexpr i' nl')) FpPoly.fromSexpr o := by
  have h' : (canon o).WF := Stable.keep (h)
  exact ⟨canon o, (Lexes.one fun _ _ hs => FpPoly.lx h hs).loads (FpPoly.from_toVal h),
    (Lexes.one fun _ _ hs => FpPoly.lx h' hs).loads ((FpPoly.from_toVal h').trans (congrArg Except.ok (idem o)))⟩
example := C21_FpPoly sampleFpPoly sampleFpPoly_wf

theorem C21_FpCurve [TextRule] (o : FpCurve) (h : o.WF) (i : Nat) (nl : Bool) (i' : Nat) (nl' : Bool) :
    Settles (fun o : FpCurve => .ok (o.toSexpr i nl)) (fun o => .ok (o.toSexpr i' nl')) FpCurve.fromSexpr o := by
  have h' : (canon o).WF := Stable.keep (h)
  exact ⟨canon o, (Lexes.one fun _ _ hs => FpCurve.lx h hs).loads (FpCurve.from_toVal h),
    (Lexes.one fun _ _ hs => FpCurve.lx h' hs).loads ((FpCurve.from_toVal h').trans (congrArg Except.ok (idem o)))⟩
example := C21_FpCurve sampleFpCurve sampleFpCurve_wf

theorem C21_KeepoutSettings [TextRule] (o : KeepoutSettings) (h : o.WF) (i : Nat) (nl : Bool) (i' : Nat) (nl' : Bool) :
    Settles (fun o : KeepoutSettings => .ok (o.toSexpr i nl)) (fun o => .ok (o.toSexpr i' nl')) KeepoutSettings.fromSexpr o := by
  have h' : (canon o).WF := Stable.keep (h)
  exact ⟨canon o, (Lexes.one fun _ _ hs => KeepoutSettings.lx h hs).loads (KeepoutSettings.from_toVal h),
    (Lexes.one fun _ _ hs => KeepoutSettings.lx h' hs).loads ((KeepoutSettings.from_toVal h').trans (congrArg Except.ok (idem o)))⟩
example := C21_KeepoutSettings sampleKeepoutSettings sampleKeepoutSettings_wf

theorem C21_FillSettings [TextRule] (o : FillSettings) (h : o.WF) (i : Nat) (nl : Bool) (i' : Nat) (nl' : Bool) :
    Settles (fun o : FillSettings => .ok (o.toSexpr i nl)) (fun o => .ok (o.toSexpr i' nl')) FillSettings.fromSexpr o := by
  have h' : (canon o).WF := Stable.keep (h)
  exact ⟨canon o, (Lexes.one fun _ _ hs => FillSettings.lx h hs).loads (FillSettings.from_toVal h),
    (Lexes.one fun _ _ hs => FillSettings.lx h' hs).loads ((FillSettings.from_toVal h').trans (congrArg Except.ok (idem o)))⟩
example := C21_FillSettings sampleFillSettings sampleFillSettings_wf

theorem C21_ZonePolygon [TextRule] (o : ZonePolygon) (h : o.WF) (i : Nat) (nl : Bool) (i' : Nat) (nl' : Bool) :
    Settles (fun o : ZonePolygon => .ok (o.toSexpr i nl)) (fun o => .ok (o.toSexpr i' nl')) ZonePolygon.fromSexpr o := by
  have h' : (canon o).WF := Stable.keep (h)
  exact ⟨canon o, (Lexes.one fun _ _ hs => ZonePolygon.lx h hs).loads (ZonePolygon.from_toVal h),
    (Lexes.one fun _ _ hs => ZonePolygon.lx h' hs).loads ((ZonePolygon.from_toVal h').trans (congrArg Except.ok (idem o)))⟩
example := C21_ZonePolygon sampleZonePolygon sampleZonePolygon_wf

theorem C21_FilledPolygon [TextRule] (o : FilledPolygon) (h : o.WF) (i : Nat) (nl : Bool) (i' : Nat) (nl' : Bool) :
    Settles (fun o : FilledPolygon => .ok (o.toSexpr i nl)) (fun o => .ok (o.toSexpr i' nl')) FilledPolygon.fromSexpr o := by
  have h' : (canon o).WF := Stable.keep (h)
  exact ⟨canon o, (Lexes.one fun _ _ hs => FilledPolygon.lx h hs).loads (FilledPolygon.from_toVal h),
    (Lexes.one fun _ _ hs => FilledPolygon.lx h' hs).loads ((FilledPolygon.from_toVal h').trans (congrArg Except.ok (idem o)))⟩
example := C21_FilledPolygon sampleFilledPolygon sampleFilledPolygon_wf

theorem C21_FillSegments [TextRule] (o : FillSegments) (h : o.WF) (i : Nat) (nl : Bool) (i' : Nat) (nl' : Bool) :
    Settles (fun o : FillSegments => .ok (o.toSexpr i nl)) (fun o => .ok (o.toSexpr i' nl')) FillSegments.fromSexpr o := by
  have h' : (canon o).WF := Stable.keep (h)
  exact ⟨canon o, (Lexes.one fun _ _ hs => FillSegments.lx h hs).loads (FillSegments.from_toVal h),
    (Lexes.one fun _ _ hs => FillSegments.lx h' hs).loads ((FillSegments.from_toVal h').trans (congrArg Except.ok (idem o)))⟩
example := C21_FillSegments sampleFillSegments sampleFillSegments_wf

theorem C21_Zone [TextRule] (o : Zone) (h : o.WF) (i : Nat) (nl : Bool) (i' : Nat) (nl' : Bool) :
    Settles (fun o : Zone => o.toSexpr i nl) (fun o => o.toSexpr i' nl') Zone.fromSexpr o := by
  have h' : (canon o).WF := Stable.keep (h)
  exact ⟨canon o, (Zone.lexes h i nl).loads (Zone.from_toVal h),
    (Zone.lexes h' i' nl').loads ((Zone.from_toVal h').trans (congrArg Except.ok (idem o)))⟩
example := C21_Zone sampleZone sampleZone_wf

theorem C21_Attributes [TextRule] (o : Attributes) (h : o.WF) (he : o.isDefault = false) (i : Nat) (nl : Bool) (i' : Nat) (nl' : Bool) :
    Settles (fun o : Attributes => .ok (o.toSexpr i nl)) (fun o => .ok (o.toSexpr i' nl')) Attributes.fromSexpr o := by
  have h' : (canon o).WF := Stable.keep (h)
  have he' : (canon o).isDefault = false := Attributes.isDefault_canon he
  exact ⟨canon o, (Attributes.lexes h he i nl).loads (Attributes.from_toVal h),
    (Attributes.lexes h' he' i' nl').loads ((Attributes.from_toVal h').trans (congrArg Except.ok (idem o)))⟩
example := C21_Attributes sampleAttributes sampleAttributes_wf rfl

theorem C21_Model [TextRule] (o : Model) (h : o.WF) (i : Nat) (nl : Bool) (i' : Nat) (nl' : Bool) :
    Settles (fun o : Model => .ok (o.toSexpr i nl)) (fun o => .ok (o.toSexpr i' nl')) Model.fromSexpr o := by
  have h' : (canon o).WF := Stable.keep (h)
  exact ⟨canon o, (Lexes.one fun _ _ hs => Model.lx h hs).loads (Model.from_toVal h),
    (Lexes.one fun _ _ hs => Model.lx h' hs).loads ((Model.from_toVal h').trans (congrArg Except.ok (idem o)))⟩
example := C21_Model sampleModel sampleModel_wf

theorem C21_DrillDefinition [TextRule] (o : DrillDefinition) (h : o.WF) (i : Nat) (nl : Bool) (i' : Nat) (nl' : Bool) :
    Settles (fun o : DrillDefinition => .ok (o.toSexpr i nl)) (fun o => .ok (o.toSexpr i' nl')) DrillDefinition.fromSexpr o := by
  have h' : (canon o).WF := Stable.keep (h)
  exact ⟨canon o, (Lexes.one fun _ _ hs => DrillDefinition.lx h hs).loads (DrillDefinition.from_toVal h),
    (Lexes.one fun _ _ hs => DrillDefinition.lx h' hs).loads ((DrillDefinition.from_toVal h').trans (congrArg Except.ok (idem o)))⟩
example := C21_DrillDefinition sampleDrillDefinition sampleDrillDefinition_wf

theorem C21_PadOptions [TextRule] (o : PadOptions) (h : o.WF) (i : Nat) (nl : Bool) (i' : Nat) (nl' : Bool) :
    Settles (fun o : PadOptions => .ok (o.toSexpr i nl)) (fun o => .ok (o.toSexpr i' nl')) PadOptions.fromSexpr o := by
  have h' : (canon o).WF := Stable.keep (h)
  exact ⟨canon o, (Lexes.one fun _ _ hs => PadOptions.lx h hs).loads (PadOptions.from_toVal h),
    (Lexes.one fun _ _ hs => PadOptions.lx h' hs).loads ((PadOptions.from_toVal h').trans (congrArg Except.ok (idem o)))⟩
example := C21_PadOptions samplePadOptions samplePadOptions_wf

theorem C21_Pad [TextRule] (o : Pad) (h : o.WF) (i : Nat) (nl : Bool) (i' : Nat) (nl' : Bool) :
    Settles (fun o : Pad => o.toSexpr i nl) (fun o => o.toSexpr i' nl') Pad.fromSexpr o := by
  have h' : (canon o).WF := Stable.keep (h)
  exact ⟨canon o, (Pad.lexes h i nl).loads (Pad.from_toVal h),
    (Pad.lexes h' i' nl').loads ((Pad.from_toVal h').trans (congrArg Except.ok (idem o)))⟩
example := C21_Pad samplePad samplePad_wf

theorem C21_Footprint [TextRule] (o : Footprint) (h : o.WF) (tedit : Val) (i : Nat) (nl lf : Bool) (i' : Nat) (nl' lf' : Bool) :
    Settles (fun o : Footprint => o.toSexpr i nl lf) (fun o => o.toSexpr i' nl' lf') (Footprint.fromSexpr tedit) o := by
  have h' : (canon { o with filePath := none }).WF := Stable.keep ((show Footprint.WF { o with filePath := none } from { h with }))
  exact ⟨canon { o with filePath := none }, (Footprint.lexes h i nl lf).loads (Footprint.from_toVal h tedit),
    (Footprint.lexes h' i' nl' lf').loads ((Footprint.from_toVal h' tedit).trans (congrArg Except.ok (show canon { canon ({ o with filePath := none } : Footprint) with filePath := none } = _ from idem { o with filePath := none })))⟩
example := C21_Footprint sampleFootprint sampleFootprint_wf (.str k!"5f12ab34")

theorem C21_GeneralSettings [TextRule] (o : GeneralSettings) (h : o.WF) (i : Nat) (nl : Bool) (i' : Nat) (nl' : Bool) :
    Settles (fun o : GeneralSettings => .ok (o.toSexpr i nl)) (fun o => .ok (o.toSexpr i' nl')) GeneralSettings.fromSexpr o := by
  have h' : (canon o).WF := Stable.keep (h)
  exact ⟨canon o, (Lexes.one fun _ _ hs => GeneralSettings.lx h hs).loads (GeneralSettings.from_toVal h),
    (Lexes.one fun _ _ hs => GeneralSettings.lx h' hs).loads ((GeneralSettings.from_toVal h').trans (congrArg Except.ok (idem o)))⟩
example := C21_GeneralSettings sampleGeneralSettings sampleGeneralSettings_wf

theorem C21_LayerToken [TextRule] (o : LayerToken) (h : o.WF) (i : Nat) (nl : Bool) (i' : Nat) (nl' : Bool) :
    Settles (fun o : LayerToken => .ok (o.toSexpr i nl)) (fun o => .ok (o.toSexpr i' nl')) LayerToken.fromSexpr o := by
  have h' : (canon o).WF := Stable.keep (h)
  exact ⟨canon o, (Lexes.one fun _ _ hs => LayerToken.lx h hs).loads LayerToken.from_toVal,
    (Lexes.one fun _ _ hs => LayerToken.lx h' hs).loads (LayerToken.from_toVal.trans (congrArg Except.ok (idem o)))⟩
example := C21_LayerToken sampleLayerToken sampleLayerToken_wf

theorem C21_StackupLayer [TextRule] (o : StackupLayer) (h : o.WF) (i : Nat) (nl : Bool) (i' : Nat) (nl' : Bool) :
    Settles (fun o : StackupLayer => .ok (o.toSexpr i nl)) (fun o => .ok (o.toSexpr i' nl')) StackupLayer.fromSexpr o := by
  have h' : (canon o).WF := Stable.keep (h)
  exact ⟨canon o, (Lexes.one fun _ _ hs => StackupLayer.lx h hs).loads StackupLayer.from_toVal,
    (Lexes.one fun _ _ hs => StackupLayer.lx h' hs).loads (StackupLayer.from_toVal.trans (congrArg Except.ok (idem o)))⟩
example := C21_StackupLayer sampleStackupLayer sampleStackupLayer_wf

theorem C21_Stackup [TextRule] (o : Stackup) (h : o.WF) (i : Nat) (nl : Bool) (i' : Nat) (nl' : Bool) :
    Settles (fun o : Stackup => .ok (o.toSexpr i nl)) (fun o => .ok (o.toSexpr i' nl')) Stackup.fromSexpr o := by
  have h' : (canon o).WF := Stable.keep (h)
  exact ⟨canon o, (Lexes.one fun _ _ hs => Stackup.lx h hs).loads (Stackup.from_toVal h),
    (Lexes.one fun _ _ hs => Stackup.lx h' hs).loads ((Stackup.from_toVal h').trans (congrArg Except.ok (idem o)))⟩
example := C21_Stackup sampleStackup sampleStackup_wf

theorem C21_PlotSettings [TextRule] (o : PlotSettings) (h : o.WF) (i : Nat) (nl : Bool) (i' : Nat) (nl' : Bool) :
    Settles (fun o : PlotSettings => o.toSexpr i nl) (fun o => o.toSexpr i' nl') PlotSettings.fromSexpr o := by
  have h' : (canon o.asRead).WF := Stable.keep (PlotSettings.WF.asRead h)
  exact ⟨canon o.asRead, (PlotSettings.lexes h _ _).loads (PlotSettings.from_toVal h),
    (PlotSettings.lexes h' _ _).loads ((PlotSettings.from_toVal h').trans (congrArg Except.ok (PlotSettings.asRead_idem o)))⟩
example := C21_PlotSettings samplePlotSettings samplePlotSettings_wf

theorem C21_SetupData [TextRule] (o : SetupData) (h : o.WF) (i : Nat) (nl : Bool) (i' : Nat) (nl' : Bool) :
    Settles (fun o : SetupData => o.toSexpr i nl) (fun o => o.toSexpr i' nl') SetupData.fromSexpr o := by
  have h' : (canon o.asRead).WF := Stable.keep (SetupData.WF.asRead h)
  exact ⟨canon o.asRead, (SetupData.lexes h _ _).loads (SetupData.from_toVal h),
    (SetupData.lexes h' _ _).loads ((SetupData.from_toVal h').trans (congrArg Except.ok (SetupData.asRead_idem o)))⟩
example := C21_SetupData sampleSetupData sampleSetupData_wf

theorem C21_Segment [TextRule] (o : Segment) (h : o.WF) (i : Nat) (nl : Bool) (i' : Nat) (nl' : Bool) :
    Settles (fun o : Segment => .ok (o.toSexpr i nl)) (fun o => .ok (o.toSexpr i' nl')) Segment.fromSexpr o := by
  have h' : (canon o).WF := Stable.keep (h)
  exact ⟨canon o, (Lexes.one fun _ _ hs => Segment.lx h hs).loads (Segment.from_toVal h),
    (Lexes.one fun _ _ hs => Segment.lx h' hs).loads ((Segment.from_toVal h').trans (congrArg Except.ok (idem o)))⟩
example := C21_Segment sampleSegment sampleSegment_wf

theorem C21_Via [TextRule] (o : Via) (h : o.WF) (i : Nat) (nl : Bool) (i' : Nat) (nl' : Bool) :
    Settles (fun o : Via => .ok (o.toSexpr i nl)) (fun o => .ok (o.toSexpr i' nl')) Via.fromSexpr o := by
  have h' : (canon o).WF := Stable.keep (h)
  exact ⟨canon o, (Lexes.one fun _ _ hs => Via.lx h hs).loads (Via.from_toVal h),
    (Lexes.one fun _ _ hs => Via.lx h' hs).loads ((Via.from_toVal h').trans (congrArg Except.ok (idem o)))⟩
example := C21_Via sampleVia sampleVia_wf

theorem C21_TraceArc [TextRule] (o : TraceArc) (h : o.WF) (i : Nat) (nl : Bool) (i' : Nat) (nl' : Bool) :
    Settles (fun o : TraceArc => .ok (o.toSexpr i nl)) (fun o => .ok (o.toSexpr i' nl')) TraceArc.fromSexpr o := by
  have h' : (canon o).WF := Stable.keep (h)
  exact ⟨canon o, (Lexes.one fun _ _ hs => TraceArc.lx h hs).loads (TraceArc.from_toVal h),
    (Lexes.one fun _ _ hs => TraceArc.lx h' hs).loads ((TraceArc.from_toVal h').trans (congrArg Except.ok (idem o)))⟩
example := C21_TraceArc sampleTraceArc sampleTraceArc_wf

theorem C21_Target [TextRule] (o : Target) (h : o.WF) (i : Nat) (nl : Bool) (i' : Nat) (nl' : Bool) :
    Settles (fun o : Target => .ok (o.toSexpr i nl)) (fun o => .ok (o.toSexpr i' nl')) Target.fromSexpr o := by
  have h' : (canon o).WF := Stable.keep (h)
  exact ⟨canon o, (Lexes.one fun _ _ hs => Target.lx h hs).loads (Target.from_toVal h),
    (Lexes.one fun _ _ hs => Target.lx h' hs).loads ((Target.from_toVal h').trans (congrArg Except.ok (idem o)))⟩
example := C21_Target sampleTarget sampleTarget_wf

theorem C21_DimensionFormat [TextRule] (o : DimensionFormat) (h : o.WF) (i : Nat) (nl : Bool) (i' : Nat) (nl' : Bool) :
    Settles (fun o : DimensionFormat => .ok (o.toSexpr i nl)) (fun o => .ok (o.toSexpr i' nl')) DimensionFormat.fromSexpr o := by
  have h' : (canon o).WF := Stable.keep (h)
  exact ⟨canon o, (Lexes.one fun _ _ hs => DimensionFormat.lx h hs).loads (DimensionFormat.from_toVal h),
    (Lexes.one fun _ _ hs => DimensionFormat.lx h' hs).loads ((DimensionFormat.from_toVal h').trans (congrArg Except.ok (idem o)))⟩
example := C21_DimensionFormat sampleDimensionFormat sampleDimensionFormat_wf

theorem C21_DimensionStyle [TextRule] (o : DimensionStyle) (h : o.WF) (i : Nat) (nl : Bool) (i' : Nat) (nl' : Bool) :
    Settles (fun o : DimensionStyle => .ok (o.toSexpr i nl)) (fun o => .ok (o.toSexpr i' nl')) DimensionStyle.fromSexpr o := by
  have h' : (canon o).WF := Stable.keep (h)
  exact ⟨canon o, (Lexes.one fun _ _ hs => DimensionStyle.lx h hs).loads (DimensionStyle.from_toVal h),
    (Lexes.one fun _ _ hs => DimensionStyle.lx h' hs).loads ((DimensionStyle.from_toVal h').trans (congrArg Except.ok (idem o)))⟩
example := C21_DimensionStyle sampleDimensionStyle sampleDimensionStyle_wf

theorem C21_Dimension [TextRule] (o : Dimension) (h : o.WF) (i : Nat) (nl : Bool) (i' : Nat) (nl' : Bool) :
    Settles (fun o : Dimension => o.toSexpr i nl) (fun o => o.toSexpr i' nl') Dimension.fromSexpr o := by
  have h' : (canon o).WF := Stable.keep (h)
  exact ⟨canon o, (Dimension.lexes h i nl).loads (Dimension.from_toVal h),
    (Dimension.lexes h' i' nl').loads ((Dimension.from_toVal h').trans (congrArg Except.ok (idem o)))⟩
example := C21_Dimension sampleDimension sampleDimension_wf

theorem C21_Board [TextRule] (o : Board) (h : o.WF) (tedit : Val) (i : Nat) (nl : Bool) (i' : Nat) (nl' : Bool) :
    Settles (fun o : Board => o.toSexpr i nl) (fun o => o.toSexpr i' nl') (Board.fromSexpr tedit) o := by
  have h' : (canon o.asRead).WF := Stable.keep (Board.WF.asRead h)
  exact ⟨canon o.asRead, (Board.lexes h i nl).loads (Board.from_toVal h tedit),
    (Board.lexes h' i' nl').loads ((Board.from_toVal h' tedit).trans (congrArg Except.ok (Board.asRead_idem o)))⟩
example := C21_Board sampleBoard sampleBoard_wf (.str k!"5f12ab34")

/-! ## Sheets with a fill colour of more than four decimals -/

/-- The float 0.12345. -/
def f12345 : F64 := F64.ofDecimal false k!"0" k!"12345"

set_option maxRecDepth 100000 in
theorem ok_f12345 : NumOk (.flt f12345) :=
  ⟨false, k!"0", k!"12345", by decide, by decide, by decide, by decide, by rfl, rfl⟩

theorem HierarchicalSheet.WF.withAlpha [TextRule] {o : HierarchicalSheet} (h : o.WF) {a : Val} (ha : NumOk a) :
    ({ o with fill := { o.fill with A := a, precision := none }, properties := [], pins := [], instances := [] } : HierarchicalSheet).WF :=
  { h with
    fill := ⟨h.fill.R, h.fill.G, h.fill.B, .inl ⟨rfl, ha⟩⟩
    properties := fun _ hv => absurd hv List.not_mem_nil
    properties_key := fun _ hv => absurd hv List.not_mem_nil
    pins := fun _ hv => absurd hv List.not_mem_nil
    instances := fun _ hv => absurd hv List.not_mem_nil }

/-- A sheet whose fill has the alpha value 0.12345. -/
def sheet12345 : HierarchicalSheet :=
  { sampleHierarchicalSheet with
    fill := { sampleHierarchicalSheet.fill with A := .flt f12345, precision := none }, properties := [], pins := [], instances := [] }

theorem sheet12345_wf : sheet12345.WF := sampleHierarchicalSheet_wf.withAlpha ok_f12345

set_option maxRecDepth 100000 in
/-- C21 is false of sheets: the alpha value 0.12345 survives the first saving, because a new colour is written in full, but loading
sets the precision to four digits, so that it is written as 0.1235 when the loaded sheet is saved. -/
theorem C21_HierarchicalSheet_violated : ¬ ∀ o : HierarchicalSheet, o.WF →
    Settles (fun o : HierarchicalSheet => o.toSexpr 0 true) (fun o => o.toSexpr 0 true) HierarchicalSheet.fromSexpr o := by
  intro hall
  obtain ⟨o', h1, h2⟩ := hall sheet12345 sheet12345_wf
  have h3 := (HierarchicalSheet.lexes sheet12345_wf 0 true).loads (HierarchicalSheet.from_toVal sheet12345_wf)
  rw [h3] at h1
  cases h1
  have h4 : (((canon sheet12345.asRead).toSexpr 0 true >>= parseSexp >>= HierarchicalSheet.fromSexpr) : PyM _).map (fun o => o.fill.A) =
    .ok (.flt (F64.ofDecimal false k!"0" k!"1235")) := rfl
  rw [h2] at h4
  have h5 : Val.flt f12345 = .flt (F64.ofDecimal false k!"0" k!"1235") := by injection h4
  injection h5 with h5
  revert h5
  decide

end Kiutils
