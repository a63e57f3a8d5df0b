import Verif.Model.Objects
import Verif.Model.Board
import Verif.Model.Schematic
import Verif.Model.Symbol
import Verif.Model.Dru
import Verif.Model.Wks
import Verif.Model.Libraries
/-!
# C69: new objects

Calling a class without arguments makes a new object with the documented defaults, all parts of which are new and apart from each
other. This ties the two models of objects together: those with an identity (`Model/Objects`) and the values used everywhere else.
-/
namespace Kiutils.Objects

/-! ## Specification -/

/-- What an object looks like from outside, without its identity. -/
inductive Shape where
  /-- a constant, by its source text -/
  | const (source : Str)
  /-- an object, list or dict with its attributes -/
  | obj (cls : Str) (slots : List (Str × Shape))

mutual
/-- The reference `r` leads to an object that looks like the shape; all objects met on the way have addresses from `b` on and below
`e`, and no object is met twice: each attribute has addresses of its own. -/
inductive Looks (h : Heap) : Nat → Nat → Ref → Shape → Prop where
  | const {b e : Nat} (s : Str) : b ≤ e → Looks h b e (.const s) (.const s)
  | obj {b m e a : Nat} {c : Str} {slots : List (Str × Ref)} {shapes : List (Str × Shape)} :
      h[a]? = some ⟨c, slots⟩ → LooksL h b m slots shapes → m ≤ a → a < e → Looks h b e (.obj a) (.obj c shapes)
/-- The same for a list of attributes, one after the other. -/
inductive LooksL (h : Heap) : Nat → Nat → List (Str × Ref) → List (Str × Shape) → Prop where
  | nil {b e : Nat} : b ≤ e → LooksL h b e [] []
  | cons {b m e : Nat} {n : Str} {r : Ref} {s : Shape} {rs : List (Str × Ref)} {ss : List (Str × Shape)} :
      Looks h b m r s → LooksL h m e rs ss → LooksL h b e ((n, r) :: rs) ((n, s) :: ss)
end

/-- `C()` makes, in any state, an object with these attributes, all parts of which are new and apart from each other; nothing that was
there before has changed. -/
def New (c : Str) (slots : List (Str × Shape)) : Prop :=
  ∀ (classes : Str → Nat) (h : Heap), ∃ a h', construct classes 5 c [] h = some (a, h') ∧ h <+: h' ∧
    Looks h' h.length h'.length (.obj a) (.obj c slots)

/-- The source text of a string without special characters. -/
def quoted (s : Str) : Str := '\'' :: (s ++ ['\''])

/-- What a value of the model looks like. -/
class HasShape (α : Type) where
  shape : α → Shape
export HasShape (shape)

/-- The attributes of an object of the model by their names in Python. -/
class HasSlots (α : Type) where
  slots : α → List (Str × Shape)

instance : HasShape Val := ⟨fun
  | .str s => .const (quoted s)
  | v => .const v.pyStr⟩
instance : HasShape Str := ⟨fun s => .const (quoted s)⟩
instance : HasShape Bool := ⟨fun b => .const (bif b then k!"True" else k!"False")⟩
instance : HasShape Nat := ⟨fun n => .const (intStr n)⟩
instance {α : Type} [HasShape α] : HasShape (Option α) := ⟨fun
  | none => .const k!"None"
  | some a => shape a⟩
/-- New lists are empty; items are not looked into. -/
instance {α : Type} : HasShape (List α) := ⟨fun l => .obj k!"list" (l.map fun _ => (k!"item", .const k!"some item"))⟩
instance (priority := high) : HasShape (List (Val × Val)) :=
  ⟨fun l => .obj k!"dict" (l.map fun x => (x.1.pyStr, shape x.2))⟩

open Lean Elab Command in
/-- Defines the attributes of a structure, field by field. Some names are words of Lean. -/
elab "derive_shape " n:ident : command => do
  let name ← liftCoreM <| realizeGlobalConstNoOverload n
  let o := mkIdent `o
  let pyName : Name → String
    | `priv => "private"
    | `extends_ => "extends"
    | f => f.toString (escape := false)
  let mut t ← `(([] : List (Str × Shape)))
  for f in (getStructureFields (← getEnv) name).reverse do
    let v := mkIdent (`o ++ f)
    let s := Syntax.mkStrLit (pyName f)
    t ← `((k!$s, shape $v) :: $t)
  elabCommand (← `(instance : HasSlots $n := ⟨fun $o => $t⟩))
  let s := Syntax.mkStrLit name.getString!
  elabCommand (← `(instance : HasShape $n := ⟨fun $o => .obj k!$s (HasSlots.slots $o)⟩))

/-! ## What the constructors make, from the table of classes alone -/

/-- The shape of the value of a field; `new` makes the shape of a new object. -/
def expandField (new : Str → List (Str × Str) → Option (List (Str × Shape))) : Option Str → Factory → Option Shape
  | some s, _ => some (.const s)
  | none, .const s => some (.const s)
  | none, .list => some (.obj k!"list" [])
  | none, .dict => some (.obj k!"dict" [])
  | none, .new c args => (new c args).bind fun l => some (.obj c l)
  | none, .cls _ => none

/-- The shapes of the fields. -/
def expandL (new : Str → List (Str × Str) → Option (List (Str × Shape))) (args : List (Str × Str)) :
    List (Str × Factory) → Option (List (Str × Shape))
  | [] => some []
  | field :: fields =>
    (expandField new (args.lookup field.1) field.2).bind fun s => (expandL new args fields).bind fun ss => some ((field.1, s) :: ss)

/-- The shape of `C(**args)`. -/
def expand : Nat → Str → List (Str × Str) → Option (List (Str × Shape))
  | 0, _, _ => none
  | fuel + 1, c, args => (classTable.lookup c).bind fun fields => expandL (expand fuel) args fields

theorem getElem?_prefix {h h' : Heap} (p : h <+: h') {a : Nat} {c : Cell} (e : h[a]? = some c) : h'[a]? = some c := by
  obtain ⟨t, rfl⟩ := p
  rw [List.getElem?_append_left (List.getElem?_eq_some_iff.mp e).1]
  exact e

mutual
theorem Looks.mono {h h' : Heap} (p : h <+: h') {b e : Nat} {r : Ref} {s : Shape} : Looks h b e r s → Looks h' b e r s
  | .const s l => .const s l
  | .obj e l x y => .obj (getElem?_prefix p e) (LooksL.mono p l) x y
theorem LooksL.mono {h h' : Heap} (p : h <+: h') {b e : Nat} {r : List (Str × Ref)} {s : List (Str × Shape)} :
    LooksL h b e r s → LooksL h' b e r s
  | .nil l => .nil l
  | .cons a l => .cons (Looks.mono p a) (LooksL.mono p l)
end

/-- The arguments as references. -/
def constArgs (args : List (Str × Str)) : List (Str × Ref) := args.map fun x => (x.1, .const x.2)

theorem lookup_constArgs (n : Str) : ∀ args : List (Str × Str), (constArgs args).lookup n = (args.lookup n).map .const
  | [] => rfl
  | (k, v) :: r => by
    simp only [constArgs, List.map_cons, List.lookup_cons]
    split
    · rfl
    · exact lookup_constArgs n r

theorem fillIn_looks (classes : Str → Nat) (n : Nat)
    (ih : ∀ c args h l, expand n c args = some l → ∃ a h', construct classes n c (constArgs args) h = some (a, h') ∧ h <+: h' ∧
      Looks h' h.length h'.length (.obj a) (.obj c l))
    (args : List (Str × Str)) (fields : List (Str × Factory)) (h : Heap) (l : List (Str × Shape)) (e : expandL (expand n) args fields = some l) :
    ∃ slots h', fillIn classes n (constArgs args) fields h = some (slots, h') ∧ h <+: h' ∧ LooksL h' h.length h'.length slots l := by
  induction fields generalizing h l with
  | nil =>
    rw [expandL] at e
    cases e
    exact ⟨[], h, by rw [fillIn], List.prefix_rfl, .nil (Nat.le_refl _)⟩
  | cons f fields ih' =>
    rw [expandL] at e
    obtain ⟨s, hs, e⟩ := Option.bind_eq_some_iff.mp e
    obtain ⟨ss, hss, e⟩ := Option.bind_eq_some_iff.mp e
    cases e
    have key : ∃ r h1, fieldValue classes n ((constArgs args).lookup f.1) f.2 h = some (r, h1) ∧ h <+: h1 ∧ Looks h1 h.length h1.length r s := by
      rw [lookup_constArgs]
      cases ha : args.lookup f.1 with
      | some x =>
        rw [ha, expandField] at hs
        cases hs
        exact ⟨.const x, h, by rw [Option.map_some, fieldValue], List.prefix_rfl, .const _ (Nat.le_refl _)⟩
      | none =>
        rw [ha] at hs
        have new (c : Str) : (h ++ [⟨c, []⟩] : Heap)[h.length]? = some ⟨c, []⟩ := by simp
        cases hf : f.2 with
        | const x =>
          rw [hf, expandField] at hs
          cases hs
          exact ⟨.const x, h, by rw [Option.map_none, fieldValue], List.prefix_rfl, .const _ (Nat.le_refl _)⟩
        | list =>
          rw [hf, expandField] at hs
          cases hs
          exact ⟨_, _, by rw [Option.map_none, fieldValue], List.prefix_append _ _, .obj (new _) (.nil (Nat.le_refl _)) (Nat.le_refl _) (by simp)⟩
        | dict =>
          rw [hf, expandField] at hs
          cases hs
          exact ⟨_, _, by rw [Option.map_none, fieldValue], List.prefix_append _ _, .obj (new _) (.nil (Nat.le_refl _)) (Nat.le_refl _) (by simp)⟩
        | cls c => rw [hf, expandField] at hs; cases hs
        | new c cargs =>
          rw [hf, expandField] at hs
          obtain ⟨l, hl, e⟩ := Option.bind_eq_some_iff.mp hs
          cases e
          obtain ⟨a, h1, e, p, k⟩ := ih c cargs h l hl
          exact ⟨.obj a, h1, by rw [Option.map_none, fieldValue]; exact congrArg (Option.bind · _) e, p, k⟩
    obtain ⟨r, h1, e1, p1, k1⟩ := key
    obtain ⟨slots, h2, e2, p2, k2⟩ := ih' h1 ss hss
    exact ⟨(f.1, r) :: slots, h2, by rw [fillIn, e1, Option.bind_some]; simp only [e2, Option.bind_some], p1.trans p2,
      .cons (k1.mono p2) k2⟩

theorem construct_looks (classes : Str → Nat) (n : Nat) (c : Str) (args : List (Str × Str)) (h : Heap) (l : List (Str × Shape))
    (e : expand n c args = some l) : ∃ a h', construct classes n c (constArgs args) h = some (a, h') ∧ h <+: h' ∧
      Looks h' h.length h'.length (.obj a) (.obj c l) := by
  induction n generalizing c args h l with
  | zero => rw [expand] at e; cases e
  | succ n ih =>
    rw [expand] at e
    obtain ⟨fields, hl, e⟩ := Option.bind_eq_some_iff.mp e
    obtain ⟨slots, h', e1, p, k⟩ := fillIn_looks classes n ih args fields h l e
    refine ⟨h'.length, h' ++ [⟨c, slots⟩], by rw [construct, hl, Option.bind_some, e1, Option.bind_some],
      p.trans (List.prefix_append _ _), .obj (by simp) (k.mono (List.prefix_append _ _)) (Nat.le_refl _) (by simp)⟩

theorem new_of {c : Str} {l : List (Str × Shape)} (e : expand 5 c [] = some l) : New c l :=
  fun classes h => construct_looks classes 5 c [] h l e

/-! ## The classes -/

derive_shape GeneralSettings
derive_shape PageSettings
derive_shape TitleBlock
derive_shape Stackup
derive_shape Position
derive_shape PlotSettings
derive_shape SetupData
derive_shape Board
derive_shape Constraint
derive_shape Rule
derive_shape DesignRules
derive_shape Attributes
derive_shape Coordinate
derive_shape Model
derive_shape DrillDefinition
derive_shape PadOptions
derive_shape Net
derive_shape Pad
derive_shape Footprint
derive_shape LayerToken
derive_shape StackupSubLayer
derive_shape StackupLayer
derive_shape Segment
derive_shape Via
derive_shape TraceArc
derive_shape Target
derive_shape ColorRGBA
derive_shape Stroke
derive_shape Font
derive_shape Justify
derive_shape Effects
derive_shape Group
derive_shape Property
derive_shape RenderCachePolygon
derive_shape RenderCache
derive_shape Fill
derive_shape Image
derive_shape DimensionFormat
derive_shape DimensionStyle
derive_shape GrText
derive_shape Dimension
derive_shape FpText
derive_shape FpLine
derive_shape FpRect
derive_shape FpTextBox
derive_shape FpCircle
derive_shape FpArc
derive_shape FpPoly
derive_shape FpCurve
derive_shape GrTextBox
derive_shape GrLine
derive_shape GrRect
derive_shape GrCircle
derive_shape GrArc
derive_shape GrPoly
derive_shape GrCurve
instance : HasShape JunctionColor := ⟨fun
  | .rgba c => shape c
  | .raw v => shape v⟩
derive_shape Junction
derive_shape NoConnect
derive_shape BusEntry
derive_shape BusAlias
derive_shape Connection
derive_shape PolyLine
derive_shape Text
derive_shape TextBox
derive_shape LocalLabel
derive_shape GlobalLabel
derive_shape HierarchicalLabel
derive_shape SymbolProjectPath
derive_shape SymbolProjectInstance
derive_shape SchematicSymbol
derive_shape HierarchicalPin
derive_shape HierarchicalSheetProjectPath
derive_shape HierarchicalSheetProjectInstance
derive_shape HierarchicalSheet
derive_shape HierarchicalSheetInstance
derive_shape SymbolInstance
derive_shape Rectangle
derive_shape Arc
derive_shape Circle
derive_shape SyArc
derive_shape SyCircle
derive_shape SyCurve
derive_shape SyPolyLine
derive_shape SyRect
derive_shape SyText
derive_shape SyTextBox
derive_shape KeepoutSettings
derive_shape FillSettings
derive_shape ZonePolygon
derive_shape FilledPolygon
derive_shape FillSegments
derive_shape Hatch
derive_shape Zone
derive_shape Library
derive_shape LibTable
derive_shape Schematic
derive_shape SymbolAlternativePin
derive_shape SymbolPin
derive_shape Symbol
derive_shape SymbolLib
derive_shape WksFontSize
derive_shape WksFont
derive_shape WksPosition
derive_shape WksShape
derive_shape Bitmap
derive_shape TbText
derive_shape TextSize
derive_shape Setup
derive_shape WorkSheet

/-! ## The theorems -/

theorem C69_Board : New k!"Board" (HasSlots.slots ({} : Board)) := new_of rfl
theorem C69_Constraint : New k!"Constraint" (HasSlots.slots ({} : Constraint)) := new_of rfl
theorem C69_Rule : New k!"Rule" (HasSlots.slots ({} : Rule)) := new_of rfl
theorem C69_DesignRules : New k!"DesignRules" (HasSlots.slots ({} : DesignRules)) := new_of rfl
theorem C69_Attributes : New k!"Attributes" (HasSlots.slots ({} : Attributes)) := new_of rfl
theorem C69_Model : New k!"Model" (HasSlots.slots ({} : Model)) := new_of rfl
theorem C69_DrillDefinition : New k!"DrillDefinition" (HasSlots.slots ({} : DrillDefinition)) := new_of rfl
theorem C69_PadOptions : New k!"PadOptions" (HasSlots.slots ({} : PadOptions)) := new_of rfl
theorem C69_Pad : New k!"Pad" (HasSlots.slots ({} : Pad)) := new_of rfl
theorem C69_GeneralSettings : New k!"GeneralSettings" (HasSlots.slots ({} : GeneralSettings)) := new_of rfl
theorem C69_LayerToken : New k!"LayerToken" (HasSlots.slots ({} : LayerToken)) := new_of rfl
theorem C69_StackupSubLayer : New k!"StackupSubLayer" (HasSlots.slots ({} : StackupSubLayer)) := new_of rfl
theorem C69_StackupLayer : New k!"StackupLayer" (HasSlots.slots ({} : StackupLayer)) := new_of rfl
theorem C69_Stackup : New k!"Stackup" (HasSlots.slots ({} : Stackup)) := new_of rfl
theorem C69_PlotSettings : New k!"PlotSettings" (HasSlots.slots ({} : PlotSettings)) := new_of rfl
theorem C69_SetupData : New k!"SetupData" (HasSlots.slots ({} : SetupData)) := new_of rfl
theorem C69_Segment : New k!"Segment" (HasSlots.slots ({} : Segment)) := new_of rfl
theorem C69_Via : New k!"Via" (HasSlots.slots ({} : Via)) := new_of rfl
theorem C69_Arc : New k!"Arc" (HasSlots.slots ({} : TraceArc)) := new_of rfl
theorem C69_Target : New k!"Target" (HasSlots.slots ({} : Target)) := new_of rfl
theorem C69_Position : New k!"Position" (HasSlots.slots ({} : Position)) := new_of rfl
theorem C69_Coordinate : New k!"Coordinate" (HasSlots.slots ({} : Coordinate)) := new_of rfl
theorem C69_ColorRGBA : New k!"ColorRGBA" (HasSlots.slots ({} : ColorRGBA)) := new_of rfl
theorem C69_Stroke : New k!"Stroke" (HasSlots.slots ({} : Stroke)) := new_of rfl
theorem C69_Font : New k!"Font" (HasSlots.slots ({} : Font)) := new_of rfl
theorem C69_Justify : New k!"Justify" (HasSlots.slots ({} : Justify)) := new_of rfl
theorem C69_Effects : New k!"Effects" (HasSlots.slots ({} : Effects)) := new_of rfl
theorem C69_Net : New k!"Net" (HasSlots.slots ({} : Net)) := new_of rfl
theorem C69_Group : New k!"Group" (HasSlots.slots ({} : Group)) := new_of rfl
theorem C69_PageSettings : New k!"PageSettings" (HasSlots.slots ({} : PageSettings)) := new_of rfl
theorem C69_TitleBlock : New k!"TitleBlock" (HasSlots.slots ({} : TitleBlock)) := new_of rfl
theorem C69_Property : New k!"Property" (HasSlots.slots ({} : Property)) := new_of rfl
theorem C69_RenderCachePolygon : New k!"RenderCachePolygon" (HasSlots.slots ({} : RenderCachePolygon)) := new_of rfl
theorem C69_RenderCache : New k!"RenderCache" (HasSlots.slots ({} : RenderCache)) := new_of rfl
theorem C69_Fill : New k!"Fill" (HasSlots.slots ({} : Fill)) := new_of rfl
theorem C69_Image : New k!"Image" (HasSlots.slots ({} : Image)) := new_of rfl
theorem C69_DimensionFormat : New k!"DimensionFormat" (HasSlots.slots ({} : DimensionFormat)) := new_of rfl
theorem C69_DimensionStyle : New k!"DimensionStyle" (HasSlots.slots ({} : DimensionStyle)) := new_of rfl
theorem C69_Dimension : New k!"Dimension" (HasSlots.slots ({} : Dimension)) := new_of rfl
theorem C69_FpText : New k!"FpText" (HasSlots.slots ({} : FpText)) := new_of rfl
theorem C69_FpLine : New k!"FpLine" (HasSlots.slots ({} : FpLine)) := new_of rfl
theorem C69_FpRect : New k!"FpRect" (HasSlots.slots ({} : FpRect)) := new_of rfl
theorem C69_FpTextBox : New k!"FpTextBox" (HasSlots.slots ({} : FpTextBox)) := new_of rfl
theorem C69_FpCircle : New k!"FpCircle" (HasSlots.slots ({} : FpCircle)) := new_of rfl
theorem C69_FpArc : New k!"FpArc" (HasSlots.slots ({} : FpArc)) := new_of rfl
theorem C69_FpPoly : New k!"FpPoly" (HasSlots.slots ({} : FpPoly)) := new_of rfl
theorem C69_FpCurve : New k!"FpCurve" (HasSlots.slots ({} : FpCurve)) := new_of rfl
theorem C69_GrText : New k!"GrText" (HasSlots.slots ({} : GrText)) := new_of rfl
theorem C69_GrTextBox : New k!"GrTextBox" (HasSlots.slots ({} : GrTextBox)) := new_of rfl
theorem C69_GrLine : New k!"GrLine" (HasSlots.slots ({} : GrLine)) := new_of rfl
theorem C69_GrRect : New k!"GrRect" (HasSlots.slots ({} : GrRect)) := new_of rfl
theorem C69_GrCircle : New k!"GrCircle" (HasSlots.slots ({} : GrCircle)) := new_of rfl
theorem C69_GrArc : New k!"GrArc" (HasSlots.slots ({} : GrArc)) := new_of rfl
theorem C69_GrPoly : New k!"GrPoly" (HasSlots.slots ({} : GrPoly)) := new_of rfl
theorem C69_GrCurve : New k!"GrCurve" (HasSlots.slots ({} : GrCurve)) := new_of rfl
theorem C69_Junction : New k!"Junction" (HasSlots.slots ({} : Junction)) := new_of rfl
theorem C69_NoConnect : New k!"NoConnect" (HasSlots.slots ({} : NoConnect)) := new_of rfl
theorem C69_BusEntry : New k!"BusEntry" (HasSlots.slots ({} : BusEntry)) := new_of rfl
theorem C69_BusAlias : New k!"BusAlias" (HasSlots.slots ({} : BusAlias)) := new_of rfl
theorem C69_Connection : New k!"Connection" (HasSlots.slots ({} : Connection)) := new_of rfl
theorem C69_PolyLine : New k!"PolyLine" (HasSlots.slots ({} : PolyLine)) := new_of rfl
theorem C69_Text : New k!"Text" (HasSlots.slots ({} : Text)) := new_of rfl
theorem C69_TextBox : New k!"TextBox" (HasSlots.slots ({} : TextBox)) := new_of rfl
theorem C69_LocalLabel : New k!"LocalLabel" (HasSlots.slots ({} : LocalLabel)) := new_of rfl
theorem C69_GlobalLabel : New k!"GlobalLabel" (HasSlots.slots ({} : GlobalLabel)) := new_of rfl
theorem C69_HierarchicalLabel : New k!"HierarchicalLabel" (HasSlots.slots ({} : HierarchicalLabel)) := new_of rfl
theorem C69_SymbolProjectPath : New k!"SymbolProjectPath" (HasSlots.slots ({} : SymbolProjectPath)) := new_of rfl
theorem C69_SymbolProjectInstance : New k!"SymbolProjectInstance" (HasSlots.slots ({} : SymbolProjectInstance)) := new_of rfl
theorem C69_SchematicSymbol : New k!"SchematicSymbol" (HasSlots.slots ({} : SchematicSymbol)) := new_of rfl
theorem C69_HierarchicalPin : New k!"HierarchicalPin" (HasSlots.slots ({} : HierarchicalPin)) := new_of rfl
theorem C69_HierarchicalSheetProjectPath : New k!"HierarchicalSheetProjectPath" (HasSlots.slots ({} : HierarchicalSheetProjectPath)) := new_of rfl
theorem C69_HierarchicalSheetProjectInstance : New k!"HierarchicalSheetProjectInstance" (HasSlots.slots ({} : HierarchicalSheetProjectInstance)) := new_of rfl
theorem C69_HierarchicalSheet : New k!"HierarchicalSheet" (HasSlots.slots ({} : HierarchicalSheet)) := new_of rfl
theorem C69_HierarchicalSheetInstance : New k!"HierarchicalSheetInstance" (HasSlots.slots ({} : HierarchicalSheetInstance)) := new_of rfl
theorem C69_SymbolInstance : New k!"SymbolInstance" (HasSlots.slots ({} : SymbolInstance)) := new_of rfl
theorem C69_Rectangle : New k!"Rectangle" (HasSlots.slots ({} : Rectangle)) := new_of rfl
theorem C69_SchArc : New k!"schitems.Arc" (HasSlots.slots ({} : Arc)) := new_of rfl
theorem C69_Circle : New k!"Circle" (HasSlots.slots ({} : Circle)) := new_of rfl
theorem C69_SyArc : New k!"SyArc" (HasSlots.slots ({} : SyArc)) := new_of rfl
theorem C69_SyCircle : New k!"SyCircle" (HasSlots.slots ({} : SyCircle)) := new_of rfl
theorem C69_SyCurve : New k!"SyCurve" (HasSlots.slots ({} : SyCurve)) := new_of rfl
theorem C69_SyPolyLine : New k!"SyPolyLine" (HasSlots.slots ({} : SyPolyLine)) := new_of rfl
theorem C69_SyRect : New k!"SyRect" (HasSlots.slots ({} : SyRect)) := new_of rfl
theorem C69_SyText : New k!"SyText" (HasSlots.slots ({} : SyText)) := new_of rfl
theorem C69_SyTextBox : New k!"SyTextBox" (HasSlots.slots ({} : SyTextBox)) := new_of rfl
theorem C69_KeepoutSettings : New k!"KeepoutSettings" (HasSlots.slots ({} : KeepoutSettings)) := new_of rfl
theorem C69_FillSettings : New k!"FillSettings" (HasSlots.slots ({} : FillSettings)) := new_of rfl
theorem C69_ZonePolygon : New k!"ZonePolygon" (HasSlots.slots ({} : ZonePolygon)) := new_of rfl
theorem C69_FilledPolygon : New k!"FilledPolygon" (HasSlots.slots ({} : FilledPolygon)) := new_of rfl
theorem C69_FillSegments : New k!"FillSegments" (HasSlots.slots ({} : FillSegments)) := new_of rfl
theorem C69_Hatch : New k!"Hatch" (HasSlots.slots ({} : Hatch)) := new_of rfl
theorem C69_Zone : New k!"Zone" (HasSlots.slots ({} : Zone)) := new_of rfl
theorem C69_Library : New k!"Library" (HasSlots.slots ({} : Library)) := new_of rfl
theorem C69_LibTable : New k!"LibTable" (HasSlots.slots ({} : LibTable)) := new_of rfl
theorem C69_Schematic : New k!"Schematic" (HasSlots.slots ({} : Schematic)) := new_of rfl
theorem C69_SymbolAlternativePin : New k!"SymbolAlternativePin" (HasSlots.slots ({} : SymbolAlternativePin)) := new_of rfl
theorem C69_SymbolPin : New k!"SymbolPin" (HasSlots.slots ({} : SymbolPin)) := new_of rfl
theorem C69_Symbol : New k!"Symbol" (HasSlots.slots ({} : Symbol)) := new_of rfl
theorem C69_SymbolLib : New k!"SymbolLib" (HasSlots.slots ({} : SymbolLib)) := new_of rfl
theorem C69_WksFontSize : New k!"WksFontSize" (HasSlots.slots ({} : WksFontSize)) := new_of rfl
theorem C69_WksFont : New k!"WksFont" (HasSlots.slots ({} : WksFont)) := new_of rfl
theorem C69_WksPosition : New k!"WksPosition" (HasSlots.slots ({} : WksPosition)) := new_of rfl
theorem C69_Line : New k!"Line" (HasSlots.slots ({} : WksShape)) := new_of rfl
theorem C69_Rect : New k!"Rect" (HasSlots.slots ({} : WksShape)) := new_of rfl
theorem C69_Bitmap : New k!"Bitmap" (HasSlots.slots ({} : Bitmap)) := new_of rfl
theorem C69_TbText : New k!"TbText" (HasSlots.slots ({} : TbText)) := new_of rfl
theorem C69_TextSize : New k!"TextSize" (HasSlots.slots ({} : TextSize)) := new_of rfl
theorem C69_Setup : New k!"Setup" (HasSlots.slots ({} : Setup)) := new_of rfl
theorem C69_WorkSheet : New k!"WorkSheet" (HasSlots.slots ({} : WorkSheet)) := new_of rfl

/-- The time stamp is the text of an expression, which is evaluated when the module is imported (C52). -/
theorem C69_Footprint (t : Str) : ∃ slots, New k!"Footprint" slots ∧
    slots.map (fun s => if s.1 = k!"tedit" then (s.1, .const (quoted t)) else s) = HasSlots.slots ({ tedit := .str t } : Footprint) :=
  ⟨_, new_of rfl, rfl⟩

/-- Polygons of drawing sheets can be made, though neither read nor written. -/
theorem C69_Polygon : New k!"Polygon" [(k!"name", .const (quoted [])), (k!"position", shape ({} : WksPosition)), (k!"option", .const k!"None"),
    (k!"rotate", .const k!"None"), (k!"coordinates", .obj k!"list" []), (k!"repeat", .const k!"None"), (k!"incrx", .const k!"None"),
    (k!"incry", .const k!"None"), (k!"comment", .const k!"None")] := new_of rfl

end Kiutils.Objects
