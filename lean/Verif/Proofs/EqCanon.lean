import Verif.Props.Inject
import Verif.Props.FileFormat
import Verif.Props.Samples
import Verif.Proofs.SameTree
/-!
# Lemmas for C77: equal objects have the same `canon`
-/
namespace Kiutils

/-- Objects that are equal have the same `canon`. -/
class EqCanon (α : Type) [Canon α] [PyEq α] : Prop where
  eqCanon : ∀ {a b : α}, PyEq.eq a b → canon a = canon b

export EqCanon (eqCanon)

theorem Val.canon_of_value {neg : Bool} {man : Nat} {exp : Int} {n : Int}
    (h : (if neg then -(F64.num man exp : Int) else F64.num man exp) = n * F64.den exp) : Val.canon (.flt (.fin neg man exp)) = .int n := by
  have key : (F64.num man exp : Int) = (if neg then -n else n) * F64.den exp := by
    cases neg
    · simpa using h
    · simp only [if_true] at h ⊢
      rw [Int.neg_mul, ← h, Int.neg_neg]
  have hf : (F64.fin neg man exp).isInteger = true ∧ (F64.fin neg man exp).toInt = n := by
    unfold F64.isInteger F64.toInt
    unfold F64.num F64.den at key
    by_cases he : 0 ≤ exp
    · simp only [he, if_true, decide_true, Bool.true_or] at key ⊢
      refine ⟨trivial, ?_⟩
      rw [show ((man * 2 ^ exp.toNat : Nat) : Int) = (if neg then -n else n) from by simpa using key]
      cases neg <;> simp
    · simp only [he, if_false, decide_false, Bool.false_or] at key ⊢
      have hd : (2 ^ (-exp).toNat : Nat) ∣ man := by
        have : ((2 ^ (-exp).toNat : Nat) : Int) ∣ (man : Int) := ⟨_, by rw [Int.mul_comm]; exact_mod_cast key⟩
        exact_mod_cast this
      refine ⟨by simpa using Nat.mod_eq_zero_of_dvd hd, ?_⟩
      have hq : ((man / 2 ^ (-exp).toNat : Nat) : Int) = (if neg then -n else n) := by
        have hp : (0 : Int) < ((2 ^ (-exp).toNat : Nat) : Int) := by positivity
        rw [Int.natCast_div]
        rw [show (man : Int) = _ from key]
        exact Int.mul_ediv_cancel _ (Int.ne_of_gt hp)
      rw [hq]
      cases neg <;> simp
  show (if (F64.fin neg man exp).isInteger then Val.int (F64.fin neg man exp).toInt else _) = _
  rw [hf.1, hf.2]
  rfl

instance : EqCanon Val := ⟨fun h => by
  cases h with
  | same => rfl
  | value neg man exp n h => exact Val.canon_of_value h⟩
instance : EqCanon Bool := ⟨fun h => h⟩
instance : EqCanon Nat := ⟨fun h => h⟩
instance : EqCanon Str := ⟨fun h => h⟩
instance {α} [Canon α] [PyEq α] [EqCanon α] : EqCanon (Option α) := ⟨fun {a b} h => by
  cases a with
  | none => cases b with
    | none => rfl
    | some b => exact False.elim h
  | some a => cases b with
    | none => exact False.elim h
    | some b => exact congrArg some (eqCanon (show PyEq.eq a b from h))⟩
theorem eqCanon_list {α : Type} [Canon α] {R : α → α → Prop} {l m : List α} (h : ListRel R l m) (hR : ∀ a ∈ l, ∀ b, R a b → canon a = canon b) :
    l.map canon = m.map canon := by
  induction h with
  | nil => rfl
  | cons h _ ih =>
    rw [List.map_cons, List.map_cons, hR _ (List.mem_cons_self ..) _ h, ih fun a ha => hR a (List.mem_cons_of_mem _ ha)]
instance {α} [Canon α] [PyEq α] [EqCanon α] : EqCanon (List α) := ⟨fun h => eqCanon_list h fun _ _ _ h => eqCanon h⟩
instance {α β} [Canon α] [PyEq α] [EqCanon α] [Canon β] [PyEq β] [EqCanon β] : EqCanon (α × β) :=
  ⟨fun h => Prod.ext (eqCanon h.1) (eqCanon h.2)⟩

open Lean Elab Command in
/-- Proves `EqCanon` for a structure. -/
elab "derive_eqcanon " n:ident : command => do
  let name ← liftCoreM <| realizeGlobalConstNoOverload n
  let env ← getEnv
  let fields := getStructureFields env name
  let h := mkIdent `h
  let l ← fields.mapM fun f => do
    let v := mkIdent (`a ++ f)
    `(Canon.canon $v)
  let r ← fields.mapM fun f => do
    let v := mkIdent (`b ++ f)
    `(Canon.canon $v)
  let ctor := mkIdent (name ++ `mk)
  let mut cur ← `($h)
  let mut eqs := #[]
  for f in fields do
    let va := mkIdent (`a ++ f)
    let vb := mkIdent (`b ++ f)
    eqs := eqs.push (← `(Parser.Tactic.rwRule| (show Canon.canon $va = Canon.canon $vb from EqCanon.eqCanon (And.left $cur))))
    cur ← `(And.right $cur)
  let a := mkIdent `a
  let b := mkIdent `b
  elabCommand (← `(instance : EqCanon $n := ⟨fun {$a $b} $h => by
    show $ctor $l* = $ctor $r*
    rw [$eqs,*]⟩))

derive_eqcanon Position
derive_eqcanon Coordinate
derive_eqcanon ColorRGBA
derive_eqcanon Stroke
derive_eqcanon Font
derive_eqcanon Justify
derive_eqcanon Effects
derive_eqcanon Net
derive_eqcanon Group
derive_eqcanon PageSettings
derive_eqcanon TitleBlock
derive_eqcanon Property
derive_eqcanon RenderCachePolygon
derive_eqcanon RenderCache
derive_eqcanon Fill
derive_eqcanon Image
derive_eqcanon Library
derive_eqcanon LibTable
derive_eqcanon Constraint
derive_eqcanon Rule
derive_eqcanon DesignRules
derive_eqcanon WksFontSize
derive_eqcanon WksFont
derive_eqcanon WksPosition
derive_eqcanon WksShape
derive_eqcanon Bitmap
derive_eqcanon TbText
derive_eqcanon TextSize
derive_eqcanon Setup
instance : EqCanon WksItem := ⟨fun {a b} h => by
  cases a <;> cases b <;> first | exact False.elim h | rfl | exact congrArg WksItem.line (eqCanon h) | exact congrArg WksItem.rect (eqCanon h) | exact congrArg WksItem.bitmap (eqCanon h) | exact congrArg WksItem.tbtext (eqCanon h)⟩
derive_eqcanon WorkSheet
derive_eqcanon SyArc
derive_eqcanon SyCircle
derive_eqcanon SyCurve
derive_eqcanon SyPolyLine
derive_eqcanon SyRect
derive_eqcanon SyText
derive_eqcanon SyTextBox
instance : EqCanon SyItem := ⟨fun {a b} h => by
  cases a <;> cases b <;> first | exact False.elim h | rfl | exact congrArg SyItem.arc (eqCanon h) | exact congrArg SyItem.circle (eqCanon h) | exact congrArg SyItem.curve (eqCanon h) | exact congrArg SyItem.polyline (eqCanon h) | exact congrArg SyItem.rect (eqCanon h) | exact congrArg SyItem.text (eqCanon h) | exact congrArg SyItem.textBox (eqCanon h)⟩
derive_eqcanon SymbolAlternativePin
derive_eqcanon SymbolPin

theorem Symbol.eqCanonS : ∀ {o p : Symbol}, Symbol.Eq o p → Symbol.canonS o = Symbol.canonS p
  | ⟨a, b, c, d, e, f, g, h, i, j, k, l, m, n, p, us⟩, ⟨a', b', c', d', e', f', g', h', i', j', k', l', m', n', p', us'⟩, hE => by
    cases hE with
    | mk _ _ fields units =>
      obtain ⟨h1, h2, h3, h4, h5, h6, h7, h8, h9, h10, h11, h12, h13, h14, h15⟩ := fields
      have hu : Symbol.canonL us = Symbol.canonL us' := by
        rw [Symbol.canonL_map, Symbol.canonL_map]
        exact eqCanon_list (R := Symbol.Eq) units fun x _ y hxy => Symbol.eqCanonS hxy
      have e1 := eqCanon h1; have e2 := eqCanon h2; have e3 := eqCanon h3; have e4 := eqCanon h4; have e5 := eqCanon h5
      have e6 : f = f' := h6; have e7 : g = g' := h7; have e8 : h = h' := h8; have e9 := eqCanon h9; have e10 := eqCanon h10
      have e11 := eqCanon h11; have e12 : l = l' := h12; have e13 := eqCanon h13; have e14 := eqCanon h14; have e15 := eqCanon h15
      simp only [Symbol.canonS]
      simp only at e1 e2 e3 e4 e5 e9 e10 e11 e13 e14 e15
      rw [e1, e2, e3, e4, e5, e6, e7, e8, e9, e10, e11, e12, e13, e14, e15, hu]

instance : EqCanon Symbol := ⟨Symbol.eqCanonS⟩
derive_eqcanon SymbolLib
instance : EqCanon JunctionColor := ⟨fun {a b} h => by
  cases a <;> cases b <;> first | exact False.elim h | rfl | exact congrArg JunctionColor.rgba (eqCanon h) | exact congrArg JunctionColor.raw (eqCanon h)⟩
derive_eqcanon Junction
derive_eqcanon NoConnect
derive_eqcanon BusEntry
derive_eqcanon BusAlias
derive_eqcanon Connection
derive_eqcanon PolyLine
derive_eqcanon Text
derive_eqcanon TextBox
derive_eqcanon LocalLabel
derive_eqcanon GlobalLabel
derive_eqcanon HierarchicalLabel
derive_eqcanon SymbolProjectPath
derive_eqcanon SymbolProjectInstance
derive_eqcanon SchematicSymbol
derive_eqcanon HierarchicalPin
derive_eqcanon HierarchicalSheetProjectPath
derive_eqcanon HierarchicalSheetProjectInstance
derive_eqcanon HierarchicalSheet
derive_eqcanon HierarchicalSheetInstance
derive_eqcanon SymbolInstance
derive_eqcanon Rectangle
derive_eqcanon Arc
derive_eqcanon Circle
derive_eqcanon NetclassFlag
instance : EqCanon SchGraphic := ⟨fun {a b} h => by
  cases a <;> cases b <;> first | exact False.elim h | rfl | exact congrArg SchGraphic.connection (eqCanon h) | exact congrArg SchGraphic.polyline (eqCanon h)⟩
instance : EqCanon SchShape := ⟨fun {a b} h => by
  cases a <;> cases b <;> first | exact False.elim h | rfl | exact congrArg SchShape.arc (eqCanon h) | exact congrArg SchShape.circle (eqCanon h) | exact congrArg SchShape.rectangle (eqCanon h)⟩
derive_eqcanon Schematic
derive_eqcanon GrText
derive_eqcanon GrTextBox
derive_eqcanon GrLine
derive_eqcanon GrRect
derive_eqcanon GrCircle
derive_eqcanon GrArc
derive_eqcanon GrPoly
derive_eqcanon GrCurve
instance : EqCanon GrItem := ⟨fun {a b} h => by
  cases a <;> cases b <;> first | exact False.elim h | rfl | exact congrArg GrItem.text (eqCanon h) | exact congrArg GrItem.textBox (eqCanon h) | exact congrArg GrItem.line (eqCanon h) | exact congrArg GrItem.rect (eqCanon h) | exact congrArg GrItem.circle (eqCanon h) | exact congrArg GrItem.arc (eqCanon h) | exact congrArg GrItem.poly (eqCanon h) | exact congrArg GrItem.curve (eqCanon h) | exact congrArg GrItem.image (eqCanon h)⟩
derive_eqcanon FpText
derive_eqcanon FpLine
derive_eqcanon FpRect
derive_eqcanon FpTextBox
derive_eqcanon FpCircle
derive_eqcanon FpArc
derive_eqcanon FpPoly
derive_eqcanon FpCurve
instance : EqCanon FpItem := ⟨fun {a b} h => by
  cases a <;> cases b <;> first | exact False.elim h | rfl | exact congrArg FpItem.text (eqCanon h) | exact congrArg FpItem.textBox (eqCanon h) | exact congrArg FpItem.line (eqCanon h) | exact congrArg FpItem.rect (eqCanon h) | exact congrArg FpItem.circle (eqCanon h) | exact congrArg FpItem.arc (eqCanon h) | exact congrArg FpItem.poly (eqCanon h) | exact congrArg FpItem.curve (eqCanon h) | exact congrArg FpItem.image (eqCanon h)⟩
derive_eqcanon KeepoutSettings
derive_eqcanon FillSettings
derive_eqcanon ZonePolygon
derive_eqcanon FilledPolygon
derive_eqcanon FillSegments
derive_eqcanon Hatch
derive_eqcanon Zone
derive_eqcanon Attributes
derive_eqcanon Model
derive_eqcanon DrillDefinition
derive_eqcanon PadOptions
derive_eqcanon Pad
derive_eqcanon Footprint
derive_eqcanon GeneralSettings
derive_eqcanon LayerToken
derive_eqcanon StackupSubLayer
derive_eqcanon StackupLayer
derive_eqcanon Stackup
derive_eqcanon PlotSettings
derive_eqcanon SetupData
derive_eqcanon Segment
derive_eqcanon Via
derive_eqcanon TraceArc
derive_eqcanon Target
derive_eqcanon DimensionFormat
derive_eqcanon DimensionStyle
derive_eqcanon Dimension
instance : EqCanon TraceItem := ⟨fun {a b} h => by
  cases a <;> cases b <;> first | exact False.elim h | rfl | exact congrArg TraceItem.segment (eqCanon h) | exact congrArg TraceItem.arc (eqCanon h) | exact congrArg TraceItem.via (eqCanon h)⟩
derive_eqcanon Board

theorem Alike.canon {α : Type} [Canon α] [PyEq α] [EqCanon α] {a b : α} (h : Alike a b) : canon a = canon b := by
  obtain ⟨c, h1, h2⟩ := h
  exact (eqCanon h1).trans (eqCanon h2).symm

end Kiutils
