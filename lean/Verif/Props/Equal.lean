import Verif.Model.Board
import Verif.Model.Schematic
import Verif.Model.Wks
import Verif.Model.Dru
import Verif.Model.Libraries
/-!
# What it means that a loaded object equals the saved one

`PyEq.eq a b` is the specification of Python's `a == b` used by the round-trip theorems: two dataclass objects are equal if they
are of the same class and all fields are equal; lists are equal if they have the same length and equal elements in the same
order; numbers are equal if they have the same value, so the float `1.0` equals the int `1`.

Everything else in this file shows that `canon`, by which the round-trip lemmas are stated, only produces equal objects.
-/
namespace Kiutils

/-- Python's `==` of two values: they are identical, or a float and an int with the same value `± man * 2^exp = n`. (This is
contained in Python's `==`, which also equates `-0.0` with `0.0` and an int with the float of the same value.) -/
inductive Val.Eq : Val → Val → Prop
  | same (v : Val) : Val.Eq v v
  | value (neg : Bool) (man : Nat) (exp : Int) (n : Int)
      (h : (if neg then -(F64.num man exp : Int) else F64.num man exp) = n * F64.den exp) : Val.Eq (.flt (.fin neg man exp)) (.int n)

/-- Two lists of the same length with related elements. -/
inductive ListRel {α : Type} (R : α → α → Prop) : List α → List α → Prop
  | nil : ListRel R [] []
  | cons {a b : α} {l m : List α} (h : R a b) (t : ListRel R l m) : ListRel R (a :: l) (b :: m)

/-- Python's `==` -/
class PyEq (α : Type) where
  eq : α → α → Prop

instance : PyEq Val := ⟨Val.Eq⟩
instance : PyEq Bool := ⟨fun a b => a = b⟩
instance : PyEq Nat := ⟨fun a b => a = b⟩
instance : PyEq Str := ⟨fun a b => a = b⟩
instance {α} [PyEq α] : PyEq (Option α) := ⟨fun
  | none, none => True
  | some a, some b => PyEq.eq a b
  | _, _ => False⟩
instance {α} [PyEq α] : PyEq (List α) := ⟨ListRel PyEq.eq⟩
instance {α β} [PyEq α] [PyEq β] : PyEq (α × β) := ⟨fun p q => PyEq.eq p.1 q.1 ∧ PyEq.eq p.2 q.2⟩

/-- `canon` only replaces parts of an object by equal ones. -/
class CanonEq (α : Type) [Canon α] [PyEq α] : Prop where
  canonEq : ∀ a : α, PyEq.eq a (canon a)

export CanonEq (canonEq)

theorem ListRel.map {α : Type} {R : α → α → Prop} {f : α → α} (l : List α) (h : ∀ x ∈ l, R x (f x)) : ListRel R l (l.map f) := by
  induction l with
  | nil => exact .nil
  | cons a l ih => exact .cons (h a (by simp)) (ih fun x hx => h x (by simp [hx]))

theorem Val.canonEq (v : Val) : Val.Eq v v.canon := by
  cases v with
  | flt f =>
    show Val.Eq (.flt f) (if f.isInteger then .int f.toInt else .flt f)
    split
    · rename_i hf
      cases f with
      | inf neg => exact Bool.noConfusion hf
      | fin neg m e =>
        refine .value neg m e _ ?_
        have key : (F64.num m e : Int) = ((if 0 ≤ e then m * 2 ^ e.toNat else m / 2 ^ (-e).toNat : Nat) : Int) * F64.den e := by
          unfold F64.num F64.den
          by_cases he : 0 ≤ e
          · simp [he]
          · simp only [F64.isInteger, he, decide_false, Bool.false_or, decide_eq_true_eq] at hf
            simp only [he, if_false]
            exact_mod_cast (Nat.div_mul_cancel (Nat.dvd_of_mod_eq_zero hf)).symm
        unfold F64.toInt
        cases neg
        · simpa using key
        · simp only [if_true]
          rw [Int.neg_mul, key]
    · exact .same _
  | _ => exact .same _

instance : CanonEq Val := ⟨Val.canonEq⟩
instance : CanonEq Bool := ⟨fun _ => rfl⟩
instance : CanonEq Nat := ⟨fun _ => rfl⟩
instance : CanonEq Str := ⟨fun _ => rfl⟩
instance {α} [Canon α] [PyEq α] [CanonEq α] : CanonEq (Option α) := ⟨fun
  | none => trivial
  | some a => (canonEq a :)⟩
instance {α} [Canon α] [PyEq α] [CanonEq α] : CanonEq (List α) := ⟨fun l => ListRel.map l fun x _ => canonEq x⟩
instance {α β} [Canon α] [PyEq α] [CanonEq α] [Canon β] [PyEq β] [CanonEq β] : CanonEq (α × β) :=
  ⟨fun p => ⟨canonEq p.1, canonEq p.2⟩⟩

open Lean Elab Command in
/-- Defines the equality of two objects of a class as the equality of all their fields, and proves that `canon` respects it. -/
elab "derive_pyeq " n:ident : command => do
  let name ← liftCoreM <| realizeGlobalConstNoOverload n
  let env ← getEnv
  let fields := getStructureFields env name
  let a := mkIdent `a
  let b := mkIdent `b
  let mut t ← `(True)
  let mut p ← `(trivial)
  for f in fields.reverse do
    let va := mkIdent (`a ++ f)
    let vb := mkIdent (`b ++ f)
    t ← `(PyEq.eq $va $vb ∧ $t)
    p ← `(And.intro (CanonEq.canonEq $va) $p)
  elabCommand (← `(instance : PyEq $n := ⟨fun $a $b => $t⟩))
  elabCommand (← `(instance : CanonEq $n := ⟨fun $a => $p⟩))

/-! Non-trivial cases of the specification: the float 3.0 equals the int 3, but 2.54 does not equal 2, and "3" does not. -/
example : Val.Eq (.flt (F64.ofDecimal false k!"3" k!"0")) (.int 3) := .value _ _ _ _ (by decide)
example : ¬ Val.Eq (.flt (F64.ofDecimal false k!"2" k!"54")) (.int 2) := by
  have : F64.ofDecimal false k!"2" k!"54" = .fin false 5719571526760530 (-51) := by decide
  rw [this]
  intro h; cases h with | value _ _ _ _ h => exact absurd h (by decide)
example : ¬ Val.Eq (.str k!"3") (.int 3) := by intro h; cases h

derive_pyeq Position
derive_pyeq Coordinate
derive_pyeq ColorRGBA
derive_pyeq Stroke
derive_pyeq Font
derive_pyeq Justify
derive_pyeq Effects
derive_pyeq Net
derive_pyeq Group
derive_pyeq PageSettings
derive_pyeq TitleBlock
derive_pyeq Property
derive_pyeq RenderCachePolygon
derive_pyeq RenderCache
derive_pyeq Fill
derive_pyeq Image
derive_pyeq Library
derive_pyeq LibTable
derive_pyeq Constraint
derive_pyeq Rule
derive_pyeq DesignRules
derive_pyeq WksFontSize
derive_pyeq WksFont
derive_pyeq WksPosition
derive_pyeq WksShape
derive_pyeq Bitmap
derive_pyeq TbText
derive_pyeq TextSize
derive_pyeq Setup
/-- Objects of the same class with equal fields. -/
instance : PyEq WksItem := ⟨fun
  | .line a, .line b => PyEq.eq a b
  | .rect a, .rect b => PyEq.eq a b
  | .polygon, .polygon => True
  | .bitmap a, .bitmap b => PyEq.eq a b
  | .tbtext a, .tbtext b => PyEq.eq a b
  | _, _ => False⟩
instance : CanonEq WksItem := ⟨fun
  | .line a => (canonEq a :)
  | .rect a => (canonEq a :)
  | .polygon => trivial
  | .bitmap a => (canonEq a :)
  | .tbtext a => (canonEq a :)⟩
derive_pyeq WorkSheet
derive_pyeq SyArc
derive_pyeq SyCircle
derive_pyeq SyCurve
derive_pyeq SyPolyLine
derive_pyeq SyRect
derive_pyeq SyText
derive_pyeq SyTextBox
/-- Objects of the same class with equal fields. -/
instance : PyEq SyItem := ⟨fun
  | .arc a, .arc b => PyEq.eq a b
  | .circle a, .circle b => PyEq.eq a b
  | .curve a, .curve b => PyEq.eq a b
  | .polyline a, .polyline b => PyEq.eq a b
  | .rect a, .rect b => PyEq.eq a b
  | .text a, .text b => PyEq.eq a b
  | .textBox a, .textBox b => PyEq.eq a b
  | _, _ => False⟩
instance : CanonEq SyItem := ⟨fun
  | .arc a => (canonEq a :)
  | .circle a => (canonEq a :)
  | .curve a => (canonEq a :)
  | .polyline a => (canonEq a :)
  | .rect a => (canonEq a :)
  | .text a => (canonEq a :)
  | .textBox a => (canonEq a :)⟩
derive_pyeq SymbolAlternativePin
derive_pyeq SymbolPin
/-- Symbols with equal fields and, one by one, equal units. -/
inductive Symbol.Eq : Symbol → Symbol → Prop
  | mk (a b : Symbol)
    (fields : PyEq.eq a.libraryNickname b.libraryNickname ∧
      PyEq.eq a.entryName b.entryName ∧
      PyEq.eq a.unitId b.unitId ∧
      PyEq.eq a.styleId b.styleId ∧
      PyEq.eq a.extends_ b.extends_ ∧
      PyEq.eq a.hidePinNumbers b.hidePinNumbers ∧
      PyEq.eq a.pinNames b.pinNames ∧
      PyEq.eq a.pinNamesHide b.pinNamesHide ∧
      PyEq.eq a.pinNamesOffset b.pinNamesOffset ∧
      PyEq.eq a.inBom b.inBom ∧
      PyEq.eq a.onBoard b.onBoard ∧
      PyEq.eq a.isPower b.isPower ∧
      PyEq.eq a.properties b.properties ∧
      PyEq.eq a.graphicItems b.graphicItems ∧
      PyEq.eq a.pins b.pins)
    (units : ListRel Symbol.Eq a.units b.units) : Symbol.Eq a b

instance : PyEq Symbol := ⟨Symbol.Eq⟩

theorem Symbol.canonL_map (l : List Symbol) : Symbol.canonL l = l.map Symbol.canonS := by
  induction l with
  | nil => rfl
  | cons a l ih => rw [Symbol.canonL, ih]; rfl

theorem Symbol.canonEqS : ∀ o : Symbol, Symbol.Eq o o.canonS
  | ⟨a, b, c, d, e, f, g, h, i, j, k, l, m, n, p, us⟩ => by
    refine .mk _ _ ?_ ?_
    · exact ⟨canonEq a, canonEq b, canonEq c, canonEq d, canonEq e, canonEq f, canonEq g, canonEq h, canonEq i, canonEq j,
        canonEq k, canonEq l, canonEq m, canonEq n, canonEq p⟩
    · show ListRel Symbol.Eq us (Symbol.canonL us)
      rw [Symbol.canonL_map]
      exact ListRel.map _ fun x _ => Symbol.canonEqS x

instance : CanonEq Symbol := ⟨Symbol.canonEqS⟩
derive_pyeq SymbolLib
/-- Objects of the same class with equal fields. -/
instance : PyEq JunctionColor := ⟨fun
  | .rgba a, .rgba b => PyEq.eq a b
  | .raw a, .raw b => PyEq.eq a b
  | _, _ => False⟩
instance : CanonEq JunctionColor := ⟨fun
  | .rgba a => (canonEq a :)
  | .raw a => (canonEq a :)⟩
derive_pyeq Junction
derive_pyeq NoConnect
derive_pyeq BusEntry
derive_pyeq BusAlias
derive_pyeq Connection
derive_pyeq PolyLine
derive_pyeq Text
derive_pyeq TextBox
derive_pyeq LocalLabel
derive_pyeq GlobalLabel
derive_pyeq HierarchicalLabel
derive_pyeq SymbolProjectPath
derive_pyeq SymbolProjectInstance
derive_pyeq SchematicSymbol
derive_pyeq HierarchicalPin
derive_pyeq HierarchicalSheetProjectPath
derive_pyeq HierarchicalSheetProjectInstance
derive_pyeq HierarchicalSheet
derive_pyeq HierarchicalSheetInstance
derive_pyeq SymbolInstance
derive_pyeq Rectangle
derive_pyeq Arc
derive_pyeq Circle
derive_pyeq NetclassFlag
/-- Objects of the same class with equal fields. -/
instance : PyEq SchGraphic := ⟨fun
  | .connection a, .connection b => PyEq.eq a b
  | .polyline a, .polyline b => PyEq.eq a b
  | _, _ => False⟩
instance : CanonEq SchGraphic := ⟨fun
  | .connection a => (canonEq a :)
  | .polyline a => (canonEq a :)⟩
/-- Objects of the same class with equal fields. -/
instance : PyEq SchShape := ⟨fun
  | .arc a, .arc b => PyEq.eq a b
  | .circle a, .circle b => PyEq.eq a b
  | .rectangle a, .rectangle b => PyEq.eq a b
  | _, _ => False⟩
instance : CanonEq SchShape := ⟨fun
  | .arc a => (canonEq a :)
  | .circle a => (canonEq a :)
  | .rectangle a => (canonEq a :)⟩
derive_pyeq Schematic
derive_pyeq GrText
derive_pyeq GrTextBox
derive_pyeq GrLine
derive_pyeq GrRect
derive_pyeq GrCircle
derive_pyeq GrArc
derive_pyeq GrPoly
derive_pyeq GrCurve
/-- Objects of the same class with equal fields. -/
instance : PyEq GrItem := ⟨fun
  | .text a, .text b => PyEq.eq a b
  | .textBox a, .textBox b => PyEq.eq a b
  | .line a, .line b => PyEq.eq a b
  | .rect a, .rect b => PyEq.eq a b
  | .circle a, .circle b => PyEq.eq a b
  | .arc a, .arc b => PyEq.eq a b
  | .poly a, .poly b => PyEq.eq a b
  | .curve a, .curve b => PyEq.eq a b
  | .image a, .image b => PyEq.eq a b
  | _, _ => False⟩
instance : CanonEq GrItem := ⟨fun
  | .text a => (canonEq a :)
  | .textBox a => (canonEq a :)
  | .line a => (canonEq a :)
  | .rect a => (canonEq a :)
  | .circle a => (canonEq a :)
  | .arc a => (canonEq a :)
  | .poly a => (canonEq a :)
  | .curve a => (canonEq a :)
  | .image a => (canonEq a :)⟩
derive_pyeq FpText
derive_pyeq FpLine
derive_pyeq FpRect
derive_pyeq FpTextBox
derive_pyeq FpCircle
derive_pyeq FpArc
derive_pyeq FpPoly
derive_pyeq FpCurve
/-- Objects of the same class with equal fields. -/
instance : PyEq FpItem := ⟨fun
  | .text a, .text b => PyEq.eq a b
  | .textBox a, .textBox b => PyEq.eq a b
  | .line a, .line b => PyEq.eq a b
  | .rect a, .rect b => PyEq.eq a b
  | .circle a, .circle b => PyEq.eq a b
  | .arc a, .arc b => PyEq.eq a b
  | .poly a, .poly b => PyEq.eq a b
  | .curve a, .curve b => PyEq.eq a b
  | .image a, .image b => PyEq.eq a b
  | _, _ => False⟩
instance : CanonEq FpItem := ⟨fun
  | .text a => (canonEq a :)
  | .textBox a => (canonEq a :)
  | .line a => (canonEq a :)
  | .rect a => (canonEq a :)
  | .circle a => (canonEq a :)
  | .arc a => (canonEq a :)
  | .poly a => (canonEq a :)
  | .curve a => (canonEq a :)
  | .image a => (canonEq a :)⟩
derive_pyeq KeepoutSettings
derive_pyeq FillSettings
derive_pyeq ZonePolygon
derive_pyeq FilledPolygon
derive_pyeq FillSegments
derive_pyeq Hatch
derive_pyeq Zone
derive_pyeq Attributes
derive_pyeq Model
derive_pyeq DrillDefinition
derive_pyeq PadOptions
derive_pyeq Pad
derive_pyeq Footprint
derive_pyeq GeneralSettings
derive_pyeq LayerToken
derive_pyeq StackupSubLayer
derive_pyeq StackupLayer
derive_pyeq Stackup
derive_pyeq PlotSettings
derive_pyeq SetupData
derive_pyeq Segment
derive_pyeq Via
derive_pyeq TraceArc
derive_pyeq Target
derive_pyeq DimensionFormat
derive_pyeq DimensionStyle
derive_pyeq Dimension
/-- Objects of the same class with equal fields. -/
instance : PyEq TraceItem := ⟨fun
  | .segment a, .segment b => PyEq.eq a b
  | .arc a, .arc b => PyEq.eq a b
  | .via a, .via b => PyEq.eq a b
  | _, _ => False⟩
instance : CanonEq TraceItem := ⟨fun
  | .segment a => (canonEq a :)
  | .arc a => (canonEq a :)
  | .via a => (canonEq a :)⟩
derive_pyeq Board

end Kiutils
