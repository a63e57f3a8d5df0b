import Verif.Model.Symbol
import Verif.Format.SyItems
/-!
# Symbols and symbol libraries: values and well-formedness
-/
namespace Kiutils

def SymbolAlternativePin.toVal (o : SymbolAlternativePin) : Val :=
  .list ([.str k!"alternate", o.pinName.canon, o.electricalType.canon, o.graphicalStyle.canon])

structure SymbolAlternativePin.WF [TextRule] (o : SymbolAlternativePin) : Prop where
  pinName : TextOk o.pinName
  electricalType : TokOk o.electricalType
  graphicalStyle : TokOk o.graphicalStyle

def SymbolPin.toVal (o : SymbolPin) : Val :=
  .list ([.str k!"pin", o.electricalType.canon, o.graphicalStyle.canon, o.position.toVal k!"at", .list [.str k!"length", o.length.canon]] ++
    ifL o.hide [.str k!"hide"] ++
    [.list ([.str k!"name", o.name.canon] ++ optL o.nameEffects fun e => [e.toVal]), .list ([.str k!"number", o.number.canon] ++ optL o.numberEffects fun e => [e.toVal])] ++
    o.alternatePins.map SymbolAlternativePin.toVal)

structure SymbolPin.WF [TextRule] (o : SymbolPin) : Prop where
  electricalType : TokOk o.electricalType
  graphicalStyle : TokOk o.graphicalStyle
  position : o.position.WF
  length : NumOk o.length
  name : TextOk o.name
  nameEffects : ∀ v, o.nameEffects = some v → v.WF
  number : TextOk o.number
  numberEffects : ∀ v, o.numberEffects = some v → v.WF
  alternatePins : ∀ v ∈ o.alternatePins, v.WF

/-- The values of a symbol without its units. -/
def Symbol.flatVals (o : Symbol) : List Val :=
  [.str k!"symbol", .str o.libId] ++ (optL o.extends_ fun v => [.list [.str k!"extends", v.canon]]) ++
    ifL o.isPower [.list [.str k!"power"]] ++ ifL o.hidePinNumbers [.list [.str k!"pin_numbers", .str k!"hide"]] ++
    ifL o.pinNames [.list ([.str k!"pin_names"] ++ (optL o.pinNamesOffset fun v => [.list [.str k!"offset", v.canon]]) ++
      ifL o.pinNamesHide [.str k!"hide"])] ++
    (optL o.inBom fun b => [.list [.str k!"in_bom", .str (yesNo b)]]) ++
    (optL o.onBoard fun b => [.list [.str k!"on_board", .str (yesNo b)]]) ++
    o.properties.map Property.toVal ++ o.graphicItems.map SyItem.toVal ++ o.pins.map SymbolPin.toVal

mutual
/-- The value of a symbol. -/
def Symbol.toVal : Symbol → Val
  | ⟨a, b, c, d, e, f, g, h, i, j, k, l, m, n, p, us⟩ =>
    .list (Symbol.flatVals ⟨a, b, c, d, e, f, g, h, i, j, k, l, m, n, p, us⟩ ++ Symbol.toValL us)
/-- The values of the units of a symbol. -/
def Symbol.toValL : List Symbol → List Val
  | [] => []
  | s :: r => s.toVal :: Symbol.toValL r
end

/-- The parts of a library identifier (nickname, entry name, unit id, style id) that survive being written as one string: a
nickname without a colon (but possibly one at its start) and an entry name; an entry name without a colon (but possibly one at its
start) and two numbers; or an entry name that contains no colon (but possibly one at its start or at its end) and does not itself
end in two numbers. -/
inductive IdOk [TextRule] : Option Val → Option Val → Option Val → Option Val → Prop
  | nick (n e : Str) : n ≠ [] → ':' ∉ n.drop 1 → '\n' ∉ n → e ≠ [] → '\n' ∉ e → TextRule.named n e →
      IdOk (some (.str n)) (some (.str e)) none none
  | unit (e : Str) (u s : Nat) : TextRule.begins e → ':' ∉ e.drop 1 → '\n' ∉ e → IdOk none (some (.str e)) (some (.int u)) (some (.int s))
  | top (e : Str) : ':' ∉ (e.drop 1).dropLast → '\n' ∉ e → TextRule.text e →
      (∀ p u s : Str, e = p ++ '_' :: (u ++ '_' :: s) → p ≠ [] → u ≠ [] → s ≠ [] →
        ¬ ((∀ c ∈ u, isDigit c = true) ∧ (∀ c ∈ s, isDigit c = true))) →
      IdOk none (some (.str e)) none none

/-- Well-formedness of a symbol without its units. -/
structure Symbol.WFFlat [TextRule] (o : Symbol) : Prop where
  id : IdOk o.libraryNickname o.entryName o.unitId o.styleId
  extends_ : ∀ v, o.extends_ = some v → TextOk v
  /-- the two attributes that are only written if `pinNames` is set -/
  pinNames : o.pinNames = false → o.pinNamesHide = false ∧ o.pinNamesOffset = none
  pinNamesOffset : ∀ v, o.pinNamesOffset = some v → NumOk v
  properties : ∀ v ∈ o.properties, v.WF
  graphicItems : ∀ v ∈ o.graphicItems, v.WF
  pins : ∀ v ∈ o.pins, v.WF

/-- Well-formedness of a symbol and of its units. -/
inductive Symbol.WF [TextRule] : Symbol → Prop
  | mk (o : Symbol) : o.WFFlat → (∀ u ∈ o.units, u.WF) → o.WF

def SymbolLib.toVal (o : SymbolLib) : Val :=
  .list ([.str k!"kicad_symbol_lib", .list [.str k!"version", o.version.canon], .list [.str k!"generator", (o.generator.getD (.str k!"None")).canon]] ++
    o.symbols.map Symbol.toVal)

structure SymbolLib.WF [TextRule] (o : SymbolLib) : Prop where
  version : AtomOk o.version
  /-- a missing generator is written as the word `None` -/
  generator : ∃ g, o.generator = some g ∧ AtomOk g
  symbols : ∀ v ∈ o.symbols, v.WF

end Kiutils
