import Verif.Proofs.Stable
import Verif.SameTreeAttr
/-!
# Turning integral floats into ints does not change the tree of an object

`o.toVal` already writes every number the way it is read back, so that `(canon o).toVal = o.toVal`.
-/
namespace Kiutils

@[sametree] theorem tree_val (v : Val) : canon v = v.canon := rfl
@[sametree] theorem tree_canon (v : Val) : v.canon.canon = v.canon := canon_canon v
@[sametree] theorem tree_bool (b : Bool) : canon b = b := rfl
@[sametree] theorem tree_nat (b : Nat) : canon b = b := rfl
@[sametree] theorem tree_str (b : Str) : (Canon.canon b : Str) = b := rfl
@[sametree] theorem tree_pair {α β : Type} [Canon α] [Canon β] (p : α × β) : canon p = (canon p.1, canon p.2) := rfl
@[sametree] theorem tree_optL {α : Type} [Canon α] (x : Option α) (g : α → List Val) :
    optL (canon x) g = optL x fun a => g (canon a) := by cases x <;> rfl
@[sametree] theorem tree_map {α : Type} [Canon α] (l : List α) (g : α → Val) :
    (canon l).map g = l.map fun a => g (canon a) := List.map_map
@[sametree] theorem tree_isEmpty {α : Type} [Canon α] (l : List α) : (canon l).isEmpty = l.isEmpty := by cases l <;> rfl
@[sametree] theorem tree_isSome {α : Type} [Canon α] (l : Option α) : (canon l).isSome = l.isSome := by cases l <;> rfl
@[sametree] theorem tree_isNone {α : Type} [Canon α] (l : Option α) : (canon l).isNone = l.isNone := by cases l <;> rfl
@[sametree] theorem tree_length {α : Type} [Canon α] (l : List α) : (canon l).length = l.length := List.length_map ..
@[sametree] theorem tree_mapcanon (l : List Val) : (Val.canon <$> l) = l.map Val.canon := rfl

open Lean Elab Command in
/-- States `(canon o).f = canon o.f` for every field of a structure. -/
elab "canon_fields " n:ident : command => do
  let name ← liftCoreM <| realizeGlobalConstNoOverload n
  let env ← getEnv
  let o := mkIdent `o
  for f in getStructureFields env name do
    let p := mkIdent (name ++ f)
    let thm := mkIdent (n.getId ++ Name.mkSimple (f.toString ++ "_canon"))
    elabCommand (← `(@[sametree] theorem $thm ($o : $n) : $p (canon $o) = canon ($p $o) := rfl))

open Lean Elab Command in
/-- States `canon (.c x) = .c (canon x)` for every constructor of a type with one argument per constructor. -/
elab "canon_ctors " n:ident : command => do
  let name ← liftCoreM <| realizeGlobalConstNoOverload n
  let x := mkIdent `x
  for c in (← liftCoreM <| getConstInfoInduct name).ctors do
    let k ← liftCoreM <| getConstInfoCtor c
    let thm := mkIdent (n.getId ++ Name.mkSimple (c.getString! ++ "_canon"))
    let c := mkIdent c
    if k.numFields = 0 then elabCommand (← `(@[sametree] theorem $thm : canon $c = $c := rfl))
    else elabCommand (← `(@[sametree] theorem $thm $x : canon ($c $x) = $c (canon $x) := rfl))

theorem tree_map_of {α : Type} [Canon α] {l : List α} {g : α → Val} (h : ∀ a ∈ l, g (canon a) = g a) :
    (canon l).map g = l.map g := (tree_map l g).trans (List.map_congr_left h)

@[sametree] theorem tree_flatMap {α : Type} [Canon α] (l : List α) (g : α → List Val) :
    (canon l).flatMap g = l.flatMap fun a => g (canon a) := List.flatMap_map ..

@[sametree] theorem tree_getD (x : Option Val) (d : Str) : ((canon x).getD (.str d)).canon = (x.getD (.str d)).canon := by
  cases x with
  | none => rfl
  | some v => exact canon_canon v

@[sametree] theorem optCanon_canon (x : Option Val) : optCanon (canon x) = optCanon x := by
  cases x with
  | none => rfl
  | some v => exact canon_canon v

@[sametree] theorem tree_is (v : Val) (s : Str) : v.canon.is s = v.is s := by
  cases v with
  | flt x =>
    show (if x.isInteger = true then Val.int x.toInt else Val.flt x).is s = _
    split <;> rfl
  | _ => rfl

@[sametree] theorem layerKey_canon (l : List Val) : Zone.layerKey (canon l) = Zone.layerKey l := by
  match l with
  | [] => rfl
  | [v] => show Zone.layerKey [v.canon] = _; simp only [Zone.layerKey, tree_is]
  | _ :: _ :: _ => rfl


canon_fields Position
@[sametree] theorem Position.toVal_canon (key : Str) (o : Position) : Position.toVal key (canon o) = Position.toVal key o := by
  simp only [Position.toVal, sametree]
@[sametree] theorem Position.toValXY_canon (key : Str) (o : Position) : Position.toValXY key (canon o) = Position.toValXY key o := by
  simp only [Position.toValXY, sametree]
canon_fields Coordinate
@[sametree] theorem Coordinate.toVal_canon (o : Coordinate) : Coordinate.toVal (canon o) = Coordinate.toVal o := by
  simp only [Coordinate.toVal, sametree]
canon_fields ColorRGBA
@[sametree] theorem ColorRGBA.toVal_canon (o : ColorRGBA) : ColorRGBA.toVal (canon o) = ColorRGBA.toVal o := by
  simp only [ColorRGBA.toVal, sametree]
canon_fields Stroke
@[sametree] theorem Stroke.toVal_canon (o : Stroke) : Stroke.toVal (canon o) = Stroke.toVal o := by
  simp only [Stroke.toVal, sametree]
canon_fields Font
@[sametree] theorem Font.toVal_canon (o : Font) : Font.toVal (canon o) = Font.toVal o := by
  simp only [Font.toVal, sametree]
canon_fields Justify
@[sametree] theorem Justify.toVal_canon (o : Justify) : Justify.toVal (canon o) = Justify.toVal o := by
  simp only [Justify.toVal, sametree]
canon_fields Effects
@[sametree] theorem Justify.isEmpty_tree (o : Justify) : (canon o).isEmpty = o.isEmpty := by
  simp only [Justify.isEmpty, sametree]
@[sametree] theorem Effects.toVal_canon (o : Effects) : Effects.toVal (canon o) = Effects.toVal o := by
  simp only [Effects.toVal, sametree]

canon_fields Net
@[sametree] theorem Net.toVal_canon (o : Net) : Net.toVal (canon o) = Net.toVal o := by
  simp only [Net.toVal, sametree]
canon_fields Group
@[sametree] theorem Group.toVal_canon (o : Group) : Group.toVal (canon o) = Group.toVal o := by
  simp only [Group.toVal, sametree]
canon_fields PageSettings
@[sametree] theorem PageSettings.toVal_canon (o : PageSettings) : PageSettings.toVal (canon o) = PageSettings.toVal o := by
  simp only [PageSettings.toVal, sametree]
canon_fields TitleBlock
@[sametree] theorem TitleBlock.toVal_canon (o : TitleBlock) : TitleBlock.toVal (canon o) = TitleBlock.toVal o := by
  simp only [TitleBlock.toVal, sametree]
canon_fields Property
@[sametree] theorem Property.toVal_canon (o : Property) : Property.toVal (canon o) = Property.toVal o := by
  simp only [Property.toVal, sametree]
canon_fields RenderCachePolygon
@[sametree] theorem RenderCachePolygon.toVal_canon (o : RenderCachePolygon) : RenderCachePolygon.toVal (canon o) = RenderCachePolygon.toVal o := by
  simp only [RenderCachePolygon.toVal, sametree]
canon_fields RenderCache
@[sametree] theorem RenderCache.toVal_canon (o : RenderCache) : RenderCache.toVal (canon o) = RenderCache.toVal o := by
  simp only [RenderCache.toVal, sametree]
canon_fields Fill
@[sametree] theorem Fill.toVal_canon (o : Fill) : Fill.toVal (canon o) = Fill.toVal o := by
  simp only [Fill.toVal, sametree]
canon_fields Image
@[sametree] theorem Image.toVal_canon (o : Image) : Image.toVal (canon o) = Image.toVal o := by
  simp only [Image.toVal, sametree]
canon_fields Library
@[sametree] theorem Library.toVal_canon (o : Library) : Library.toVal (canon o) = Library.toVal o := by
  simp only [Library.toVal, sametree]
canon_fields LibTable
@[sametree] theorem LibTable.toVal_canon (o : LibTable) : LibTable.toVal (canon o) = LibTable.toVal o := by
  simp only [LibTable.toVal, sametree]
canon_fields Constraint
@[sametree] theorem Constraint.toVal_canon (o : Constraint) : Constraint.toVal (canon o) = Constraint.toVal o := by
  simp only [Constraint.toVal, sametree]
canon_fields Rule
@[sametree] theorem Rule.toVal_canon (o : Rule) : Rule.toVal (canon o) = Rule.toVal o := by
  simp only [Rule.toVal, sametree]
canon_fields DesignRules
@[sametree] theorem DesignRules.toVals_canon (o : DesignRules) : DesignRules.toVals (canon o) = DesignRules.toVals o := by
  simp only [DesignRules.toVals, sametree]
canon_fields WksFontSize
@[sametree] theorem WksFontSize.toVal_canon (o : WksFontSize) : WksFontSize.toVal (canon o) = WksFontSize.toVal o := by
  simp only [WksFontSize.toVal, sametree]
canon_fields TextSize
@[sametree] theorem TextSize.toVal_canon (o : TextSize) : TextSize.toVal (canon o) = TextSize.toVal o := by
  simp only [TextSize.toVal, sametree]
canon_fields WksFont
@[sametree] theorem WksFont.toVal_canon (o : WksFont) : WksFont.toVal (canon o) = WksFont.toVal o := by
  simp only [WksFont.toVal, sametree]
canon_fields WksPosition
@[sametree] theorem WksPosition.toVal_canon (key : Str) (o : WksPosition) : WksPosition.toVal key (canon o) = WksPosition.toVal key o := by
  simp only [WksPosition.toVal, sametree]
canon_fields WksShape
@[sametree] theorem WksShape.toVal_canon (head : Str) (o : WksShape) : WksShape.toVal head (canon o) = WksShape.toVal head o := by
  simp only [WksShape.toVal, sametree]
canon_fields Bitmap
@[sametree] theorem Bitmap.toVal_canon (o : Bitmap) : Bitmap.toVal (canon o) = Bitmap.toVal o := by
  simp only [Bitmap.toVal, sametree]
canon_fields TbText
@[sametree] theorem WksFont.isEmpty_tree (o : WksFont) : (canon o).isEmpty = o.isEmpty := by
  simp only [WksFont.isEmpty, sametree]
@[sametree] theorem TbText.toVal_canon (o : TbText) : TbText.toVal (canon o) = TbText.toVal o := by
  simp only [TbText.toVal, sametree]

canon_fields Setup
@[sametree] theorem Setup.toVal_canon (o : Setup) : Setup.toVal (canon o) = Setup.toVal o := by
  simp only [Setup.toVal, sametree]
canon_ctors WksItem
@[sametree] theorem WksItem.toVal_canon (o : WksItem) : WksItem.toVal (canon o) = WksItem.toVal o := by
  cases o <;> simp only [WksItem.toVal, sametree]
canon_fields WorkSheet
@[sametree] theorem WorkSheet.toVal_canon (o : WorkSheet) : WorkSheet.toVal (canon o) = WorkSheet.toVal o := by
  simp only [WorkSheet.toVal, sametree]
canon_fields SyArc
@[sametree] theorem SyArc.toVal_canon (o : SyArc) : SyArc.toVal (canon o) = SyArc.toVal o := by
  simp only [SyArc.toVal, sametree]
canon_fields SyCircle
@[sametree] theorem SyCircle.toVal_canon (o : SyCircle) : SyCircle.toVal (canon o) = SyCircle.toVal o := by
  simp only [SyCircle.toVal, sametree]
canon_fields SyPolyLine
@[sametree] theorem SyPolyLine.toVal_canon (o : SyPolyLine) : SyPolyLine.toVal (canon o) = SyPolyLine.toVal o := by
  simp only [SyPolyLine.toVal, sametree]
canon_fields SyRect
@[sametree] theorem SyRect.toVal_canon (o : SyRect) : SyRect.toVal (canon o) = SyRect.toVal o := by
  simp only [SyRect.toVal, sametree]
canon_fields SyText
@[sametree] theorem SyText.toVal_canon (o : SyText) : SyText.toVal (canon o) = SyText.toVal o := by
  simp only [SyText.toVal, sametree]
canon_fields SyTextBox
@[sametree] theorem SyTextBox.toVal_canon (o : SyTextBox) : SyTextBox.toVal (canon o) = SyTextBox.toVal o := by
  simp only [SyTextBox.toVal, sametree]
canon_fields SyCurve
@[sametree] theorem SyCurve.toVal_canon (o : SyCurve) : SyCurve.toVal (canon o) = SyCurve.toVal o := by
  simp only [SyCurve.toVal, sametree]
canon_ctors SyItem
@[sametree] theorem SyItem.toVal_canon (o : SyItem) : SyItem.toVal (canon o) = SyItem.toVal o := by
  cases o <;> simp only [SyItem.toVal, sametree]
canon_fields SymbolAlternativePin
@[sametree] theorem SymbolAlternativePin.toVal_canon (o : SymbolAlternativePin) : SymbolAlternativePin.toVal (canon o) = SymbolAlternativePin.toVal o := by
  simp only [SymbolAlternativePin.toVal, sametree]
canon_fields SymbolPin
@[sametree] theorem SymbolPin.toVal_canon (o : SymbolPin) : SymbolPin.toVal (canon o) = SymbolPin.toVal o := by
  simp only [SymbolPin.toVal, sametree]
theorem IdOk.tree [TextRule] {a b c d : Option Val} (h : IdOk a b c d) : canon a = a ∧ canon b = b ∧ canon c = c ∧ canon d = d := by
  cases h <;> exact ⟨rfl, rfl, rfl, rfl⟩
theorem SchIdOk.tree [TextRule] {a b : Option Val} (h : SchIdOk a b) : canon a = a ∧ canon b = b := by
  cases h <;> exact ⟨rfl, rfl⟩

theorem Symbol.flatVals_canon [TextRule] {o : Symbol} (h : o.WFFlat) : (canon o).flatVals = o.flatVals := by
  obtain ⟨a, b, c, d, e, f, g, hh, i, j, k, l, m, n, p, us⟩ := o
  obtain ⟨h1, h2, h3, h4⟩ := IdOk.tree h.id
  show Symbol.flatVals ⟨canon a, canon b, canon c, canon d, canon e, f, g, hh, canon i, canon j, canon k, l, canon m, canon n, canon p, Symbol.canonL us⟩ = _
  simp only [Symbol.flatVals, Symbol.libId]
  simp only at h1 h2 h3 h4
  rw [h1, h2, h3, h4]
  simp only [sametree]
mutual
theorem Symbol.toVal_canon [TextRule] : (o : Symbol) → o.WF → Symbol.toVal (canon o) = Symbol.toVal o
  | ⟨a, b, c, d, e, f, g, hh, i, j, k, l, m, n, p, us⟩, h => by
    cases h with
    | mk _ hf hu =>
      have h1 := Symbol.flatVals_canon hf
      have h2 := Symbol.toValL_canon us hu
      show Val.list (Symbol.flatVals ⟨canon a, canon b, canon c, canon d, canon e, f, g, hh, canon i, canon j, canon k, l, canon m, canon n, canon p, Symbol.canonL us⟩ ++ Symbol.toValL (Symbol.canonL us)) = _
      rw [h2]
      exact congrArg (fun x => Val.list (x ++ Symbol.toValL us)) h1
theorem Symbol.toValL_canon [TextRule] : (l : List Symbol) → (∀ u ∈ l, u.WF) → Symbol.toValL (Symbol.canonL l) = Symbol.toValL l
  | [], _ => rfl
  | s :: r, h => by
    show Symbol.toVal (canon s) :: Symbol.toValL (Symbol.canonL r) = s.toVal :: Symbol.toValL r
    rw [Symbol.toVal_canon s (h s (List.mem_cons_self ..)), Symbol.toValL_canon r fun u hu => h u (List.mem_cons_of_mem _ hu)]
end

canon_fields SymbolLib
theorem SymbolLib.toVal_canon [TextRule] (o : SymbolLib) (h : o.WF) : SymbolLib.toVal (canon o) = SymbolLib.toVal o := by
  simp only [SymbolLib.toVal, SymbolLib.symbols_canon]
  rw [tree_map_of fun a ha => Symbol.toVal_canon a (h.symbols a ha)]
  simp only [sametree]

theorem JunctionColor.toVal_canon [TextRule] (o : JunctionColor) (h : o.WF) : JunctionColor.toVal (canon o) = JunctionColor.toVal o := by
  cases o with
  | rgba c => exact ColorRGBA.toVal_canon c
  | raw v => cases h

canon_fields Junction
theorem Junction.toVal_canon [TextRule] (o : Junction) (h : o.WF) : Junction.toVal (canon o) = Junction.toVal o := by
  simp only [Junction.toVal, Junction.color_canon]
  rw [JunctionColor.toVal_canon _ h.color]
  simp only [sametree]

canon_fields NoConnect
@[sametree] theorem NoConnect.toVal_canon (o : NoConnect) : NoConnect.toVal (canon o) = NoConnect.toVal o := by
  simp only [NoConnect.toVal, sametree]
canon_fields BusEntry
@[sametree] theorem BusEntry.toVal_canon (o : BusEntry) : BusEntry.toVal (canon o) = BusEntry.toVal o := by
  simp only [BusEntry.toVal, sametree]
canon_fields BusAlias
@[sametree] theorem BusAlias.toVal_canon (o : BusAlias) : BusAlias.toVal (canon o) = BusAlias.toVal o := by
  simp only [BusAlias.toVal, sametree]
canon_fields Connection
@[sametree] theorem Connection.toVal_canon (o : Connection) : Connection.toVal (canon o) = Connection.toVal o := by
  simp only [Connection.toVal, sametree]
canon_fields PolyLine
@[sametree] theorem PolyLine.toVal_canon (o : PolyLine) : PolyLine.toVal (canon o) = PolyLine.toVal o := by
  simp only [PolyLine.toVal, sametree]
canon_fields Text
@[sametree] theorem Text.toVal_canon (o : Text) : Text.toVal (canon o) = Text.toVal o := by
  simp only [Text.toVal, sametree]
canon_fields TextBox
@[sametree] theorem TextBox.toVal_canon (o : TextBox) : TextBox.toVal (canon o) = TextBox.toVal o := by
  simp only [TextBox.toVal, sametree]
canon_fields LocalLabel
@[sametree] theorem LocalLabel.toVal_canon (o : LocalLabel) : LocalLabel.toVal (canon o) = LocalLabel.toVal o := by
  simp only [LocalLabel.toVal, sametree]
canon_fields GlobalLabel
@[sametree] theorem GlobalLabel.toVal_canon (o : GlobalLabel) : GlobalLabel.toVal (canon o) = GlobalLabel.toVal o := by
  simp only [GlobalLabel.toVal, sametree]
canon_fields HierarchicalLabel
@[sametree] theorem HierarchicalLabel.toVal_canon (o : HierarchicalLabel) : HierarchicalLabel.toVal (canon o) = HierarchicalLabel.toVal o := by
  simp only [HierarchicalLabel.toVal, sametree]
canon_fields SymbolProjectPath
@[sametree] theorem SymbolProjectPath.toVal_canon (o : SymbolProjectPath) : SymbolProjectPath.toVal (canon o) = SymbolProjectPath.toVal o := by
  simp only [SymbolProjectPath.toVal, sametree]
canon_fields SymbolProjectInstance
@[sametree] theorem SymbolProjectInstance.toVal_canon (o : SymbolProjectInstance) : SymbolProjectInstance.toVal (canon o) = SymbolProjectInstance.toVal o := by
  simp only [SymbolProjectInstance.toVal, sametree]
canon_fields SchematicSymbol
theorem SchematicSymbol.toVal_canon [TextRule] (o : SchematicSymbol) (h : o.WF) : SchematicSymbol.toVal (canon o) = SchematicSymbol.toVal o := by
  obtain ⟨h1, h2⟩ := SchIdOk.tree h.id
  have h3 : canon o.uuid = o.uuid := by
    obtain ⟨u, hu, hv⟩ := h.uuid
    rw [hu]
    cases u with
    | str s => rfl
    | _ => rcases hv with hv | hv <;> cases hv
  simp only [SchematicSymbol.toVal, SchematicSymbol.libId, SchematicSymbol.libraryNickname_canon, SchematicSymbol.entryName_canon,
    SchematicSymbol.uuid_canon]
  rw [h1, h2, h3]
  simp only [sametree]

canon_fields HierarchicalPin
@[sametree] theorem HierarchicalPin.toVal_canon (o : HierarchicalPin) : HierarchicalPin.toVal (canon o) = HierarchicalPin.toVal o := by
  simp only [HierarchicalPin.toVal, sametree]
canon_fields HierarchicalSheetProjectPath
@[sametree] theorem HierarchicalSheetProjectPath.toVal_canon (o : HierarchicalSheetProjectPath) : HierarchicalSheetProjectPath.toVal (canon o) = HierarchicalSheetProjectPath.toVal o := by
  simp only [HierarchicalSheetProjectPath.toVal, sametree]
canon_fields HierarchicalSheetProjectInstance
@[sametree] theorem HierarchicalSheetProjectInstance.toVal_canon (o : HierarchicalSheetProjectInstance) : HierarchicalSheetProjectInstance.toVal (canon o) = HierarchicalSheetProjectInstance.toVal o := by
  simp only [HierarchicalSheetProjectInstance.toVal, sametree]
canon_fields HierarchicalSheet
@[sametree] theorem HierarchicalSheet.toVal_canon (o : HierarchicalSheet) : HierarchicalSheet.toVal (canon o) = HierarchicalSheet.toVal o := by
  simp only [HierarchicalSheet.toVal, sametree]
canon_fields HierarchicalSheetInstance
@[sametree] theorem HierarchicalSheetInstance.toVal_canon (o : HierarchicalSheetInstance) : HierarchicalSheetInstance.toVal (canon o) = HierarchicalSheetInstance.toVal o := by
  simp only [HierarchicalSheetInstance.toVal, sametree]
canon_fields SymbolInstance
@[sametree] theorem SymbolInstance.toVal_canon (o : SymbolInstance) : SymbolInstance.toVal (canon o) = SymbolInstance.toVal o := by
  simp only [SymbolInstance.toVal, sametree]
canon_fields Rectangle
@[sametree] theorem Rectangle.toVal_canon (o : Rectangle) : Rectangle.toVal (canon o) = Rectangle.toVal o := by
  simp only [Rectangle.toVal, sametree]
canon_fields Arc
@[sametree] theorem Arc.toVal_canon (o : Arc) : Arc.toVal (canon o) = Arc.toVal o := by
  simp only [Arc.toVal, sametree]
canon_fields Circle
@[sametree] theorem Circle.toVal_canon (o : Circle) : Circle.toVal (canon o) = Circle.toVal o := by
  simp only [Circle.toVal, sametree]
canon_fields NetclassFlag
@[sametree] theorem NetclassFlag.toVal_canon (o : NetclassFlag) : NetclassFlag.toVal (canon o) = NetclassFlag.toVal o := by
  simp only [NetclassFlag.toVal, sametree]
canon_ctors SchGraphic
@[sametree] theorem SchGraphic.toVal_canon (o : SchGraphic) : SchGraphic.toVal (canon o) = SchGraphic.toVal o := by
  cases o <;> simp only [SchGraphic.toVal, sametree]
canon_ctors SchShape
@[sametree] theorem SchShape.toVal_canon (o : SchShape) : SchShape.toVal (canon o) = SchShape.toVal o := by
  cases o <;> simp only [SchShape.toVal, sametree]
canon_fields Schematic
theorem Schematic.toVal_canon [TextRule] (o : Schematic) (h : o.WF) : Schematic.toVal (canon o) = Schematic.toVal o := by
  simp only [Schematic.toVal, Schematic.junctions_canon, Schematic.libSymbols_canon, Schematic.schematicSymbols_canon]
  rw [tree_map_of fun a ha => Symbol.toVal_canon a (h.libSymbols a ha), tree_map_of fun a ha => Junction.toVal_canon a (h.junctions a ha),
    tree_map_of fun a ha => SchematicSymbol.toVal_canon a (h.schematicSymbols a ha)]
  simp only [sametree]

canon_fields GrText
@[sametree] theorem GrText.toVal_canon (o : GrText) : GrText.toVal (canon o) = GrText.toVal o := by
  simp only [GrText.toVal, sametree]
canon_fields GrTextBox
@[sametree] theorem GrTextBox.toVal_canon (o : GrTextBox) : GrTextBox.toVal (canon o) = GrTextBox.toVal o := by
  simp only [GrTextBox.toVal, sametree]
canon_fields GrLine
@[sametree] theorem GrLine.toVal_canon (o : GrLine) : GrLine.toVal (canon o) = GrLine.toVal o := by
  simp only [GrLine.toVal, sametree]
canon_fields GrRect
@[sametree] theorem GrRect.toVal_canon (o : GrRect) : GrRect.toVal (canon o) = GrRect.toVal o := by
  simp only [GrRect.toVal, sametree]
canon_fields GrCircle
@[sametree] theorem GrCircle.toVal_canon (o : GrCircle) : GrCircle.toVal (canon o) = GrCircle.toVal o := by
  simp only [GrCircle.toVal, sametree]
canon_fields GrArc
@[sametree] theorem GrArc.toVal_canon (o : GrArc) : GrArc.toVal (canon o) = GrArc.toVal o := by
  simp only [GrArc.toVal, sametree]
canon_fields GrPoly
@[sametree] theorem GrPoly.toVal_canon (o : GrPoly) : GrPoly.toVal (canon o) = GrPoly.toVal o := by
  simp only [GrPoly.toVal, sametree]
canon_fields GrCurve
@[sametree] theorem GrCurve.toVal_canon (o : GrCurve) : GrCurve.toVal (canon o) = GrCurve.toVal o := by
  simp only [GrCurve.toVal, sametree]
canon_ctors GrItem
@[sametree] theorem GrItem.toVal_canon (o : GrItem) : GrItem.toVal (canon o) = GrItem.toVal o := by
  cases o <;> simp only [GrItem.toVal, sametree]
@[sametree] theorem Position.toValU_canon (key : Str) (o : Position) : Position.toValU key (canon o) = Position.toValU key o := by
  simp only [Position.toValU, sametree]
canon_fields FpText
@[sametree] theorem FpText.toVal_canon (o : FpText) : FpText.toVal (canon o) = FpText.toVal o := by
  simp only [FpText.toVal, sametree]
@[sametree] theorem widthL_canon (w : Option Val) (s : Option Stroke) : widthL (canon w) (canon s) = widthL w s := by
  cases w with
  | some v => exact congrArg (fun x => [Val.list [.str k!"width", x]]) (canon_canon v)
  | none =>
    cases s with
    | none => rfl
    | some s => exact congrArg (fun x => [x]) (Stroke.toVal_canon s)
canon_fields FpLine
@[sametree] theorem FpLine.toVal_canon (o : FpLine) : FpLine.toVal (canon o) = FpLine.toVal o := by
  simp only [FpLine.toVal, sametree]

canon_fields FpRect
@[sametree] theorem FpRect.toVal_canon (o : FpRect) : FpRect.toVal (canon o) = FpRect.toVal o := by
  simp only [FpRect.toVal, sametree]
canon_fields FpTextBox
@[sametree] theorem FpTextBox.toVal_canon (o : FpTextBox) : FpTextBox.toVal (canon o) = FpTextBox.toVal o := by
  simp only [FpTextBox.toVal, sametree]
canon_fields FpCircle
@[sametree] theorem FpCircle.toVal_canon (o : FpCircle) : FpCircle.toVal (canon o) = FpCircle.toVal o := by
  simp only [FpCircle.toVal, sametree]
canon_fields FpArc
@[sametree] theorem FpArc.toVal_canon (o : FpArc) : FpArc.toVal (canon o) = FpArc.toVal o := by
  simp only [FpArc.toVal, sametree]
canon_fields FpPoly
@[sametree] theorem FpPoly.toVal_canon (o : FpPoly) : FpPoly.toVal (canon o) = FpPoly.toVal o := by
  simp only [FpPoly.toVal, sametree]
canon_fields FpCurve
@[sametree] theorem FpCurve.toVal_canon (o : FpCurve) : FpCurve.toVal (canon o) = FpCurve.toVal o := by
  simp only [FpCurve.toVal, sametree]
canon_ctors FpItem
@[sametree] theorem FpItem.toVal_canon (o : FpItem) : FpItem.toVal (canon o) = FpItem.toVal o := by
  cases o <;> simp only [FpItem.toVal, sametree]
canon_fields KeepoutSettings
@[sametree] theorem KeepoutSettings.toVal_canon (o : KeepoutSettings) : KeepoutSettings.toVal (canon o) = KeepoutSettings.toVal o := by
  simp only [KeepoutSettings.toVal, sametree]
canon_fields FillSettings
@[sametree] theorem FillSettings.toVal_canon (o : FillSettings) : FillSettings.toVal (canon o) = FillSettings.toVal o := by
  simp only [FillSettings.toVal, sametree]
canon_fields ZonePolygon
@[sametree] theorem ZonePolygon.toVal_canon (o : ZonePolygon) : ZonePolygon.toVal (canon o) = ZonePolygon.toVal o := by
  simp only [ZonePolygon.toVal, sametree]
canon_fields FilledPolygon
@[sametree] theorem FilledPolygon.toVal_canon (o : FilledPolygon) : FilledPolygon.toVal (canon o) = FilledPolygon.toVal o := by
  simp only [FilledPolygon.toVal, sametree]
canon_fields FillSegments
@[sametree] theorem FillSegments.toVal_canon (o : FillSegments) : FillSegments.toVal (canon o) = FillSegments.toVal o := by
  simp only [FillSegments.toVal, sametree]
canon_fields Hatch
canon_fields Zone
@[sametree] theorem Zone.toVal_canon (o : Zone) : Zone.toVal (canon o) = Zone.toVal o := by
  simp only [Zone.toVal, sametree]

canon_fields Attributes
@[sametree] theorem Attributes.toVal_canon (o : Attributes) : Attributes.toVal (canon o) = Attributes.toVal o := by
  simp only [Attributes.toVal, sametree]
canon_fields Model
@[sametree] theorem Model.toVal_canon (o : Model) : Model.toVal (canon o) = Model.toVal o := by
  simp only [Model.toVal, sametree]
canon_fields DrillDefinition
@[sametree] theorem DrillDefinition.toVal_canon (o : DrillDefinition) : DrillDefinition.toVal (canon o) = DrillDefinition.toVal o := by
  simp only [DrillDefinition.toVal, sametree]
canon_fields PadOptions
@[sametree] theorem PadOptions.toVal_canon (o : PadOptions) : PadOptions.toVal (canon o) = PadOptions.toVal o := by
  simp only [PadOptions.toVal, sametree]
canon_fields Pad
@[sametree] theorem Pad.toVal_canon (o : Pad) : Pad.toVal (canon o) = Pad.toVal o := by
  simp only [Pad.toVal, sametree]
canon_fields Footprint
@[sametree] theorem Attributes.isDefault_tree (o : Attributes) : (canon o).isDefault = o.isDefault := by
  simp only [Attributes.isDefault, sametree]
theorem Footprint.toVal_canon [TextRule] (o : Footprint) (h : o.WF) : Footprint.toVal (canon o) = Footprint.toVal o := by
  obtain ⟨h1, h2⟩ := SchIdOk.tree h.id
  simp only [Footprint.toVal, Footprint.libId, Footprint.libraryNickname_canon, Footprint.entryName_canon]
  rw [h1, h2]
  simp only [sametree]

canon_fields GeneralSettings
@[sametree] theorem GeneralSettings.toVal_canon (o : GeneralSettings) : GeneralSettings.toVal (canon o) = GeneralSettings.toVal o := by
  simp only [GeneralSettings.toVal, sametree]
canon_fields LayerToken
@[sametree] theorem LayerToken.toVal_canon (o : LayerToken) : LayerToken.toVal (canon o) = LayerToken.toVal o := by
  simp only [LayerToken.toVal, sametree]
canon_fields StackupSubLayer
@[sametree] theorem StackupSubLayer.toVals_canon (o : StackupSubLayer) : StackupSubLayer.toVals (canon o) = StackupSubLayer.toVals o := by
  simp only [StackupSubLayer.toVals, sametree]
canon_fields StackupLayer
@[sametree] theorem StackupLayer.toVal_canon (o : StackupLayer) : StackupLayer.toVal (canon o) = StackupLayer.toVal o := by
  simp only [StackupLayer.toVal, sametree]
canon_fields Stackup
@[sametree] theorem Stackup.toVal_canon (o : Stackup) : Stackup.toVal (canon o) = Stackup.toVal o := by
  simp only [Stackup.toVal, sametree]
canon_fields PlotSettings
@[sametree] theorem PlotSettings.toVal_canon (o : PlotSettings) : PlotSettings.toVal (canon o) = PlotSettings.toVal o := by
  simp only [PlotSettings.toVal, sametree]
canon_fields Segment
@[sametree] theorem Segment.toVal_canon (o : Segment) : Segment.toVal (canon o) = Segment.toVal o := by
  simp only [Segment.toVal, sametree]
canon_fields Via
@[sametree] theorem Via.toVal_canon (o : Via) : Via.toVal (canon o) = Via.toVal o := by
  simp only [Via.toVal, sametree]
canon_fields TraceArc
@[sametree] theorem TraceArc.toVal_canon (o : TraceArc) : TraceArc.toVal (canon o) = TraceArc.toVal o := by
  simp only [TraceArc.toVal, sametree]
canon_fields Target
@[sametree] theorem Target.toVal_canon (o : Target) : Target.toVal (canon o) = Target.toVal o := by
  simp only [Target.toVal, sametree]
canon_fields SetupData
@[sametree] theorem SetupData.toVal_canon (o : SetupData) : SetupData.toVal (canon o) = SetupData.toVal o := by
  simp only [SetupData.toVal, sametree]
canon_fields DimensionFormat
@[sametree] theorem DimensionFormat.toVal_canon (o : DimensionFormat) : DimensionFormat.toVal (canon o) = DimensionFormat.toVal o := by
  simp only [DimensionFormat.toVal, sametree]
canon_fields DimensionStyle
@[sametree] theorem DimensionStyle.toVal_canon (o : DimensionStyle) : DimensionStyle.toVal (canon o) = DimensionStyle.toVal o := by
  simp only [DimensionStyle.toVal, sametree]
canon_fields Dimension
@[sametree] theorem Dimension.toVal_canon (o : Dimension) : Dimension.toVal (canon o) = Dimension.toVal o := by
  simp only [Dimension.toVal, sametree]
canon_ctors TraceItem
@[sametree] theorem TraceItem.toVal_canon (o : TraceItem) : TraceItem.toVal (canon o) = TraceItem.toVal o := by
  cases o <;> simp only [TraceItem.toVal, sametree]
canon_fields Board
theorem Board.toVal_canon [TextRule] (o : Board) (h : o.WF) : Board.toVal (canon o) = Board.toVal o := by
  simp only [Board.toVal, Board.footprints_canon]
  rw [tree_map_of fun a ha => Footprint.toVal_canon a (h.footprints a ha)]
  simp only [sametree]

end Kiutils
