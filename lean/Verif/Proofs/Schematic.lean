import Verif.Format.Schematic
import Verif.Proofs.SchItems
import Verif.Proofs.Symbol
/-!
# Schematics: the text denotes `toVal`, `from_sexpr` reads `toVal`
-/
namespace Kiutils

seal Position.fromSexpr Stroke.fromSexpr Fill.fromSexpr Effects.fromSexpr Property.fromSexpr ColorRGBA.fromSexpr PageSettings.fromSexpr TitleBlock.fromSexpr Image.fromSexpr Symbol.fromSexpr Junction.fromSexpr NoConnect.fromSexpr BusEntry.fromSexpr BusAlias.fromSexpr Connection.fromSexpr PolyLine.fromSexpr Text.fromSexpr TextBox.fromSexpr LocalLabel.fromSexpr GlobalLabel.fromSexpr HierarchicalLabel.fromSexpr SchematicSymbol.fromSexpr HierarchicalSheet.fromSexpr HierarchicalSheetInstance.fromSexpr SymbolInstance.fromSexpr Rectangle.fromSexpr Arc.fromSexpr Circle.fromSexpr NetclassFlag.fromSexpr

theorem SchGraphic.lx [TextRule] {o : SchGraphic} (h : o.WF) {i s t} (hs : s ⇛ t) : (o.toSexpr i ++ s) ⇛ toks o.toVal ++ t := by
  cases o with
  | connection o => exact Connection.lx h hs
  | polyline o => exact PolyLine.lx h hs

macro_rules | `(tactic| lxObj) => `(tactic| ((with_reducible refine SchGraphic.lx ?_ ?_); (· wf)))

theorem Schematic.step_graphicalItems [TextRule] {o : Schematic} {a : SchGraphic} (h : a.WF) :
    Schematic.step o a.toVal = .ok { o with graphicalItems := o.graphicalItems ++ [canon a] } := by
  cases a with
  | connection a =>
    refine eq_bind (b := canon a) (fun v : Connection => { o with graphicalItems := o.graphicalItems ++ [SchGraphic.connection v] }) (Connection.from_toVal (o := a) h) ?_
    obtain ⟨type, points, stroke, uuid⟩ := a
    rcases h.type with h1 | h1 <;> simp only at h1 <;> subst h1 <;> rfl
  | polyline a =>
    refine eq_bind (b := canon a) (fun v : PolyLine => { o with graphicalItems := o.graphicalItems ++ [SchGraphic.polyline v] }) (PolyLine.from_toVal (o := a) h) ?_
    rfl

theorem SchShape.lx [TextRule] {o : SchShape} (h : o.WF) {i s t} (hs : s ⇛ t) : (o.toSexpr i ++ s) ⇛ toks o.toVal ++ t := by
  cases o with
  | arc o => exact Arc.lx h hs
  | circle o => exact Circle.lx h hs
  | rectangle o => exact Rectangle.lx h hs

macro_rules | `(tactic| lxObj) => `(tactic| ((with_reducible refine SchShape.lx ?_ ?_); (· wf)))

theorem Schematic.step_shapes [TextRule] {o : Schematic} {a : SchShape} (h : a.WF) :
    Schematic.step o a.toVal = .ok { o with shapes := o.shapes ++ [canon a] } := by
  cases a with
  | arc a =>
    refine eq_bind (b := canon a) (fun v : Arc => { o with shapes := o.shapes ++ [SchShape.arc v] }) (Arc.from_toVal (o := a) h) ?_
    rfl
  | circle a =>
    refine eq_bind (b := canon a) (fun v : Circle => { o with shapes := o.shapes ++ [SchShape.circle v] }) (Circle.from_toVal (o := a) h) ?_
    rfl
  | rectangle a =>
    refine eq_bind (b := canon a) (fun v : Rectangle => { o with shapes := o.shapes ++ [SchShape.rectangle v] }) (Rectangle.from_toVal (o := a) h) ?_
    rfl

theorem Schematic.from_toVal [TextRule] {o : Schematic} (h : o.WF) : Schematic.fromSexpr o.toVal = .ok (canon o.asRead) := by
  simp only [toVal, fromSexpr]
  foStart
  foSkip
  fld version
  dsimp only
  fld generator
  dsimp only
  fldO uuid
  dsimp only
  fld paper using PageSettings.from_toVal h.paper
  dsimp only
  fldO titleBlock using (fun a ha => TitleBlock.from_toVal (h.titleBlock a ha))
  dsimp only
  refine fo_map (fun o v => { o with libSymbols := v }) (fun a ha => Symbol.from_toVal (h.libSymbols a ha)) (by intro _; rfl) ?_
  dsimp only
  refine fo_listB (c := fun a => canon (Junction.asRead a)) (fun o v => { o with junctions := v }) (fun a ha => Junction.from_toVal (h.junctions a ha)) rfl (by intro _ _; rfl) ?_
  dsimp only
  fldL noConnects using (fun a ha => NoConnect.from_toVal (h.noConnects a ha))
  dsimp only
  fldL busEntries using (fun a ha => BusEntry.from_toVal (h.busEntries a ha))
  dsimp only
  fldL busAliases using (fun a _ => BusAlias.from_toVal)
  dsimp only
  refine fo_list (fun o v => { o with graphicalItems := v }) canon rfl (fun pre a ha => step_graphicalItems (h.graphicalItems a ha)) ?_
  dsimp only
  refine fo_list (fun o v => { o with shapes := v }) canon rfl (fun pre a ha => step_shapes (h.shapes a ha)) ?_
  dsimp only
  fldL images using (fun a ha => Image.from_toVal (h.images a ha))
  dsimp only
  fldL textBoxes using (fun a ha => TextBox.from_toVal (h.textBoxes a ha))
  dsimp only
  fldL texts using (fun a ha => Text.from_toVal (h.texts a ha))
  dsimp only
  fldL labels using (fun a ha => LocalLabel.from_toVal (h.labels a ha))
  dsimp only
  fldL globalLabels using (fun a ha => GlobalLabel.from_toVal (h.globalLabels a ha))
  dsimp only
  fldL hierarchicalLabels using (fun a ha => HierarchicalLabel.from_toVal (h.hierarchicalLabels a ha))
  dsimp only
  fldL netclassFlags using (fun a ha => NetclassFlag.from_toVal (h.netclassFlags a ha))
  dsimp only
  fldL schematicSymbols using (fun a ha => SchematicSymbol.from_toVal (h.schematicSymbols a ha))
  dsimp only
  refine fo_listB (c := fun a => canon (HierarchicalSheet.asRead a)) (fun o v => { o with sheets := v }) (fun a ha => HierarchicalSheet.from_toVal (h.sheets a ha)) rfl (by intro _ _; rfl) ?_
  dsimp only
  fldM sheetInstances using (fun a ha => HierarchicalSheetInstance.from_toVal (h.sheetInstances a ha))
  dsimp only
  fldM symbolInstances using (fun a ha => SymbolInstance.from_toVal (h.symbolInstances a ha))
  rw [fo_end]
  refine congrArg Except.ok ?_
  dsimp only
  simp only [canon, asRead, List.map_map]
  rfl

seal Schematic.fromSexpr

theorem Schematic.lexes [TextRule] {o : Schematic} (h : o.WF) (i nl) : Lexes (o.toSexpr i nl) [o.toVal] := by
  obtain ⟨h1, h2, h3, h4, h5, h6, h7, h8, h9, h10, h11, h12, h13, h14, h15, h16, h17, h18, h19, h20, h21, h22, h23⟩ := h
  obtain ⟨x1, hx1, hy1⟩ := PageSettings.lx h4 (i + 2) true
  obtain ⟨x2, hx2, hy2⟩ := Lexes.forSM (f := fun a => Junction.toSexpr a (i + 2)) fun a ha => Junction.lexes (h7 a ha) (i + 2) true
  obtain ⟨x3, hx3, hy3⟩ := Lexes.forSM (f := fun a => Text.toSexpr a (i + 2)) fun a ha => Text.lexes (h15 a ha) (i + 2) true
  obtain ⟨x4, hx4, hy4⟩ := Lexes.forSM (f := fun a => NetclassFlag.toSexpr a (i + 2)) fun a ha =>
    NetclassFlag.lexes (h19 a ha) (i + 2) true
  obtain ⟨x5, hx5, hy5⟩ := Lexes.forSM (f := fun x : HierarchicalSheet => do return py!"\n{← x.toSexpr (i + 2)}")
    (g := HierarchicalSheet.toVal) (xs := o.sheets) fun a ha => by
      obtain ⟨x, hx, hy⟩ := HierarchicalSheet.lexes (h21 a ha) (i + 2) true
      exact ⟨'\n' :: x, by rw [hx]; rfl, fun s t hs => lx_nl (hy _ _ hs)⟩
  refine ⟨_, by rw [toSexpr, hx1, hx2, hx3, hx4, hx5]; rfl, fun s t hs => ?_⟩
  have hl : ∀ {s t}, s ⇛ t → ((if o.libSymbols.isEmpty then py!"{indents i}  (lib_symbols)\n"
      else py!"\n{indents i}  (lib_symbols" ++ (forS o.libSymbols fun s => py!"\n{s.toSexpr (i + 4)}") ++
        py!"{indents i}  )\n") ++ s) ⇛ toks (.list (.str k!"lib_symbols" :: o.libSymbols.map Symbol.toVal)) ++ t := by
    intro s t hs
    cases he : o.libSymbols with
    | nil =>
      simp only [List.isEmpty_nil, if_true, List.map_nil]
      lxNorm
      lxAuto
    | cons a l =>
      rw [he] at h6
      simp only [List.isEmpty_cons, Bool.false_eq_true, if_false]
      lxNorm
      lxAuto
  generalize (if o.libSymbols.isEmpty then py!"{indents i}  (lib_symbols)\n"
      else py!"\n{indents i}  (lib_symbols" ++ (forS o.libSymbols fun s => py!"\n{s.toSexpr (i + 4)}") ++
        py!"{indents i}  )\n") = L at hl ⊢
  simp only [toVal]
  simp only [toks_list, List.append_assoc, List.cons_append, List.nil_append, toksL_cons, toksL_nil, toksL_append] at hl hy1
  lxNorm
  lxAuto

end Kiutils
