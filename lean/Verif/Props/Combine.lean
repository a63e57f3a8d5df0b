import Verif.Props.Examples
/-!
# C84: items can be chosen from two files and put together

A program loads two files of the same kind, gives the first object any selection of the items of both, in any order and with
repetitions, and saves it in place: deleting, sorting, copying and merging items.
-/
namespace Kiutils

/-! ## Specification -/

/-- An item by its position: in the first file or in the second. -/
inductive Pick where
  | first (i : Nat)
  | second (i : Nat)

/-- The items at the positions `ps`, in this order. A position beyond the end chooses nothing. -/
def chosen {α : Type} (ps : List Pick) (a b : List α) : List α :=
  ps.filterMap fun
    | .first i => a[i]?
    | .second i => b[i]?

/-- Positions for every kind of items of a footprint. -/
structure FootprintPicks where
  graphicItems : List Pick
  pads : List Pick
  zones : List Pick
  groups : List Pick
  models : List Pick

/-- Positions for every kind of items of a schematic. -/
structure SchematicPicks where
  libSymbols : List Pick
  schematicSymbols : List Pick
  junctions : List Pick
  noConnects : List Pick
  busEntries : List Pick
  busAliases : List Pick
  graphicalItems : List Pick
  shapes : List Pick
  images : List Pick
  texts : List Pick
  textBoxes : List Pick
  labels : List Pick
  globalLabels : List Pick
  hierarchicalLabels : List Pick
  netclassFlags : List Pick
  sheets : List Pick
  sheetInstances : List Pick
  symbolInstances : List Pick

/-- Positions for every kind of items of a board. -/
structure BoardPicks where
  layers : List Pick
  nets : List Pick
  footprints : List Pick
  graphicItems : List Pick
  traceItems : List Pick
  zones : List Pick
  dimensions : List Pick
  targets : List Pick
  groups : List Pick

/-- `a = LibTable.from_file(p); b = LibTable.from_file(q)`; the items of `a` are replaced by those chosen; `a.to_file()`. -/
def combineLibTable (env : Env) (ps : List Pick) (p q : Path) : FileM Unit := do
  let a ← LibTable.fromFile env p none
  let b ← LibTable.fromFile env q none
  saving (LibTable.toFile env { a with libs := chosen ps a.libs b.libs } none none)

/-- `a = SymbolLib.from_file(p); b = SymbolLib.from_file(q)`; the items of `a` are replaced by those chosen; `a.to_file()`. -/
def combineSymbolLib (env : Env) (ps : List Pick) (p q : Path) : FileM Unit := do
  let a ← SymbolLib.fromFile env p none
  let b ← SymbolLib.fromFile env q none
  saving (SymbolLib.toFile env { a with symbols := chosen ps a.symbols b.symbols } none none)

/-- `a = WorkSheet.from_file(p); b = WorkSheet.from_file(q)`; the items of `a` are replaced by those chosen; `a.to_file()`. -/
def combineWorkSheet (env : Env) (ps : List Pick) (p q : Path) : FileM Unit := do
  let a ← WorkSheet.fromFile env p none
  let b ← WorkSheet.fromFile env q none
  saving (WorkSheet.toFile env { a with drawingObjects := chosen ps a.drawingObjects b.drawingObjects } none)

/-- `a = DesignRules.from_file(p); b = DesignRules.from_file(q)`; the items of `a` are replaced by those chosen; `a.to_file()`. -/
def combineDesignRules (env : Env) (ps : List Pick) (p q : Path) : FileM Unit := do
  let a ← DesignRules.fromFile env p none
  let b ← DesignRules.fromFile env q none
  saving (DesignRules.toFile env { a with rules := chosen ps a.rules b.rules } none none)

/-- `a = Footprint.from_file(p); b = Footprint.from_file(q)`; the items of `a` are replaced by those chosen; `a.to_file(p)`. -/
def combineFootprint (env : Env) (tedit : Val) (k : FootprintPicks) (p q : Path) : FileM Unit := do
  let a ← Footprint.fromFile env tedit p none
  let b ← Footprint.fromFile env tedit q none
  saving (Footprint.toFile env { a with graphicItems := chosen k.graphicItems a.graphicItems b.graphicItems, pads := chosen k.pads a.pads b.pads, zones := chosen k.zones a.zones b.zones, groups := chosen k.groups a.groups b.groups, models := chosen k.models a.models b.models } (some p) none)

/-- `a = Schematic.from_file(p); b = Schematic.from_file(q)`; the items of `a` are replaced by those chosen; `a.to_file()`. -/
def combineSchematic (env : Env) (k : SchematicPicks) (p q : Path) : FileM Unit := do
  let a ← Schematic.fromFile env p none
  let b ← Schematic.fromFile env q none
  saving (Schematic.toFile env { a with libSymbols := chosen k.libSymbols a.libSymbols b.libSymbols, schematicSymbols := chosen k.schematicSymbols a.schematicSymbols b.schematicSymbols, junctions := chosen k.junctions a.junctions b.junctions, noConnects := chosen k.noConnects a.noConnects b.noConnects, busEntries := chosen k.busEntries a.busEntries b.busEntries, busAliases := chosen k.busAliases a.busAliases b.busAliases, graphicalItems := chosen k.graphicalItems a.graphicalItems b.graphicalItems, shapes := chosen k.shapes a.shapes b.shapes, images := chosen k.images a.images b.images, texts := chosen k.texts a.texts b.texts, textBoxes := chosen k.textBoxes a.textBoxes b.textBoxes, labels := chosen k.labels a.labels b.labels, globalLabels := chosen k.globalLabels a.globalLabels b.globalLabels, hierarchicalLabels := chosen k.hierarchicalLabels a.hierarchicalLabels b.hierarchicalLabels, netclassFlags := chosen k.netclassFlags a.netclassFlags b.netclassFlags, sheets := chosen k.sheets a.sheets b.sheets, sheetInstances := chosen k.sheetInstances a.sheetInstances b.sheetInstances, symbolInstances := chosen k.symbolInstances a.symbolInstances b.symbolInstances } none none)

/-- `a = Board.from_file(p); b = Board.from_file(q)`; the items of `a` are replaced by those chosen; `a.to_file()`. -/
def combineBoard (env : Env) (tedit : Val) (k : BoardPicks) (p q : Path) : FileM Unit := do
  let a ← Board.fromFile env tedit p none
  let b ← Board.fromFile env tedit q none
  saving (Board.toFile env { a with layers := chosen k.layers a.layers b.layers, nets := chosen k.nets a.nets b.nets, footprints := chosen k.footprints a.footprints b.footprints, graphicItems := chosen k.graphicItems a.graphicItems b.graphicItems, traceItems := chosen k.traceItems a.traceItems b.traceItems, zones := chosen k.zones a.zones b.zones, dimensions := chosen k.dimensions a.dimensions b.dimensions, targets := chosen k.targets a.targets b.targets, groups := chosen k.groups a.groups b.groups } none none)

/-! ## Lemmas -/

theorem chosen_map {α β : Type} (f : α → β) (ps : List Pick) (a b : List α) : chosen ps (a.map f) (b.map f) = (chosen ps a b).map f := by
  unfold chosen
  rw [List.map_filterMap]
  congr 1
  funext k
  cases k <;> simp

theorem chosen_canon {α : Type} [Canon α] (ps : List Pick) (a b : List α) : chosen ps (canon a) (canon b) = canon (chosen ps a b) :=
  chosen_map canon ps a b

theorem chosen_mem {α : Type} {ps : List Pick} {a b : List α} {x : α} (h : x ∈ chosen ps a b) : x ∈ a ∨ x ∈ b := by
  obtain ⟨k, _, hk⟩ := List.mem_filterMap.1 h
  cases k with
  | first i => exact .inl (List.mem_of_getElem? hk)
  | second i => exact .inr (List.mem_of_getElem? hk)

theorem chosen_all {α : Type} {P : α → Prop} {ps : List Pick} {a b : List α} (ha : ∀ v ∈ a, P v) (hb : ∀ v ∈ b, P v) : ∀ v ∈ chosen ps a b, P v :=
  fun v hv => (chosen_mem hv).elim (ha v) (hb v)

theorem chosen_only {Q : Str → Prop} {α : Type} [Texts α] {ps : List Pick} {a b : List α} (ha : Only Q a) (hb : Only Q b) :
    Only Q (chosen ps a b) := fun s hs => by
  obtain ⟨x, hx, hxs⟩ := List.mem_flatMap.1 (show s ∈ (chosen ps a b).flatMap texts from hs)
  exact (chosen_mem hx).elim (fun h => ha s (List.mem_flatMap.2 ⟨x, h, hxs⟩)) (fun h => hb s (List.mem_flatMap.2 ⟨x, h, hxs⟩))

/-! ## LibTable -/

theorem LibTable.opens {o : LibTable} (h : o.WF) {env : Env} {has : Char → Prop} (he : Usual env has) {p : Path} {fs : FS}
    (hf : Holds env fs p o.toVal) :
    ∃ a, a = canon { o with filePath := none } ∧ LibTable.fromFile env p none fs = (.ok { a with filePath := some p }, fs) ∧
      Only (Chars (NoCR has)) a := by
  obtain ⟨text, hc, hs⟩ := hf
  have hb := noCR_base he.charWise
  have hl := parse_load hs (LibTable.from_toVal h)
  have hch := contains_noCR (show CharWise (used env none) has from he.charWise) hc
  obtain ⟨v, hv, ho⟩ := bind_ok_split hl
  have hs : Only (Chars (NoCR has)) v := fun s hs => stands_chars (parse_stands hv s hs) hch
  exact ⟨_, rfl, Session.load C58_LibTable hc (congrArg (Except.map fun o => { o with filePath := some p }) hl),
    fun s h => orig_chars (LibTable.fromSexpr_only hs _ ho s h)⟩

theorem LibTable.leaves {o : LibTable} (h : o.WF) {env : Env} {has : Char → Prop} (he : Usual env has) {fp : Option Path} {p : Path} {fs : FS}
    (hp : (Doc.libTable o).target fp = some p) (hw : Openable fs p) (hr : fs.canRead p = true) (hc : Only (Chars (NoCR has)) o) :
    Leaves (saving (LibTable.toFile env o fp none) fs) env fs p o.toVal := by
  have := noCR_base he.charWise
  have hv : parseSexp (LibTable.toSexpr o) = .ok o.toVal := (Lexes.one fun _ _ hs => LibTable.lx h (i := 0) hs : Lexes (.ok o.toSexpr) [o.toVal]).parse
  have ht : (Doc.libTable o).text = .ok (LibTable.toSexpr o) := rfl
  have hs := saved_as (.libTable o) (fp := fp) (enc := none) (enc' := none) he.charWise he.lawful rfl hp ht (LibTable.toSexpr_chars hc) he.room hw hr
  exact ⟨hs.success, hs.only, _, hs.content, hv⟩

/-- The first file then holds the chosen items of both, and otherwise what it held. -/
theorem C84_LibTable (o o2 : LibTable) (h : o.WF) (h2 : o2.WF) (ps : List Pick) (env : Env) (has : Char → Prop) (he : Usual env has)
    (p q : Path) (fs : FS) (hp : Holds env fs p o.toVal) (hq : Holds env fs q o2.toVal) (hw : Openable fs p) :
    Leaves (combineLibTable env ps p q fs) env fs p (LibTable.toVal { o with libs := chosen ps o.libs o2.libs }) := by
  have hr : fs.canRead p = true := let ⟨_, hc, _⟩ := hp; contains_canRead hc
  have hb := noCR_base he.charWise
  obtain ⟨a, ha, hl, hon⟩ := LibTable.opens h he hp
  obtain ⟨b, hb, hl2, hon2⟩ := LibTable.opens h2 he hq
  have h0 : LibTable.WF { o with filePath := none } := { h with }
  have h02 : LibTable.WF { o2 with filePath := none } := { h2 with }
  have h1 : LibTable.WF { ({ o with filePath := none } : LibTable) with libs := chosen ps ({ o with filePath := none } : LibTable).libs ({ o2 with filePath := none } : LibTable).libs } :=
    { h0 with libs := chosen_all h0.libs h02.libs }
  have hnew : ({ a with libs := chosen ps a.libs b.libs } : LibTable) = canon ({ ({ o with filePath := none } : LibTable) with libs := chosen ps ({ o with filePath := none } : LibTable).libs ({ o2 with filePath := none } : LibTable).libs } : LibTable) := by
    rw [ha, hb]
    show _ = ({ canon ({ o with filePath := none } : LibTable) with libs := canon (chosen ps ({ o with filePath := none } : LibTable).libs ({ o2 with filePath := none } : LibTable).libs) } : LibTable)
    simp only [← chosen_canon]
    rfl
  have hwn : LibTable.WF { a with libs := chosen ps a.libs b.libs } := hnew ▸ Stable.keep h1
  have hw' : LibTable.WF { ({ a with libs := chosen ps a.libs b.libs } : LibTable) with filePath := some p } := { hwn with }
  have hend := LibTable.leaves hw' he (fp := none) (p := p) rfl hw hr
    (LibTable.of_only (LibTable.type_only hon :) (chosen_only (LibTable.libs_only hon :) (LibTable.libs_only hon2 :)))
  have hrun : combineLibTable env ps p q fs = saving (LibTable.toFile env { ({ a with libs := chosen ps a.libs b.libs } : LibTable) with filePath := some p } none none) fs := by
    unfold combineLibTable
    rw [run_ok hl, run_ok hl2]
  rw [hrun]
  refine (congrArg (Leaves _ env fs p) ?_).mp hend
  show LibTable.toVal { a with libs := chosen ps a.libs b.libs } = _
  rw [hnew, LibTable.toVal_canon _]
  rfl

/-! ## SymbolLib -/

theorem SymbolLib.leaves {o : SymbolLib} (h : o.WF) {env : Env} {has : Char → Prop} (he : Usual env has) {fp : Option Path} {p : Path} {fs : FS}
    (hp : (Doc.symbolLib o).target fp = some p) (hw : Openable fs p) (hr : fs.canRead p = true) (hc : Only (Chars (NoCR has)) o) :
    Leaves (saving (SymbolLib.toFile env o fp none) fs) env fs p o.toVal := by
  have := noCR_base he.charWise
  have hv : parseSexp (SymbolLib.toSexpr o) = .ok o.toVal := (Lexes.one fun _ _ hs => SymbolLib.lx h (i := 0) hs : Lexes (.ok o.toSexpr) [o.toVal]).parse
  have ht : (Doc.symbolLib o).text = .ok (SymbolLib.toSexpr o) := rfl
  have hs := saved_as (.symbolLib o) (fp := fp) (enc := none) (enc' := none) he.charWise he.lawful rfl hp ht (SymbolLib.toSexpr_chars hc) he.room hw hr
  exact ⟨hs.success, hs.only, _, hs.content, hv⟩

/-- The first file then holds the chosen items of both, and otherwise what it held. -/
theorem C84_SymbolLib (o o2 : SymbolLib) (h : o.WF) (h2 : o2.WF) (ps : List Pick) (env : Env) (has : Char → Prop) (he : Usual env has)
    (p q : Path) (fs : FS) (hp : Holds env fs p o.toVal) (hq : Holds env fs q o2.toVal) (hw : Openable fs p) :
    Leaves (combineSymbolLib env ps p q fs) env fs p (SymbolLib.toVal { o with symbols := chosen ps o.symbols o2.symbols }) := by
  have hr : fs.canRead p = true := let ⟨_, hc, _⟩ := hp; contains_canRead hc
  have hb := noCR_base he.charWise
  obtain ⟨a, ha, hl, hon⟩ := SymbolLib.opens h he hp
  obtain ⟨b, hb, hl2, hon2⟩ := SymbolLib.opens h2 he hq
  have h0 : SymbolLib.WF { o with filePath := none } := { h with }
  have h02 : SymbolLib.WF { o2 with filePath := none } := { h2 with }
  have h1 : SymbolLib.WF { ({ o with filePath := none } : SymbolLib) with symbols := chosen ps ({ o with filePath := none } : SymbolLib).symbols ({ o2 with filePath := none } : SymbolLib).symbols } :=
    { h0 with symbols := chosen_all h0.symbols h02.symbols }
  have hnew : ({ a with symbols := chosen ps a.symbols b.symbols } : SymbolLib) = canon ({ ({ o with filePath := none } : SymbolLib) with symbols := chosen ps ({ o with filePath := none } : SymbolLib).symbols ({ o2 with filePath := none } : SymbolLib).symbols } : SymbolLib) := by
    rw [ha, hb]
    show _ = ({ canon ({ o with filePath := none } : SymbolLib) with symbols := canon (chosen ps ({ o with filePath := none } : SymbolLib).symbols ({ o2 with filePath := none } : SymbolLib).symbols) } : SymbolLib)
    simp only [← chosen_canon]
    rfl
  have hwn : SymbolLib.WF { a with symbols := chosen ps a.symbols b.symbols } := hnew ▸ Stable.keep h1
  have hw' : SymbolLib.WF { ({ a with symbols := chosen ps a.symbols b.symbols } : SymbolLib) with filePath := some p } := { hwn with }
  have hend := SymbolLib.leaves hw' he (fp := none) (p := p) rfl hw hr
    (SymbolLib.of_only (SymbolLib.version_only hon :) (SymbolLib.generator_only hon :) (chosen_only (SymbolLib.symbols_only hon :) (SymbolLib.symbols_only hon2 :)))
  have hrun : combineSymbolLib env ps p q fs = saving (SymbolLib.toFile env { ({ a with symbols := chosen ps a.symbols b.symbols } : SymbolLib) with filePath := some p } none none) fs := by
    unfold combineSymbolLib
    rw [run_ok hl, run_ok hl2]
  rw [hrun]
  refine (congrArg (Leaves _ env fs p) ?_).mp hend
  show SymbolLib.toVal { a with symbols := chosen ps a.symbols b.symbols } = _
  rw [hnew, SymbolLib.toVal_canon _ h1]
  rfl

/-! ## WorkSheet -/

theorem WorkSheet.opens {o : WorkSheet} (h : o.WF) {env : Env} {has : Char → Prop} (he : Usual env has) {p : Path} {fs : FS}
    (hf : Holds env fs p o.toVal) :
    ∃ a, a = canon { o with filePath := none } ∧ WorkSheet.fromFile env p none fs = (.ok { a with filePath := some p }, fs) ∧
      Only (Chars (NoCR has)) a := by
  obtain ⟨text, hc, hs⟩ := hf
  have hb := noCR_base he.charWise
  have hl := parse_load hs (WorkSheet.from_toVal h)
  have hch := contains_noCR (show CharWise (used env none) has from he.charWise) hc
  obtain ⟨v, hv, ho⟩ := bind_ok_split hl
  have hs : Only (Chars (NoCR has)) v := fun s hs => stands_chars (parse_stands hv s hs) hch
  exact ⟨_, rfl, Session.load C58_WorkSheet hc (congrArg (Except.map fun o => { o with filePath := some p }) hl),
    fun s h => orig_chars (WorkSheet.fromSexpr_only hs _ ho s h)⟩

theorem WorkSheet.leaves {o : WorkSheet} (h : o.WF) {env : Env} {has : Char → Prop} (he : Usual env has) {fp : Option Path} {p : Path} {fs : FS}
    (hp : (Doc.workSheet o).target fp = some p) (hw : Openable fs p) (hr : fs.canRead p = true) (hc : Only (Chars (NoCR has)) o) :
    Leaves (saving (WorkSheet.toFile env o fp) fs) env fs p o.toVal := by
  have := noCR_base he.charWise
  have hx := (WorkSheet.lx h 0 true).parse
  obtain ⟨t, ht, hv⟩ := bind_ok_split hx
  have hs := saved_as (.workSheet o) (fp := fp) (enc := none) (enc' := none) he.charWise he.lawful rfl hp ht (WorkSheet.toSexpr_chars hc t ht) he.room hw hr
  exact ⟨hs.success, hs.only, t, hs.content, hv⟩

/-- The first file then holds the chosen items of both, and otherwise what it held. -/
theorem C84_WorkSheet (o o2 : WorkSheet) (h : o.WF) (h2 : o2.WF) (ps : List Pick) (env : Env) (has : Char → Prop) (he : Usual env has)
    (p q : Path) (fs : FS) (hp : Holds env fs p o.toVal) (hq : Holds env fs q o2.toVal) (hw : Openable fs p) :
    Leaves (combineWorkSheet env ps p q fs) env fs p (WorkSheet.toVal { o with drawingObjects := chosen ps o.drawingObjects o2.drawingObjects }) := by
  have hr : fs.canRead p = true := let ⟨_, hc, _⟩ := hp; contains_canRead hc
  have hb := noCR_base he.charWise
  obtain ⟨a, ha, hl, hon⟩ := WorkSheet.opens h he hp
  obtain ⟨b, hb, hl2, hon2⟩ := WorkSheet.opens h2 he hq
  have h0 : WorkSheet.WF { o with filePath := none } := { h with }
  have h02 : WorkSheet.WF { o2 with filePath := none } := { h2 with }
  have h1 : WorkSheet.WF { ({ o with filePath := none } : WorkSheet) with drawingObjects := chosen ps ({ o with filePath := none } : WorkSheet).drawingObjects ({ o2 with filePath := none } : WorkSheet).drawingObjects } :=
    { h0 with drawingObjects := chosen_all h0.drawingObjects h02.drawingObjects }
  have hnew : ({ a with drawingObjects := chosen ps a.drawingObjects b.drawingObjects } : WorkSheet) = canon ({ ({ o with filePath := none } : WorkSheet) with drawingObjects := chosen ps ({ o with filePath := none } : WorkSheet).drawingObjects ({ o2 with filePath := none } : WorkSheet).drawingObjects } : WorkSheet) := by
    rw [ha, hb]
    show _ = ({ canon ({ o with filePath := none } : WorkSheet) with drawingObjects := canon (chosen ps ({ o with filePath := none } : WorkSheet).drawingObjects ({ o2 with filePath := none } : WorkSheet).drawingObjects) } : WorkSheet)
    simp only [← chosen_canon]
    rfl
  have hwn : WorkSheet.WF { a with drawingObjects := chosen ps a.drawingObjects b.drawingObjects } := hnew ▸ Stable.keep h1
  have hw' : WorkSheet.WF { ({ a with drawingObjects := chosen ps a.drawingObjects b.drawingObjects } : WorkSheet) with filePath := some p } := { hwn with }
  have hend := WorkSheet.leaves hw' he (fp := none) (p := p) rfl hw hr
    (WorkSheet.of_only (WorkSheet.version_only hon :) (WorkSheet.generator_only hon :) (WorkSheet.setup_only hon :) (chosen_only (WorkSheet.drawingObjects_only hon :) (WorkSheet.drawingObjects_only hon2 :)))
  have hrun : combineWorkSheet env ps p q fs = saving (WorkSheet.toFile env { ({ a with drawingObjects := chosen ps a.drawingObjects b.drawingObjects } : WorkSheet) with filePath := some p } none) fs := by
    unfold combineWorkSheet
    rw [run_ok hl, run_ok hl2]
  rw [hrun]
  refine (congrArg (Leaves _ env fs p) ?_).mp hend
  show WorkSheet.toVal { a with drawingObjects := chosen ps a.drawingObjects b.drawingObjects } = _
  rw [hnew, WorkSheet.toVal_canon _]
  rfl

/-! ## DesignRules -/

/-- The file can be read, and its text is one of the texts of the rules `l`. -/
def HoldsRules (env : Env) (fs : FS) (p : Path) (l : List Val) : Prop := ∃ t, Contains env fs p none t ∧ PrintsSeq l t

/-- The first file then holds the chosen rules of both, in the version it had. -/
theorem C84_DesignRules (o o2 : DesignRules) (h : o.WF) (h2 : o2.WF) (ps : List Pick) (env : Env) (has : Char → Prop) (he : Usual env has)
    (p q : Path) (fs : FS) (hp : HoldsRules env fs p o.toVals) (hq : HoldsRules env fs q o2.toVals) (hw : Openable fs p) :
    (combineDesignRules env ps p q fs).1 = .ok () ∧ OnlyAt p fs (combineDesignRules env ps p q fs).2 ∧
      ∃ t, Contains env (combineDesignRules env ps p q fs).2 p none t ∧
        parseSexp ('(' :: (t ++ [')'])) = .ok (.list (DesignRules.toVals { o with rules := chosen ps o.rules o2.rules })) := by
  have hr : fs.canRead p = true := let ⟨_, hc, _⟩ := hp; contains_canRead hc
  have hb := noCR_base he.charWise
  have hopens : ∀ {o : DesignRules} (_ : o.WF) {p : Path} (_ : HoldsRules env fs p o.toVals),
      ∃ a, a = canon ({ o with filePath := none } : DesignRules) ∧ DesignRules.fromFile env p none fs = (.ok { a with filePath := some p }, fs) ∧ Only (Chars (NoCR has)) a := by
    intro o h p ⟨text, hc, hs⟩
    have hpa : parseSexp ('(' :: (text ++ [')'])) = .ok (.list o.toVals) :=
      C06_tree_round_trip _ _ ⟨[], text, (fun c hc => nomatch hc), hs, rfl⟩
    have hl : (parseSexp ('(' :: (text ++ [')'])) >>= DesignRules.fromSexpr) = .ok (canon { o with filePath := none }) := by
      rw [hpa]; exact DesignRules.from_toVals h
    have hch := contains_noCR (show CharWise (used env none) has from he.charWise) hc
    have hv : Only (Chars (NoCR has)) (Val.list o.toVals) := fun s hs => stands_chars (parse_stands hpa s hs) (.cons (by decide) (.append hch (.cons (by decide) .nil)))
    exact ⟨_, rfl, Session.load C58_DesignRules hc (congrArg (Except.map fun o => { o with filePath := some p }) hl),
      fun s hs => orig_chars (DesignRules.fromSexpr_only hv _ (DesignRules.from_toVals h) s hs)⟩
  obtain ⟨a, ha, hl, hon⟩ := hopens h hp
  obtain ⟨b, hb', hl2, hon2⟩ := hopens h2 hq
  have h1 : DesignRules.WF { version := o.version, rules := chosen ps o.rules o2.rules } :=
    ⟨h.version, chosen_all h.rules h2.rules⟩
  have hnew : ({ a with rules := chosen ps a.rules b.rules } : DesignRules) = canon ({ version := o.version, rules := chosen ps o.rules o2.rules } : DesignRules) := by
    rw [ha, hb']
    show _ = ({ version := canon o.version, rules := canon (chosen ps o.rules o2.rules), filePath := _ } : DesignRules)
    rw [← chosen_canon]
    rfl
  have hwn : DesignRules.WF { a with rules := chosen ps a.rules b.rules } := hnew ▸ Stable.keep h1
  have hw' : DesignRules.WF { ({ a with rules := chosen ps a.rules b.rules } : DesignRules) with filePath := some p } := { hwn with }
  have hx := C48_DesignRules _ hw' 0 false
  have hrun : combineDesignRules env ps p q fs = saving (DesignRules.toFile env { ({ a with rules := chosen ps a.rules b.rules } : DesignRules) with filePath := some p } none none) fs := by
    unfold combineDesignRules
    rw [run_ok hl, run_ok hl2]
  have hval : DesignRules.toVals { ({ a with rules := chosen ps a.rules b.rules } : DesignRules) with filePath := some p } = DesignRules.toVals { o with rules := chosen ps o.rules o2.rules } := by
    show DesignRules.toVals { a with rules := chosen ps a.rules b.rules } = _
    rw [hnew, DesignRules.toVals_canon]
    rfl
  have hon' : Only (Chars (NoCR has)) ({ ({ a with rules := chosen ps a.rules b.rules } : DesignRules) with filePath := some p } : DesignRules) :=
    DesignRules.of_only (DesignRules.version_only hon :) (chosen_only (DesignRules.rules_only hon :) (DesignRules.rules_only hon2 :))
  rw [hrun, ← hval]
  unfold Denotes at hx
  cases ht : DesignRules.toSexpr { ({ a with rules := chosen ps a.rules b.rules } : DesignRules) with filePath := some p } with
  | error e => rw [ht] at hx; cases hx
  | ok t =>
    rw [ht] at hx
    have hs := saved_as (.designRules { ({ a with rules := chosen ps a.rules b.rules } : DesignRules) with filePath := some p }) (fp := none) (enc := none) (enc' := none)
      he.charWise he.lawful rfl rfl ht (DesignRules.toSexpr_chars hon' t ht) he.room hw hr
    exact ⟨hs.success, hs.only, t, hs.content, hx⟩

/-! ## Footprint -/

theorem Footprint.leaves {o : Footprint} (h : o.WF) {env : Env} {has : Char → Prop} (he : Usual env has) {fp : Option Path} {p : Path} {fs : FS}
    (hp : (Doc.footprint o).target fp = some p) (hw : Openable fs p) (hr : fs.canRead p = true) (hc : Only (Chars (NoCR has)) o) :
    Leaves (saving (Footprint.toFile env o fp none) fs) env fs p o.toVal := by
  have := noCR_base he.charWise
  have hx := (Footprint.lexes h 0 true false).parse
  obtain ⟨t, ht, hv⟩ := bind_ok_split hx
  have hs := saved_as (.footprint o) (fp := fp) (enc := none) (enc' := none) he.charWise he.lawful rfl hp ht (Footprint.toSexpr_chars hc t ht) he.room hw hr
  exact ⟨hs.success, hs.only, t, hs.content, hv⟩

/-- The first file then holds the chosen items of both, and otherwise what it held. The path has to be given again (C27). -/
theorem C84_Footprint (o o2 : Footprint) (h : o.WF) (h2 : o2.WF) (k : FootprintPicks) (env : Env) (has : Char → Prop) (he : Usual env has) (tedit : Val) (hclock : PlainClock tedit)
    (p q : Path) (fs : FS) (hp : Holds env fs p o.toVal) (hq : Holds env fs q o2.toVal) (hw : Openable fs p) :
    Leaves (combineFootprint env tedit k p q fs) env fs p (Footprint.toVal { o with graphicItems := chosen k.graphicItems o.graphicItems o2.graphicItems, pads := chosen k.pads o.pads o2.pads, zones := chosen k.zones o.zones o2.zones, groups := chosen k.groups o.groups o2.groups, models := chosen k.models o.models o2.models }) := by
  have hr : fs.canRead p = true := let ⟨_, hc, _⟩ := hp; contains_canRead hc
  have hb := noCR_base he.charWise
  obtain ⟨a, ha, hl, hon⟩ := Footprint.opens h he tedit hclock hp
  obtain ⟨b, hb, hl2, hon2⟩ := Footprint.opens h2 he tedit hclock hq
  have h0 : Footprint.WF { o with filePath := none } := { h with }
  have h02 : Footprint.WF { o2 with filePath := none } := { h2 with }
  have h1 : Footprint.WF { ({ o with filePath := none } : Footprint) with graphicItems := chosen k.graphicItems ({ o with filePath := none } : Footprint).graphicItems ({ o2 with filePath := none } : Footprint).graphicItems, pads := chosen k.pads ({ o with filePath := none } : Footprint).pads ({ o2 with filePath := none } : Footprint).pads, zones := chosen k.zones ({ o with filePath := none } : Footprint).zones ({ o2 with filePath := none } : Footprint).zones, groups := chosen k.groups ({ o with filePath := none } : Footprint).groups ({ o2 with filePath := none } : Footprint).groups, models := chosen k.models ({ o with filePath := none } : Footprint).models ({ o2 with filePath := none } : Footprint).models } :=
    { h0 with graphicItems := chosen_all h0.graphicItems h02.graphicItems, pads := chosen_all h0.pads h02.pads, zones := chosen_all h0.zones h02.zones, groups := chosen_all h0.groups h02.groups, models := chosen_all h0.models h02.models }
  have hnew : ({ a with graphicItems := chosen k.graphicItems a.graphicItems b.graphicItems, pads := chosen k.pads a.pads b.pads, zones := chosen k.zones a.zones b.zones, groups := chosen k.groups a.groups b.groups, models := chosen k.models a.models b.models } : Footprint) = canon ({ ({ o with filePath := none } : Footprint) with graphicItems := chosen k.graphicItems ({ o with filePath := none } : Footprint).graphicItems ({ o2 with filePath := none } : Footprint).graphicItems, pads := chosen k.pads ({ o with filePath := none } : Footprint).pads ({ o2 with filePath := none } : Footprint).pads, zones := chosen k.zones ({ o with filePath := none } : Footprint).zones ({ o2 with filePath := none } : Footprint).zones, groups := chosen k.groups ({ o with filePath := none } : Footprint).groups ({ o2 with filePath := none } : Footprint).groups, models := chosen k.models ({ o with filePath := none } : Footprint).models ({ o2 with filePath := none } : Footprint).models } : Footprint) := by
    rw [ha, hb]
    show _ = ({ canon ({ o with filePath := none } : Footprint) with graphicItems := canon (chosen k.graphicItems ({ o with filePath := none } : Footprint).graphicItems ({ o2 with filePath := none } : Footprint).graphicItems), pads := canon (chosen k.pads ({ o with filePath := none } : Footprint).pads ({ o2 with filePath := none } : Footprint).pads), zones := canon (chosen k.zones ({ o with filePath := none } : Footprint).zones ({ o2 with filePath := none } : Footprint).zones), groups := canon (chosen k.groups ({ o with filePath := none } : Footprint).groups ({ o2 with filePath := none } : Footprint).groups), models := canon (chosen k.models ({ o with filePath := none } : Footprint).models ({ o2 with filePath := none } : Footprint).models) } : Footprint)
    simp only [← chosen_canon]
    rfl
  have hwn : Footprint.WF { a with graphicItems := chosen k.graphicItems a.graphicItems b.graphicItems, pads := chosen k.pads a.pads b.pads, zones := chosen k.zones a.zones b.zones, groups := chosen k.groups a.groups b.groups, models := chosen k.models a.models b.models } := hnew ▸ Stable.keep h1
  have hw' : Footprint.WF { ({ a with graphicItems := chosen k.graphicItems a.graphicItems b.graphicItems, pads := chosen k.pads a.pads b.pads, zones := chosen k.zones a.zones b.zones, groups := chosen k.groups a.groups b.groups, models := chosen k.models a.models b.models } : Footprint) with filePath := some p } := { hwn with }
  have hend := Footprint.leaves hwn he (fp := some p) (p := p) rfl hw hr
    (Footprint.of_only (Footprint.libraryNickname_only hon :) (Footprint.entryName_only hon :) (Footprint.version_only hon :) (Footprint.generator_only hon :) (Footprint.locked_only hon :) (Footprint.placed_only hon :) (Footprint.layer_only hon :) (Footprint.tedit_only hon :) (Footprint.tstamp_only hon :) (Footprint.position_only hon :) (Footprint.description_only hon :) (Footprint.tags_only hon :) (Footprint.properties_only hon :) (Footprint.path_only hon :) (Footprint.autoplaceCost90_only hon :) (Footprint.autoplaceCost180_only hon :) (Footprint.solderMaskMargin_only hon :) (Footprint.solderPasteMargin_only hon :) (Footprint.solderPasteRatio_only hon :) (Footprint.clearance_only hon :) (Footprint.zoneConnect_only hon :) (Footprint.thermalWidth_only hon :) (Footprint.thermalGap_only hon :) (Footprint.attributes_only hon :) (Footprint.privateLayers_only hon :) (Footprint.netTiePadGroups_only hon :) (chosen_only (Footprint.graphicItems_only hon :) (Footprint.graphicItems_only hon2 :)) (chosen_only (Footprint.pads_only hon :) (Footprint.pads_only hon2 :)) (chosen_only (Footprint.zones_only hon :) (Footprint.zones_only hon2 :)) (chosen_only (Footprint.groups_only hon :) (Footprint.groups_only hon2 :)) (chosen_only (Footprint.models_only hon :) (Footprint.models_only hon2 :)))
  have hrun : combineFootprint env tedit k p q fs = saving (Footprint.toFile env { ({ a with graphicItems := chosen k.graphicItems a.graphicItems b.graphicItems, pads := chosen k.pads a.pads b.pads, zones := chosen k.zones a.zones b.zones, groups := chosen k.groups a.groups b.groups, models := chosen k.models a.models b.models } : Footprint) with filePath := a.filePath } (some p) none) fs := by
    unfold combineFootprint
    rw [run_ok hl, run_ok hl2]
  rw [hrun]
  refine (congrArg (Leaves _ env fs p) ?_).mp hend
  show Footprint.toVal { a with graphicItems := chosen k.graphicItems a.graphicItems b.graphicItems, pads := chosen k.pads a.pads b.pads, zones := chosen k.zones a.zones b.zones, groups := chosen k.groups a.groups b.groups, models := chosen k.models a.models b.models } = _
  rw [hnew, Footprint.toVal_canon _ h1]
  rfl

/-! ## Schematic -/

/-- The first file then holds the chosen items of both, and otherwise what it held. The diameters of the junctions are lost (C22). -/
theorem C84_Schematic (o o2 : Schematic) (h : o.WF) (h2 : o2.WF) (hprec : ∀ v ∈ o.sheets, FixOk 4 v.fill.A) (hprec2 : ∀ v ∈ o2.sheets, FixOk 4 v.fill.A) (k : SchematicPicks) (env : Env) (has : Char → Prop) (he : Usual env has)
    (p q : Path) (fs : FS) (hp : Holds env fs p o.toVal) (hq : Holds env fs q o2.toVal) (hw : Openable fs p) :
    Leaves (combineSchematic env k p q fs) env fs p (Schematic.toVal { o with
      libSymbols := chosen k.libSymbols o.libSymbols o2.libSymbols
      schematicSymbols := chosen k.schematicSymbols o.schematicSymbols o2.schematicSymbols
      junctions := (chosen k.junctions o.junctions o2.junctions).map fun j => { j with diameter := .int 0 }
      noConnects := chosen k.noConnects o.noConnects o2.noConnects
      busEntries := chosen k.busEntries o.busEntries o2.busEntries
      busAliases := chosen k.busAliases o.busAliases o2.busAliases
      graphicalItems := chosen k.graphicalItems o.graphicalItems o2.graphicalItems
      shapes := chosen k.shapes o.shapes o2.shapes
      images := chosen k.images o.images o2.images
      texts := chosen k.texts o.texts o2.texts
      textBoxes := chosen k.textBoxes o.textBoxes o2.textBoxes
      labels := chosen k.labels o.labels o2.labels
      globalLabels := chosen k.globalLabels o.globalLabels o2.globalLabels
      hierarchicalLabels := chosen k.hierarchicalLabels o.hierarchicalLabels o2.hierarchicalLabels
      netclassFlags := chosen k.netclassFlags o.netclassFlags o2.netclassFlags
      sheets := chosen k.sheets o.sheets o2.sheets
      sheetInstances := chosen k.sheetInstances o.sheetInstances o2.sheetInstances
      symbolInstances := chosen k.symbolInstances o.symbolInstances o2.symbolInstances }) := by
  have hr : fs.canRead p = true := let ⟨_, hc, _⟩ := hp; contains_canRead hc
  have hb := noCR_base he.charWise
  obtain ⟨a, ha, hl, hon⟩ := Schematic.opens h he hp
  obtain ⟨b, hb, hl2, hon2⟩ := Schematic.opens h2 he hq
  have h0 : Schematic.WF o.asRead := Schematic.WF.asRead h hprec
  have h02 : Schematic.WF o2.asRead := Schematic.WF.asRead h2 hprec2
  have h1 : Schematic.WF { (o.asRead : Schematic) with libSymbols := chosen k.libSymbols (o.asRead : Schematic).libSymbols (o2.asRead : Schematic).libSymbols, schematicSymbols := chosen k.schematicSymbols (o.asRead : Schematic).schematicSymbols (o2.asRead : Schematic).schematicSymbols, junctions := chosen k.junctions (o.asRead : Schematic).junctions (o2.asRead : Schematic).junctions, noConnects := chosen k.noConnects (o.asRead : Schematic).noConnects (o2.asRead : Schematic).noConnects, busEntries := chosen k.busEntries (o.asRead : Schematic).busEntries (o2.asRead : Schematic).busEntries, busAliases := chosen k.busAliases (o.asRead : Schematic).busAliases (o2.asRead : Schematic).busAliases, graphicalItems := chosen k.graphicalItems (o.asRead : Schematic).graphicalItems (o2.asRead : Schematic).graphicalItems, shapes := chosen k.shapes (o.asRead : Schematic).shapes (o2.asRead : Schematic).shapes, images := chosen k.images (o.asRead : Schematic).images (o2.asRead : Schematic).images, texts := chosen k.texts (o.asRead : Schematic).texts (o2.asRead : Schematic).texts, textBoxes := chosen k.textBoxes (o.asRead : Schematic).textBoxes (o2.asRead : Schematic).textBoxes, labels := chosen k.labels (o.asRead : Schematic).labels (o2.asRead : Schematic).labels, globalLabels := chosen k.globalLabels (o.asRead : Schematic).globalLabels (o2.asRead : Schematic).globalLabels, hierarchicalLabels := chosen k.hierarchicalLabels (o.asRead : Schematic).hierarchicalLabels (o2.asRead : Schematic).hierarchicalLabels, netclassFlags := chosen k.netclassFlags (o.asRead : Schematic).netclassFlags (o2.asRead : Schematic).netclassFlags, sheets := chosen k.sheets (o.asRead : Schematic).sheets (o2.asRead : Schematic).sheets, sheetInstances := chosen k.sheetInstances (o.asRead : Schematic).sheetInstances (o2.asRead : Schematic).sheetInstances, symbolInstances := chosen k.symbolInstances (o.asRead : Schematic).symbolInstances (o2.asRead : Schematic).symbolInstances } :=
    { h0 with libSymbols := chosen_all h0.libSymbols h02.libSymbols, schematicSymbols := chosen_all h0.schematicSymbols h02.schematicSymbols, junctions := chosen_all h0.junctions h02.junctions, noConnects := chosen_all h0.noConnects h02.noConnects, busEntries := chosen_all h0.busEntries h02.busEntries, busAliases := chosen_all h0.busAliases h02.busAliases, graphicalItems := chosen_all h0.graphicalItems h02.graphicalItems, shapes := chosen_all h0.shapes h02.shapes, images := chosen_all h0.images h02.images, texts := chosen_all h0.texts h02.texts, textBoxes := chosen_all h0.textBoxes h02.textBoxes, labels := chosen_all h0.labels h02.labels, globalLabels := chosen_all h0.globalLabels h02.globalLabels, hierarchicalLabels := chosen_all h0.hierarchicalLabels h02.hierarchicalLabels, netclassFlags := chosen_all h0.netclassFlags h02.netclassFlags, sheets := chosen_all h0.sheets h02.sheets, sheetInstances := chosen_all h0.sheetInstances h02.sheetInstances, symbolInstances := chosen_all h0.symbolInstances h02.symbolInstances }
  have hnew : ({ a with libSymbols := chosen k.libSymbols a.libSymbols b.libSymbols, schematicSymbols := chosen k.schematicSymbols a.schematicSymbols b.schematicSymbols, junctions := chosen k.junctions a.junctions b.junctions, noConnects := chosen k.noConnects a.noConnects b.noConnects, busEntries := chosen k.busEntries a.busEntries b.busEntries, busAliases := chosen k.busAliases a.busAliases b.busAliases, graphicalItems := chosen k.graphicalItems a.graphicalItems b.graphicalItems, shapes := chosen k.shapes a.shapes b.shapes, images := chosen k.images a.images b.images, texts := chosen k.texts a.texts b.texts, textBoxes := chosen k.textBoxes a.textBoxes b.textBoxes, labels := chosen k.labels a.labels b.labels, globalLabels := chosen k.globalLabels a.globalLabels b.globalLabels, hierarchicalLabels := chosen k.hierarchicalLabels a.hierarchicalLabels b.hierarchicalLabels, netclassFlags := chosen k.netclassFlags a.netclassFlags b.netclassFlags, sheets := chosen k.sheets a.sheets b.sheets, sheetInstances := chosen k.sheetInstances a.sheetInstances b.sheetInstances, symbolInstances := chosen k.symbolInstances a.symbolInstances b.symbolInstances } : Schematic) = canon ({ (o.asRead : Schematic) with libSymbols := chosen k.libSymbols (o.asRead : Schematic).libSymbols (o2.asRead : Schematic).libSymbols, schematicSymbols := chosen k.schematicSymbols (o.asRead : Schematic).schematicSymbols (o2.asRead : Schematic).schematicSymbols, junctions := chosen k.junctions (o.asRead : Schematic).junctions (o2.asRead : Schematic).junctions, noConnects := chosen k.noConnects (o.asRead : Schematic).noConnects (o2.asRead : Schematic).noConnects, busEntries := chosen k.busEntries (o.asRead : Schematic).busEntries (o2.asRead : Schematic).busEntries, busAliases := chosen k.busAliases (o.asRead : Schematic).busAliases (o2.asRead : Schematic).busAliases, graphicalItems := chosen k.graphicalItems (o.asRead : Schematic).graphicalItems (o2.asRead : Schematic).graphicalItems, shapes := chosen k.shapes (o.asRead : Schematic).shapes (o2.asRead : Schematic).shapes, images := chosen k.images (o.asRead : Schematic).images (o2.asRead : Schematic).images, texts := chosen k.texts (o.asRead : Schematic).texts (o2.asRead : Schematic).texts, textBoxes := chosen k.textBoxes (o.asRead : Schematic).textBoxes (o2.asRead : Schematic).textBoxes, labels := chosen k.labels (o.asRead : Schematic).labels (o2.asRead : Schematic).labels, globalLabels := chosen k.globalLabels (o.asRead : Schematic).globalLabels (o2.asRead : Schematic).globalLabels, hierarchicalLabels := chosen k.hierarchicalLabels (o.asRead : Schematic).hierarchicalLabels (o2.asRead : Schematic).hierarchicalLabels, netclassFlags := chosen k.netclassFlags (o.asRead : Schematic).netclassFlags (o2.asRead : Schematic).netclassFlags, sheets := chosen k.sheets (o.asRead : Schematic).sheets (o2.asRead : Schematic).sheets, sheetInstances := chosen k.sheetInstances (o.asRead : Schematic).sheetInstances (o2.asRead : Schematic).sheetInstances, symbolInstances := chosen k.symbolInstances (o.asRead : Schematic).symbolInstances (o2.asRead : Schematic).symbolInstances } : Schematic) := by
    rw [ha, hb]
    show _ = ({ canon (o.asRead : Schematic) with libSymbols := canon (chosen k.libSymbols (o.asRead : Schematic).libSymbols (o2.asRead : Schematic).libSymbols), schematicSymbols := canon (chosen k.schematicSymbols (o.asRead : Schematic).schematicSymbols (o2.asRead : Schematic).schematicSymbols), junctions := canon (chosen k.junctions (o.asRead : Schematic).junctions (o2.asRead : Schematic).junctions), noConnects := canon (chosen k.noConnects (o.asRead : Schematic).noConnects (o2.asRead : Schematic).noConnects), busEntries := canon (chosen k.busEntries (o.asRead : Schematic).busEntries (o2.asRead : Schematic).busEntries), busAliases := canon (chosen k.busAliases (o.asRead : Schematic).busAliases (o2.asRead : Schematic).busAliases), graphicalItems := canon (chosen k.graphicalItems (o.asRead : Schematic).graphicalItems (o2.asRead : Schematic).graphicalItems), shapes := canon (chosen k.shapes (o.asRead : Schematic).shapes (o2.asRead : Schematic).shapes), images := canon (chosen k.images (o.asRead : Schematic).images (o2.asRead : Schematic).images), texts := canon (chosen k.texts (o.asRead : Schematic).texts (o2.asRead : Schematic).texts), textBoxes := canon (chosen k.textBoxes (o.asRead : Schematic).textBoxes (o2.asRead : Schematic).textBoxes), labels := canon (chosen k.labels (o.asRead : Schematic).labels (o2.asRead : Schematic).labels), globalLabels := canon (chosen k.globalLabels (o.asRead : Schematic).globalLabels (o2.asRead : Schematic).globalLabels), hierarchicalLabels := canon (chosen k.hierarchicalLabels (o.asRead : Schematic).hierarchicalLabels (o2.asRead : Schematic).hierarchicalLabels), netclassFlags := canon (chosen k.netclassFlags (o.asRead : Schematic).netclassFlags (o2.asRead : Schematic).netclassFlags), sheets := canon (chosen k.sheets (o.asRead : Schematic).sheets (o2.asRead : Schematic).sheets), sheetInstances := canon (chosen k.sheetInstances (o.asRead : Schematic).sheetInstances (o2.asRead : Schematic).sheetInstances), symbolInstances := canon (chosen k.symbolInstances (o.asRead : Schematic).symbolInstances (o2.asRead : Schematic).symbolInstances) } : Schematic)
    simp only [← chosen_canon]
    rfl
  have hwn : Schematic.WF { a with libSymbols := chosen k.libSymbols a.libSymbols b.libSymbols, schematicSymbols := chosen k.schematicSymbols a.schematicSymbols b.schematicSymbols, junctions := chosen k.junctions a.junctions b.junctions, noConnects := chosen k.noConnects a.noConnects b.noConnects, busEntries := chosen k.busEntries a.busEntries b.busEntries, busAliases := chosen k.busAliases a.busAliases b.busAliases, graphicalItems := chosen k.graphicalItems a.graphicalItems b.graphicalItems, shapes := chosen k.shapes a.shapes b.shapes, images := chosen k.images a.images b.images, texts := chosen k.texts a.texts b.texts, textBoxes := chosen k.textBoxes a.textBoxes b.textBoxes, labels := chosen k.labels a.labels b.labels, globalLabels := chosen k.globalLabels a.globalLabels b.globalLabels, hierarchicalLabels := chosen k.hierarchicalLabels a.hierarchicalLabels b.hierarchicalLabels, netclassFlags := chosen k.netclassFlags a.netclassFlags b.netclassFlags, sheets := chosen k.sheets a.sheets b.sheets, sheetInstances := chosen k.sheetInstances a.sheetInstances b.sheetInstances, symbolInstances := chosen k.symbolInstances a.symbolInstances b.symbolInstances } := hnew ▸ Stable.keep h1
  have hw' : Schematic.WF { ({ a with libSymbols := chosen k.libSymbols a.libSymbols b.libSymbols, schematicSymbols := chosen k.schematicSymbols a.schematicSymbols b.schematicSymbols, junctions := chosen k.junctions a.junctions b.junctions, noConnects := chosen k.noConnects a.noConnects b.noConnects, busEntries := chosen k.busEntries a.busEntries b.busEntries, busAliases := chosen k.busAliases a.busAliases b.busAliases, graphicalItems := chosen k.graphicalItems a.graphicalItems b.graphicalItems, shapes := chosen k.shapes a.shapes b.shapes, images := chosen k.images a.images b.images, texts := chosen k.texts a.texts b.texts, textBoxes := chosen k.textBoxes a.textBoxes b.textBoxes, labels := chosen k.labels a.labels b.labels, globalLabels := chosen k.globalLabels a.globalLabels b.globalLabels, hierarchicalLabels := chosen k.hierarchicalLabels a.hierarchicalLabels b.hierarchicalLabels, netclassFlags := chosen k.netclassFlags a.netclassFlags b.netclassFlags, sheets := chosen k.sheets a.sheets b.sheets, sheetInstances := chosen k.sheetInstances a.sheetInstances b.sheetInstances, symbolInstances := chosen k.symbolInstances a.symbolInstances b.symbolInstances } : Schematic) with filePath := some p } := { hwn with }
  have hend := Schematic.leaves hw' he (fp := none) (p := p) rfl hw hr
    (Schematic.of_only (Schematic.version_only hon :) (Schematic.generator_only hon :) (Schematic.uuid_only hon :) (Schematic.paper_only hon :) (Schematic.titleBlock_only hon :) (chosen_only (Schematic.libSymbols_only hon :) (Schematic.libSymbols_only hon2 :)) (chosen_only (Schematic.schematicSymbols_only hon :) (Schematic.schematicSymbols_only hon2 :)) (chosen_only (Schematic.junctions_only hon :) (Schematic.junctions_only hon2 :)) (chosen_only (Schematic.noConnects_only hon :) (Schematic.noConnects_only hon2 :)) (chosen_only (Schematic.busEntries_only hon :) (Schematic.busEntries_only hon2 :)) (chosen_only (Schematic.busAliases_only hon :) (Schematic.busAliases_only hon2 :)) (chosen_only (Schematic.graphicalItems_only hon :) (Schematic.graphicalItems_only hon2 :)) (chosen_only (Schematic.shapes_only hon :) (Schematic.shapes_only hon2 :)) (chosen_only (Schematic.images_only hon :) (Schematic.images_only hon2 :)) (chosen_only (Schematic.texts_only hon :) (Schematic.texts_only hon2 :)) (chosen_only (Schematic.textBoxes_only hon :) (Schematic.textBoxes_only hon2 :)) (chosen_only (Schematic.labels_only hon :) (Schematic.labels_only hon2 :)) (chosen_only (Schematic.globalLabels_only hon :) (Schematic.globalLabels_only hon2 :)) (chosen_only (Schematic.hierarchicalLabels_only hon :) (Schematic.hierarchicalLabels_only hon2 :)) (chosen_only (Schematic.netclassFlags_only hon :) (Schematic.netclassFlags_only hon2 :)) (chosen_only (Schematic.sheets_only hon :) (Schematic.sheets_only hon2 :)) (chosen_only (Schematic.sheetInstances_only hon :) (Schematic.sheetInstances_only hon2 :)) (chosen_only (Schematic.symbolInstances_only hon :) (Schematic.symbolInstances_only hon2 :)))
  have hrun : combineSchematic env k p q fs = saving (Schematic.toFile env { ({ a with libSymbols := chosen k.libSymbols a.libSymbols b.libSymbols, schematicSymbols := chosen k.schematicSymbols a.schematicSymbols b.schematicSymbols, junctions := chosen k.junctions a.junctions b.junctions, noConnects := chosen k.noConnects a.noConnects b.noConnects, busEntries := chosen k.busEntries a.busEntries b.busEntries, busAliases := chosen k.busAliases a.busAliases b.busAliases, graphicalItems := chosen k.graphicalItems a.graphicalItems b.graphicalItems, shapes := chosen k.shapes a.shapes b.shapes, images := chosen k.images a.images b.images, texts := chosen k.texts a.texts b.texts, textBoxes := chosen k.textBoxes a.textBoxes b.textBoxes, labels := chosen k.labels a.labels b.labels, globalLabels := chosen k.globalLabels a.globalLabels b.globalLabels, hierarchicalLabels := chosen k.hierarchicalLabels a.hierarchicalLabels b.hierarchicalLabels, netclassFlags := chosen k.netclassFlags a.netclassFlags b.netclassFlags, sheets := chosen k.sheets a.sheets b.sheets, sheetInstances := chosen k.sheetInstances a.sheetInstances b.sheetInstances, symbolInstances := chosen k.symbolInstances a.symbolInstances b.symbolInstances } : Schematic) with filePath := some p } none none) fs := by
    unfold combineSchematic
    rw [run_ok hl, run_ok hl2]
  rw [hrun]
  refine (congrArg (Leaves _ env fs p) ?_).mp hend
  show Schematic.toVal { a with libSymbols := chosen k.libSymbols a.libSymbols b.libSymbols, schematicSymbols := chosen k.schematicSymbols a.schematicSymbols b.schematicSymbols, junctions := chosen k.junctions a.junctions b.junctions, noConnects := chosen k.noConnects a.noConnects b.noConnects, busEntries := chosen k.busEntries a.busEntries b.busEntries, busAliases := chosen k.busAliases a.busAliases b.busAliases, graphicalItems := chosen k.graphicalItems a.graphicalItems b.graphicalItems, shapes := chosen k.shapes a.shapes b.shapes, images := chosen k.images a.images b.images, texts := chosen k.texts a.texts b.texts, textBoxes := chosen k.textBoxes a.textBoxes b.textBoxes, labels := chosen k.labels a.labels b.labels, globalLabels := chosen k.globalLabels a.globalLabels b.globalLabels, hierarchicalLabels := chosen k.hierarchicalLabels a.hierarchicalLabels b.hierarchicalLabels, netclassFlags := chosen k.netclassFlags a.netclassFlags b.netclassFlags, sheets := chosen k.sheets a.sheets b.sheets, sheetInstances := chosen k.sheetInstances a.sheetInstances b.sheetInstances, symbolInstances := chosen k.symbolInstances a.symbolInstances b.symbolInstances } = _
  rw [hnew, Schematic.toVal_canon _ h1]
  simp only [Schematic.asRead, Schematic.toVal, chosen_map, Schematic.asRead_sheets]
  rfl

/-! ## Board -/

/-- The first file then holds the chosen items of both, and otherwise what it held. The setting useauxorigin is lost (C40). -/
theorem C84_Board (o o2 : Board) (h : o.WF) (h2 : o2.WF) (k : BoardPicks) (env : Env) (has : Char → Prop) (he : Usual env has) (tedit : Val) (hclock : PlainClock tedit)
    (p q : Path) (fs : FS) (hp : Holds env fs p o.toVal) (hq : Holds env fs q o2.toVal) (hw : Openable fs p) :
    Leaves (combineBoard env tedit k p q fs) env fs p (Board.toVal { o with
      setup := { o.setup with plotSettings := o.setup.plotSettings.map fun p => { p with useAuxOrigin := false } }
      layers := chosen k.layers o.layers o2.layers
      nets := chosen k.nets o.nets o2.nets
      footprints := chosen k.footprints o.footprints o2.footprints
      graphicItems := chosen k.graphicItems o.graphicItems o2.graphicItems
      traceItems := chosen k.traceItems o.traceItems o2.traceItems
      zones := chosen k.zones o.zones o2.zones
      dimensions := chosen k.dimensions o.dimensions o2.dimensions
      targets := chosen k.targets o.targets o2.targets
      groups := chosen k.groups o.groups o2.groups }) := by
  have hr : fs.canRead p = true := let ⟨_, hc, _⟩ := hp; contains_canRead hc
  have hb := noCR_base he.charWise
  obtain ⟨a, ha, hl, hon⟩ := Board.opens h he tedit hclock hp
  obtain ⟨b, hb, hl2, hon2⟩ := Board.opens h2 he tedit hclock hq
  have h0 : Board.WF o.asRead := Board.WF.asRead h
  have h02 : Board.WF o2.asRead := Board.WF.asRead h2
  have h1 : Board.WF { (o.asRead : Board) with layers := chosen k.layers (o.asRead : Board).layers (o2.asRead : Board).layers, nets := chosen k.nets (o.asRead : Board).nets (o2.asRead : Board).nets, footprints := chosen k.footprints (o.asRead : Board).footprints (o2.asRead : Board).footprints, graphicItems := chosen k.graphicItems (o.asRead : Board).graphicItems (o2.asRead : Board).graphicItems, traceItems := chosen k.traceItems (o.asRead : Board).traceItems (o2.asRead : Board).traceItems, zones := chosen k.zones (o.asRead : Board).zones (o2.asRead : Board).zones, dimensions := chosen k.dimensions (o.asRead : Board).dimensions (o2.asRead : Board).dimensions, targets := chosen k.targets (o.asRead : Board).targets (o2.asRead : Board).targets, groups := chosen k.groups (o.asRead : Board).groups (o2.asRead : Board).groups } :=
    { h0 with layers := chosen_all h0.layers h02.layers, nets := chosen_all h0.nets h02.nets, footprints := chosen_all h0.footprints h02.footprints, graphicItems := chosen_all h0.graphicItems h02.graphicItems, traceItems := chosen_all h0.traceItems h02.traceItems, zones := chosen_all h0.zones h02.zones, dimensions := chosen_all h0.dimensions h02.dimensions, targets := chosen_all h0.targets h02.targets, groups := chosen_all h0.groups h02.groups }
  have hnew : ({ a with layers := chosen k.layers a.layers b.layers, nets := chosen k.nets a.nets b.nets, footprints := chosen k.footprints a.footprints b.footprints, graphicItems := chosen k.graphicItems a.graphicItems b.graphicItems, traceItems := chosen k.traceItems a.traceItems b.traceItems, zones := chosen k.zones a.zones b.zones, dimensions := chosen k.dimensions a.dimensions b.dimensions, targets := chosen k.targets a.targets b.targets, groups := chosen k.groups a.groups b.groups } : Board) = canon ({ (o.asRead : Board) with layers := chosen k.layers (o.asRead : Board).layers (o2.asRead : Board).layers, nets := chosen k.nets (o.asRead : Board).nets (o2.asRead : Board).nets, footprints := chosen k.footprints (o.asRead : Board).footprints (o2.asRead : Board).footprints, graphicItems := chosen k.graphicItems (o.asRead : Board).graphicItems (o2.asRead : Board).graphicItems, traceItems := chosen k.traceItems (o.asRead : Board).traceItems (o2.asRead : Board).traceItems, zones := chosen k.zones (o.asRead : Board).zones (o2.asRead : Board).zones, dimensions := chosen k.dimensions (o.asRead : Board).dimensions (o2.asRead : Board).dimensions, targets := chosen k.targets (o.asRead : Board).targets (o2.asRead : Board).targets, groups := chosen k.groups (o.asRead : Board).groups (o2.asRead : Board).groups } : Board) := by
    rw [ha, hb]
    show _ = ({ canon (o.asRead : Board) with layers := canon (chosen k.layers (o.asRead : Board).layers (o2.asRead : Board).layers), nets := canon (chosen k.nets (o.asRead : Board).nets (o2.asRead : Board).nets), footprints := canon (chosen k.footprints (o.asRead : Board).footprints (o2.asRead : Board).footprints), graphicItems := canon (chosen k.graphicItems (o.asRead : Board).graphicItems (o2.asRead : Board).graphicItems), traceItems := canon (chosen k.traceItems (o.asRead : Board).traceItems (o2.asRead : Board).traceItems), zones := canon (chosen k.zones (o.asRead : Board).zones (o2.asRead : Board).zones), dimensions := canon (chosen k.dimensions (o.asRead : Board).dimensions (o2.asRead : Board).dimensions), targets := canon (chosen k.targets (o.asRead : Board).targets (o2.asRead : Board).targets), groups := canon (chosen k.groups (o.asRead : Board).groups (o2.asRead : Board).groups) } : Board)
    simp only [← chosen_canon]
    rfl
  have hwn : Board.WF { a with layers := chosen k.layers a.layers b.layers, nets := chosen k.nets a.nets b.nets, footprints := chosen k.footprints a.footprints b.footprints, graphicItems := chosen k.graphicItems a.graphicItems b.graphicItems, traceItems := chosen k.traceItems a.traceItems b.traceItems, zones := chosen k.zones a.zones b.zones, dimensions := chosen k.dimensions a.dimensions b.dimensions, targets := chosen k.targets a.targets b.targets, groups := chosen k.groups a.groups b.groups } := hnew ▸ Stable.keep h1
  have hw' : Board.WF { ({ a with layers := chosen k.layers a.layers b.layers, nets := chosen k.nets a.nets b.nets, footprints := chosen k.footprints a.footprints b.footprints, graphicItems := chosen k.graphicItems a.graphicItems b.graphicItems, traceItems := chosen k.traceItems a.traceItems b.traceItems, zones := chosen k.zones a.zones b.zones, dimensions := chosen k.dimensions a.dimensions b.dimensions, targets := chosen k.targets a.targets b.targets, groups := chosen k.groups a.groups b.groups } : Board) with filePath := some p } := { hwn with }
  have hend := Board.leaves hw' he (fp := none) (p := p) rfl hw hr
    (Board.of_only (Board.version_only hon :) (Board.generator_only hon :) (Board.general_only hon :) (Board.paper_only hon :) (Board.titleBlock_only hon :) (chosen_only (Board.layers_only hon :) (Board.layers_only hon2 :)) (Board.setup_only hon :) (Board.properties_only hon :) (chosen_only (Board.nets_only hon :) (Board.nets_only hon2 :)) (chosen_only (Board.footprints_only hon :) (Board.footprints_only hon2 :)) (chosen_only (Board.graphicItems_only hon :) (Board.graphicItems_only hon2 :)) (chosen_only (Board.traceItems_only hon :) (Board.traceItems_only hon2 :)) (chosen_only (Board.zones_only hon :) (Board.zones_only hon2 :)) (chosen_only (Board.dimensions_only hon :) (Board.dimensions_only hon2 :)) (chosen_only (Board.targets_only hon :) (Board.targets_only hon2 :)) (chosen_only (Board.groups_only hon :) (Board.groups_only hon2 :)))
  have hrun : combineBoard env tedit k p q fs = saving (Board.toFile env { ({ a with layers := chosen k.layers a.layers b.layers, nets := chosen k.nets a.nets b.nets, footprints := chosen k.footprints a.footprints b.footprints, graphicItems := chosen k.graphicItems a.graphicItems b.graphicItems, traceItems := chosen k.traceItems a.traceItems b.traceItems, zones := chosen k.zones a.zones b.zones, dimensions := chosen k.dimensions a.dimensions b.dimensions, targets := chosen k.targets a.targets b.targets, groups := chosen k.groups a.groups b.groups } : Board) with filePath := some p } none none) fs := by
    unfold combineBoard
    rw [run_ok hl, run_ok hl2]
  rw [hrun]
  refine (congrArg (Leaves _ env fs p) ?_).mp hend
  show Board.toVal { a with layers := chosen k.layers a.layers b.layers, nets := chosen k.nets a.nets b.nets, footprints := chosen k.footprints a.footprints b.footprints, graphicItems := chosen k.graphicItems a.graphicItems b.graphicItems, traceItems := chosen k.traceItems a.traceItems b.traceItems, zones := chosen k.zones a.zones b.zones, dimensions := chosen k.dimensions a.dimensions b.dimensions, targets := chosen k.targets a.targets b.targets, groups := chosen k.groups a.groups b.groups } = _
  rw [hnew, Board.toVal_canon _ h1]
  simp only [Board.asRead, Board.toVal, chosen_map, Board.asRead_footprints]
  rfl

/-! ## Every selection -/

/-- Whatever list is made of items of the two files, in whatever order and with whatever repetitions, there are positions for it. -/
theorem C84_every_selection {α : Type} (a b : List α) : ∀ l : List α, (∀ x ∈ l, x ∈ a ∨ x ∈ b) → ∃ ps, chosen ps a b = l
  | [], _ => ⟨[], rfl⟩
  | x :: l, h => by
    obtain ⟨ps, hps⟩ := C84_every_selection a b l fun y hy => h y (List.mem_cons_of_mem _ hy)
    rcases h x List.mem_cons_self with hx | hx
    · obtain ⟨i, hi⟩ := List.mem_iff_getElem?.1 hx
      exact ⟨.first i :: ps, by simp only [chosen, List.filterMap_cons, hi]; exact congrArg (x :: ·) hps⟩
    · obtain ⟨i, hi⟩ := List.mem_iff_getElem?.1 hx
      exact ⟨.second i :: ps, by simp only [chosen, List.filterMap_cons, hi]; exact congrArg (x :: ·) hps⟩

example := C84_every_selection [1, 2] [3] [3, 1, 1] (by decide)
/-- Merging is a selection. -/
example {α : Type} (a b : List α) : ∃ ps, chosen ps a b = a ++ b := C84_every_selection a b _ fun _ => List.mem_append.1
/-- Deleting is a selection. -/
example {α : Type} (a b : List α) (f : α → Bool) : ∃ ps, chosen ps a b = a.filter f := C84_every_selection a b _ fun _ h => .inl (List.mem_filter.1 h).1

/-! ## Cases -/

set_option maxRecDepth 100000 in
example := C84_LibTable sampleLibTable sampleLibTable sampleLibTable_wf sampleLibTable_wf [.second 0, .first 0, .first 0] (Env.simple .latin1 false) _ (usual_latin1 false) k!"a" k!"b" (FS.both sampleLibTable.toVal sampleLibTable.toVal)
  (both_holds (by decide +kernel) (by decide +kernel) false).1 (both_holds (by decide +kernel) (by decide +kernel) false).2 (two_openable ..)
set_option maxRecDepth 100000 in
example := C84_SymbolLib sampleSymbolLib sampleSymbolLib sampleSymbolLib_wf sampleSymbolLib_wf [.second 0, .first 0, .first 0] (Env.simple .latin1 false) _ (usual_latin1 false) k!"a" k!"b" (FS.both sampleSymbolLib.toVal sampleSymbolLib.toVal)
  (both_holds (by decide +kernel) (by decide +kernel) false).1 (both_holds (by decide +kernel) (by decide +kernel) false).2 (two_openable ..)
set_option maxRecDepth 100000 in
example := C84_WorkSheet sampleWorkSheet sampleWorkSheet sampleWorkSheet_wf sampleWorkSheet_wf [.second 0, .first 0, .first 0] (Env.simple .latin1 false) _ (usual_latin1 false) k!"a" k!"b" (FS.both sampleWorkSheet.toVal sampleWorkSheet.toVal)
  (both_holds (by decide +kernel) (by decide +kernel) false).1 (both_holds (by decide +kernel) (by decide +kernel) false).2 (two_openable ..)
set_option maxRecDepth 100000 in
example := C84_Footprint smallFootprint smallFootprint smallFootprint_wf smallFootprint_wf ⟨[.second 0, .first 0, .first 0], [.second 0, .first 0, .first 0], [.second 0, .first 0, .first 0], [.second 0, .first 0, .first 0], [.second 0, .first 0, .first 0]⟩ (Env.simple .latin1 false) _ (usual_latin1 false) (.str k!"0") (by unfold PlainClock; decide) k!"a" k!"b" (FS.both smallFootprint.toVal smallFootprint.toVal)
  (both_holds (by decide +kernel) (by decide +kernel) false).1 (both_holds (by decide +kernel) (by decide +kernel) false).2 (two_openable ..)
set_option maxRecDepth 100000 in
example := C84_Schematic smallSchematic smallSchematic smallSchematic_wf smallSchematic_wf (fun _ h => nomatch h) (fun _ h => nomatch h) ⟨[.second 0, .first 0, .first 0], [.second 0, .first 0, .first 0], [.second 0, .first 0, .first 0], [.second 0, .first 0, .first 0], [.second 0, .first 0, .first 0], [.second 0, .first 0, .first 0], [.second 0, .first 0, .first 0], [.second 0, .first 0, .first 0], [.second 0, .first 0, .first 0], [.second 0, .first 0, .first 0], [.second 0, .first 0, .first 0], [.second 0, .first 0, .first 0], [.second 0, .first 0, .first 0], [.second 0, .first 0, .first 0], [.second 0, .first 0, .first 0], [.second 0, .first 0, .first 0], [.second 0, .first 0, .first 0], [.second 0, .first 0, .first 0]⟩ (Env.simple .latin1 false) _ (usual_latin1 false) k!"a" k!"b" (FS.both smallSchematic.toVal smallSchematic.toVal)
  (both_holds (by decide +kernel) (by decide +kernel) false).1 (both_holds (by decide +kernel) (by decide +kernel) false).2 (two_openable ..)
set_option maxRecDepth 100000 in
example := C84_Board smallBoard smallBoard smallBoard_wf smallBoard_wf ⟨[.second 0, .first 0, .first 0], [.second 0, .first 0, .first 0], [.second 0, .first 0, .first 0], [.second 0, .first 0, .first 0], [.second 0, .first 0, .first 0], [.second 0, .first 0, .first 0], [.second 0, .first 0, .first 0], [.second 0, .first 0, .first 0], [.second 0, .first 0, .first 0]⟩ (Env.simple .latin1 false) _ (usual_latin1 false) (.str k!"0") (by unfold PlainClock; decide) k!"a" k!"b" (FS.both smallBoard.toVal smallBoard.toVal)
  (both_holds (by decide +kernel) (by decide +kernel) false).1 (both_holds (by decide +kernel) (by decide +kernel) false).2 (two_openable ..)
set_option maxRecDepth 100000 in
example := C84_DesignRules sampleDesignRules sampleDesignRules sampleDesignRules_wf sampleDesignRules_wf [.second 0, .first 0] (Env.simple .latin1 false) _ (usual_latin1 false) k!"a" k!"b"
  (FS.two k!"a" k!"b" (latin spelledRules) (latin spelledRules)) ⟨_, latin_contains_at rfl rfl (by decide +kernel) false, spelledRules_ok⟩
  ⟨_, latin_contains_at rfl rfl (by decide +kernel) false, spelledRules_ok⟩ (two_openable ..)

end Kiutils
