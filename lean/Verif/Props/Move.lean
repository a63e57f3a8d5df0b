import Verif.Props.Combine
/-!
# C86: symbols and footprints can be put into files of another kind

Symbols of a library into a schematic and back, a footprint file into a board, and a footprint of a board into a file of its own.
-/
namespace Kiutils

/-! ## Programs -/

/-- `a = Schematic.from_file(p); b = SymbolLib.from_file(q)`; the library symbols of `a` are replaced by those chosen of both; `a.to_file()`. -/
def libraryToSchematic (env : Env) (ps : List Pick) (p q : Path) : FileM Unit := do
  let a ← Schematic.fromFile env p none
  let b ← SymbolLib.fromFile env q none
  saving (Schematic.toFile env { a with libSymbols := chosen ps a.libSymbols b.symbols } none none)

/-- `a = SymbolLib.from_file(p); b = Schematic.from_file(q)`; the symbols of `a` are replaced by those chosen of both; `a.to_file()`. -/
def schematicToLibrary (env : Env) (ps : List Pick) (p q : Path) : FileM Unit := do
  let a ← SymbolLib.fromFile env p none
  let b ← Schematic.fromFile env q none
  saving (SymbolLib.toFile env { a with symbols := chosen ps a.symbols b.libSymbols } none none)

/-- `a = Board.from_file(p); b = Footprint.from_file(q)`; the footprints of `a` are replaced by those chosen of these and `b`; `a.to_file()`. -/
def footprintToBoard (env : Env) (tedit : Val) (ps : List Pick) (p q : Path) : FileM Unit := do
  let a ← Board.fromFile env tedit p none
  let b ← Footprint.fromFile env tedit q none
  saving (Board.toFile env { a with footprints := chosen ps a.footprints [b] } none none)

/-- `for f in Board.from_file(p).footprints[i:i+1]: f.to_file(q)` -/
def boardToFootprint (env : Env) (tedit : Val) (i : Nat) (p q : Path) : FileM Unit := do
  let a ← Board.fromFile env tedit p none
  match a.footprints[i]? with
  | some f => saving (Footprint.toFile env f (some q) none)
  | none => pure ()

/-! ## Theorems -/

/-- The schematic then holds the chosen symbols of both, and otherwise what it held. The diameters of the junctions are lost (C22). -/
theorem C86_library_to_schematic (o : Schematic) (h : o.WF) (hprec : ∀ v ∈ o.sheets, FixOk 4 v.fill.A) (o2 : SymbolLib) (h2 : o2.WF)
    (ps : List Pick) (env : Env) (has : Char → Prop) (he : Usual env has)
    (p q : Path) (fs : FS) (hp : Holds env fs p o.toVal) (hq : Holds env fs q o2.toVal) (hw : Openable fs p) :
    Leaves (libraryToSchematic env ps p q fs) env fs p (Schematic.toVal { o with
      junctions := o.junctions.map fun j => { j with diameter := .int 0 }
      libSymbols := chosen ps o.libSymbols o2.symbols }) := by
  have hr : fs.canRead p = true := let ⟨_, hc, _⟩ := hp; contains_canRead hc
  have hb := noCR_base he.charWise
  obtain ⟨a, ha, hl, hon⟩ := Schematic.opens h he hp
  obtain ⟨b, hb, hl2, hon2⟩ := SymbolLib.opens h2 he hq
  have h0 : Schematic.WF o.asRead := Schematic.WF.asRead h hprec
  have h1 : Schematic.WF { o.asRead with libSymbols := chosen ps o.asRead.libSymbols o2.symbols } :=
    { h0 with libSymbols := chosen_all h0.libSymbols h2.symbols }
  have hnew : ({ a with libSymbols := chosen ps a.libSymbols b.symbols } : Schematic) =
      canon ({ o.asRead with libSymbols := chosen ps o.asRead.libSymbols o2.symbols } : Schematic) := by
    rw [ha, hb]
    show _ = ({ canon o.asRead with libSymbols := canon (chosen ps o.asRead.libSymbols o2.symbols) } : Schematic)
    rw [← chosen_canon]
    rfl
  have hwn : Schematic.WF { a with libSymbols := chosen ps a.libSymbols b.symbols } := hnew ▸ Stable.keep h1
  have hw' : Schematic.WF { a with libSymbols := chosen ps a.libSymbols b.symbols, filePath := some p } := { hwn with }
  have hend := Schematic.leaves hw' he (fp := none) (p := p) rfl hw hr
    (Schematic.symbols_only hon (chosen_only (Schematic.libSymbols_only hon) (SymbolLib.symbols_only hon2)) (Schematic.schematicSymbols_only hon))
  have hrun : libraryToSchematic env ps p q fs =
      saving (Schematic.toFile env { a with libSymbols := chosen ps a.libSymbols b.symbols, filePath := some p } none none) fs := by
    unfold libraryToSchematic
    rw [run_ok hl, run_ok hl2]
  rw [hrun]
  refine (congrArg (Leaves _ env fs p) ?_).mp hend
  show Schematic.toVal { a with libSymbols := chosen ps a.libSymbols b.symbols } = _
  rw [hnew, Schematic.toVal_canon _ h1]
  simp only [Schematic.asRead, Schematic.toVal, Schematic.asRead_sheets]
  rfl

/-- The library then holds the chosen symbols of both, and otherwise what it held. -/
theorem C86_schematic_to_library (o : SymbolLib) (h : o.WF) (o2 : Schematic) (h2 : o2.WF) (ps : List Pick) (env : Env) (has : Char → Prop)
    (he : Usual env has) (p q : Path) (fs : FS) (hp : Holds env fs p o.toVal) (hq : Holds env fs q o2.toVal) (hw : Openable fs p) :
    Leaves (schematicToLibrary env ps p q fs) env fs p (SymbolLib.toVal { o with symbols := chosen ps o.symbols o2.libSymbols }) := by
  have hr : fs.canRead p = true := let ⟨_, hc, _⟩ := hp; contains_canRead hc
  have hb := noCR_base he.charWise
  obtain ⟨a, ha, hl, hon⟩ := SymbolLib.opens h he hp
  obtain ⟨b, hb, hl2, hon2⟩ := Schematic.opens h2 he hq
  have h1 : SymbolLib.WF { o with symbols := chosen ps o.symbols o2.libSymbols, filePath := none } :=
    { h with symbols := chosen_all h.symbols h2.libSymbols }
  have hnew : ({ a with symbols := chosen ps a.symbols b.libSymbols } : SymbolLib) =
      canon ({ o with symbols := chosen ps o.symbols o2.libSymbols, filePath := none } : SymbolLib) := by
    rw [ha, hb]
    show _ = ({ canon ({ o with filePath := none } : SymbolLib) with symbols := canon (chosen ps o.symbols o2.libSymbols) } : SymbolLib)
    rw [← chosen_canon]
    rfl
  have hwn : SymbolLib.WF { a with symbols := chosen ps a.symbols b.libSymbols } := hnew ▸ Stable.keep h1
  have hw' : SymbolLib.WF { a with symbols := chosen ps a.symbols b.libSymbols, filePath := some p } := { hwn with }
  have hend := SymbolLib.leaves hw' he (fp := none) (p := p) rfl hw hr
    (SymbolLib.of_only (SymbolLib.version_only hon :) (SymbolLib.generator_only hon :)
      (chosen_only (SymbolLib.symbols_only hon :) (Schematic.libSymbols_only hon2 :)))
  have hrun : schematicToLibrary env ps p q fs =
      saving (SymbolLib.toFile env { a with symbols := chosen ps a.symbols b.libSymbols, filePath := some p } none none) fs := by
    unfold schematicToLibrary
    rw [run_ok hl, run_ok hl2]
  rw [hrun]
  refine (congrArg (Leaves _ env fs p) ?_).mp hend
  show SymbolLib.toVal { a with symbols := chosen ps a.symbols b.libSymbols } = _
  rw [hnew, SymbolLib.toVal_canon _ h1]
  rfl

/-- The board then holds the footprint of the file at the chosen places, and otherwise what it held. The setting useauxorigin is lost (C40). -/
theorem C86_footprint_to_board (o : Board) (h : o.WF) (o2 : Footprint) (h2 : o2.WF) (ps : List Pick) (env : Env) (has : Char → Prop)
    (he : Usual env has) (tedit : Val) (hclock : PlainClock tedit) (p q : Path) (fs : FS) (hp : Holds env fs p o.toVal)
    (hq : Holds env fs q o2.toVal) (hw : Openable fs p) :
    Leaves (footprintToBoard env tedit ps p q fs) env fs p (Board.toVal { o with
      setup := { o.setup with plotSettings := o.setup.plotSettings.map fun p => { p with useAuxOrigin := false } }
      footprints := chosen ps o.footprints [o2] }) := by
  have hr : fs.canRead p = true := let ⟨_, hc, _⟩ := hp; contains_canRead hc
  have hb := noCR_base he.charWise
  obtain ⟨a, ha, hl, hon⟩ := Board.opens h he tedit hclock hp
  obtain ⟨b, hb, hl2, hon2⟩ := Footprint.opens h2 he tedit hclock hq
  have h0 : Board.WF o.asRead := Board.WF.asRead h
  have h02 : ∀ f ∈ [({ o2 with filePath := none } : Footprint)], f.WF := fun f hf => by
    cases List.mem_singleton.1 hf
    exact { h2 with }
  have h1 : Board.WF { o.asRead with footprints := chosen ps o.asRead.footprints [{ o2 with filePath := none }] } :=
    { h0 with footprints := chosen_all h0.footprints h02 }
  have hnew : ({ a with footprints := chosen ps a.footprints [b] } : Board) =
      canon ({ o.asRead with footprints := chosen ps o.asRead.footprints [{ o2 with filePath := none }] } : Board) := by
    rw [ha, hb]
    show _ = ({ canon o.asRead with footprints := canon (chosen ps o.asRead.footprints [{ o2 with filePath := none }]) } : Board)
    rw [← chosen_canon]
    rfl
  have hwn : Board.WF { a with footprints := chosen ps a.footprints [b] } := hnew ▸ Stable.keep h1
  have hw' : Board.WF { a with footprints := chosen ps a.footprints [b], filePath := some p } := { hwn with }
  have hend := Board.leaves hw' he (fp := none) (p := p) rfl hw hr
    (Board.set_only hon (chosen_only (Board.footprints_only hon) (only_single hon2)))
  have hrun : footprintToBoard env tedit ps p q fs =
      saving (Board.toFile env { a with footprints := chosen ps a.footprints [b], filePath := some p } none none) fs := by
    unfold footprintToBoard
    rw [run_ok hl, run_ok hl2]
  rw [hrun]
  refine (congrArg (Leaves _ env fs p) ?_).mp hend
  show Board.toVal { a with footprints := chosen ps a.footprints [b] } = _
  rw [hnew, Board.toVal_canon _ h1]
  have e : chosen ps o.asRead.footprints [{ o2 with filePath := none }] = (chosen ps o.footprints [o2]).map fun f => { f with filePath := none } :=
    chosen_map (fun f : Footprint => ({ f with filePath := none } : Footprint)) ps o.footprints [o2]
  rw [e]
  simp only [Board.asRead, Board.toVal, Board.asRead_footprints]
  rfl

/-- The new file holds the footprint as it was in the board. -/
theorem C86_board_to_footprint (o : Board) (h : o.WF) (i : Nat) (f : Footprint) (hi : o.footprints[i]? = some f) (env : Env) (has : Char → Prop)
    (he : Usual env has) (tedit : Val) (hclock : PlainClock tedit) (p q : Path) (fs : FS) (hp : Holds env fs p o.toVal)
    (hw : Openable fs q) (hr : fs.canRead q = true) :
    Leaves (boardToFootprint env tedit i p q fs) env fs q f.toVal := by
  have hb := noCR_base he.charWise
  obtain ⟨a, ha, hl, hon⟩ := Board.opens h he tedit hclock hp
  have hf : f.WF := h.footprints f (List.mem_of_getElem? hi)
  have hf0 : Footprint.WF { f with filePath := none } := { hf with }
  have hai : a.footprints[i]? = some (canon ({ f with filePath := none } : Footprint)) := by
    rw [ha]
    show ((o.footprints.map fun f => ({ f with filePath := none } : Footprint)).map canon)[i]? = _
    rw [List.getElem?_map, List.getElem?_map, hi]
    rfl
  have hrun : boardToFootprint env tedit i p q fs = saving (Footprint.toFile env (canon { f with filePath := none }) (some q) none) fs := by
    unfold boardToFootprint
    rw [run_ok hl]
    show (match a.footprints[i]? with | some f => saving (Footprint.toFile env f (some q) none) | none => pure ()) fs = _
    rw [hai]
  rw [hrun]
  have hend := Footprint.leaves (Stable.keep hf0) he (fp := some q) (p := q) rfl hw hr
    (Only.mem (Board.footprints_only hon) (List.mem_of_getElem? hai))
  rw [Footprint.toVal_canon _ hf0] at hend
  exact hend

/-! ## Cases -/

/-- A board with a footprint. -/
def moveBoard : Board := { smallBoard with footprints := [smallFootprint] }

theorem moveBoard_wf : moveBoard.WF :=
  { smallBoard_wf with footprints := fun _ h => by cases List.mem_singleton.1 h; exact smallFootprint_wf }

set_option maxRecDepth 100000 in
example := C86_library_to_schematic smallSchematic smallSchematic_wf (fun _ h => nomatch h) sampleSymbolLib sampleSymbolLib_wf [.second 0, .first 0]
  (Env.simple .latin1 false) _ (usual_latin1 false) k!"a" k!"b" (FS.both smallSchematic.toVal sampleSymbolLib.toVal)
  (both_holds (by decide +kernel) (by decide +kernel) false).1 (both_holds (by decide +kernel) (by decide +kernel) false).2 (two_openable ..)
set_option maxRecDepth 100000 in
example := C86_schematic_to_library sampleSymbolLib sampleSymbolLib_wf smallSchematic smallSchematic_wf [.second 0, .first 0]
  (Env.simple .latin1 false) _ (usual_latin1 false) k!"a" k!"b" (FS.both sampleSymbolLib.toVal smallSchematic.toVal)
  (both_holds (by decide +kernel) (by decide +kernel) false).1 (both_holds (by decide +kernel) (by decide +kernel) false).2 (two_openable ..)
set_option maxRecDepth 100000 in
example := C86_footprint_to_board moveBoard moveBoard_wf smallFootprint smallFootprint_wf [.second 0, .first 0]
  (Env.simple .latin1 false) _ (usual_latin1 false) (.str k!"0") (by unfold PlainClock; decide) k!"a" k!"b" (FS.both moveBoard.toVal smallFootprint.toVal)
  (both_holds (by decide +kernel) (by decide +kernel) false).1 (both_holds (by decide +kernel) (by decide +kernel) false).2 (two_openable ..)
set_option maxRecDepth 100000 in
example := C86_board_to_footprint moveBoard moveBoard_wf 0 smallFootprint rfl
  (Env.simple .latin1 false) _ (usual_latin1 false) (.str k!"0") (by unfold PlainClock; decide) k!"b" k!"a" (FS.both smallFootprint.toVal moveBoard.toVal)
  (both_holds (by decide +kernel) (by decide +kernel) false).2 (two_openable ..) rfl

end Kiutils
