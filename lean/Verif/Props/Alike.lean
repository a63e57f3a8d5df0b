import Verif.Proofs.AlikeAll
import Verif.Props.Samples
/-!
# C76: expressions that say the same are loaded as the same object, at any depth

`SaysSame` (`Verif/Alike.lean`) is the specification: expressions that differ in children with unknown tokens and in the order of
unrelated children, anywhere in the expression. C10 and C36 say this about the children of one expression; here the differences may be
at any depth and any number of them.
-/
namespace Kiutils

/-- Expressions that say the same are loaded as the same object, or both are rejected. -/
theorem C76_all {k : ExpKind} {v w : Val} (h : SaysSame k v w) : k.Same v w := h.same

theorem unknown_word {ks : List Str} {u : Str} (h : u ∉ ks) : ∀ w ∈ ks, Val.str u ≠ .str w :=
  fun w hw e => h (by cases e; exact hw)

/-- One more child with an unknown token, at the end. -/
theorem alike_last {k : ExpKind} {s xs : List Val} (hs : k.Start s) {u : Val} {r : List Val} (hu : ∀ w ∈ k.known, u ≠ .str w) :
    SaysSame k (.list ((s ++ xs) ++ [.list (u :: r)])) (.list (s ++ xs)) := by
  have := SaysSame.unknown hs xs [] (r := r) hu
  rwa [← List.append_assoc, List.append_nil] at this

/-- Loading `v`, saving and reading the text, where an expression that says the same is loaded as `canon e`. -/
theorem alike_saved {α : Type} [Canon α] {v v' u w : Val} {load : Val → PyM α} {save : α → PyM Str} {e : α} {text : Str}
    (hp : parseSexp text = .ok v') (h : ∀ o, load v' = .ok o ↔ load v = .ok o)
    (hl : load v = .ok (canon e)) (hw : (save (canon e) >>= parseSexp) = .ok u) (hu : u = w) :
    ∃ o t, (parseSexp text >>= load) = .ok o ∧ save o = .ok t ∧ parseSexp t = .ok w := by
  cases ht : save (canon e) with
  | error x => rw [ht] at hw; cases hw
  | ok t =>
    rw [ht] at hw
    refine ⟨canon e, t, ?_, ht, hu ▸ hw⟩
    rw [hp]
    exact (h _).2 hl

theorem C76_Board {v w : Val} (h : SaysSame .Board v w) (tedit : Val) (o : Board) : Board.fromSexpr tedit v = .ok o ↔ Board.fromSexpr tedit w = .ok o :=
  C76_all h tedit o
example (tedit : Val) (o : Board) :
    Board.fromSexpr tedit (.list [.str k!"kicad_pcb", .list [.str k!"version", .int 20221018], .list [.str k!"gr_text", .str k!"hello", .list [.str k!"at", .int 1, .int 2], .list [.str k!"layer", .str k!"F.Cu"], .list [.str k!"effects", .list [.str k!"font", .list [.str k!"size", .int 1, .int 1], .list [.str k!"wibble", .list [.str k!"x", .int 3]]]]]]) = .ok o ↔
    Board.fromSexpr tedit (.list [.str k!"kicad_pcb", .list [.str k!"version", .int 20221018], .list [.str k!"gr_text", .str k!"hello", .list [.str k!"at", .int 1, .int 2], .list [.str k!"layer", .str k!"F.Cu"], .list [.str k!"effects", .list [.str k!"font", .list [.str k!"size", .int 1, .int 1]]]]]) = .ok o :=
  C76_Board (.child .Board_gr_text rfl [.list [.str k!"version", .int 20221018]] [] (.child .GrText_effects ⟨_, rfl⟩ [.list [.str k!"at", .int 1, .int 2], .list [.str k!"layer", .str k!"F.Cu"]] []
    (.child .Effects_font rfl [] [] (.unknown (k := .Font) rfl [.list [.str k!"size", .int 1, .int 1]] [] (unknown_word (by decide)))))) tedit o

theorem C76_Board_saved [TextRule] (o : Board) (h : o.WF) (tedit : Val) {v : Val} (ha : SaysSame .Board v o.toVal) (text : Str) (hp : parseSexp text = .ok v) :
    ∃ o' t, (parseSexp text >>= (Board.fromSexpr tedit)) = .ok o' ∧ o'.toSexpr = .ok t ∧
      parseSexp t = .ok ((Board.toVal { o with setup := { o.setup with plotSettings := o.setup.plotSettings.map fun p => { p with useAuxOrigin := false } } })) := by
  have h0 : Board.WF o.asRead := Board.WF.asRead h
  have h' := Stable.keep h0
  exact alike_saved (save := (fun o : Board => o.toSexpr)) hp (C76_Board ha tedit) (Board.from_toVal h tedit) (Board.lexes h' 0 true).parse
    ((Board.toVal_canon o.asRead h0).trans (by simp only [Board.asRead, Board.toVal, Board.asRead_footprints]; rfl))
set_option maxRecDepth 100000 in
example := C76_Board_saved smallBoard smallBoard_wf (.str k!"0") (alike_last (k := .Board) rfl (u := .str k!"wibble") (r := [.int 3]) (unknown_word (by decide))) (spelled _)
  (textOf_parse (spelled_textOf (by decide +kernel)))

theorem C76_Footprint {v w : Val} (h : SaysSame .Footprint v w) (tedit : Val) (o : Footprint) : Footprint.fromSexpr tedit v = .ok o ↔ Footprint.fromSexpr tedit w = .ok o :=
  C76_all h tedit o
example (tedit : Val) (o : Footprint) :
    Footprint.fromSexpr tedit (.list [.str k!"footprint", .str k!"a", .list [.str k!"pad", .int 1, .str k!"smd", .str k!"custom", .list [.str k!"at", .int 0, .int 0], .list [.str k!"primitives", .list [.str k!"gr_line", .list [.str k!"start", .int 0, .int 0], .list [.str k!"end", .int 1, .int 1], .list [.str k!"wibble", .list [.str k!"x", .int 3]]], .list [.str k!"wibble", .list [.str k!"x", .int 3]]]]]) = .ok o ↔
    Footprint.fromSexpr tedit (.list [.str k!"footprint", .str k!"a", .list [.str k!"pad", .int 1, .str k!"smd", .str k!"custom", .list [.str k!"at", .int 0, .int 0], .list [.str k!"primitives", .list [.str k!"gr_line", .list [.str k!"start", .int 0, .int 0], .list [.str k!"end", .int 1, .int 1]]]]]) = .ok o :=
  C76_Footprint (.child .Footprint_pad ⟨_, _, .inr rfl, rfl⟩ [] [] (.child .Pad_primitives ⟨_, _, _, rfl⟩ [.list [.str k!"at", .int 0, .int 0]] []
    (.trans (.unknown (k := .Primitives) rfl [.list [.str k!"gr_line", .list [.str k!"start", .int 0, .int 0], .list [.str k!"end", .int 1, .int 1], .list [.str k!"wibble", .list [.str k!"x", .int 3]]]] [] (unknown_word (by decide)))
      (.child .Primitives_gr_line rfl [] [] (.unknown (k := .GrLine) rfl [.list [.str k!"start", .int 0, .int 0], .list [.str k!"end", .int 1, .int 1]] [] (unknown_word (by decide))))))) tedit o

theorem C76_Footprint_saved [TextRule] (o : Footprint) (h : o.WF) (tedit : Val) {v : Val} (ha : SaysSame .Footprint v o.toVal) (text : Str) (hp : parseSexp text = .ok v) :
    ∃ o' t, (parseSexp text >>= (Footprint.fromSexpr tedit)) = .ok o' ∧ o'.toSexpr = .ok t ∧
      parseSexp t = .ok ((o.toVal)) := by
  have h0 : Footprint.WF ({ o with filePath := none } : Footprint) := (show Footprint.WF { o with filePath := none } from { h with })
  have h' := Stable.keep h0
  exact alike_saved (save := (fun o : Footprint => o.toSexpr)) hp (C76_Footprint ha tedit) (Footprint.from_toVal h tedit) (Footprint.lexes h' 0 true false).parse
    (Footprint.toVal_canon ({ o with filePath := none } : Footprint) h0)
set_option maxRecDepth 100000 in
example := C76_Footprint_saved smallFootprint smallFootprint_wf (.str k!"0") (alike_last (k := .Footprint) ⟨_, _, .inr rfl, rfl⟩ (u := .str k!"wibble") (r := [.int 3]) (unknown_word (by decide))) (spelled _)
  (textOf_parse (spelled_textOf (by decide +kernel)))

theorem C76_Schematic {v w : Val} (h : SaysSame .Schematic v w) (o : Schematic) : Schematic.fromSexpr v = .ok o ↔ Schematic.fromSexpr w = .ok o :=
  C76_all h o
example (o : Schematic) :
    Schematic.fromSexpr (.list [.str k!"kicad_sch", .list [.str k!"version", .int 1], .list [.str k!"lib_symbols", .list [.str k!"symbol", .str k!"a", .list [.str k!"pin", .str k!"input", .str k!"line", .list [.str k!"wibble", .list [.str k!"x", .int 3]], .list [.str k!"at", .int 0, .int 0]]]]]) = .ok o ↔
    Schematic.fromSexpr (.list [.str k!"kicad_sch", .list [.str k!"version", .int 1], .list [.str k!"lib_symbols", .list [.str k!"symbol", .str k!"a", .list [.str k!"pin", .str k!"input", .str k!"line", .list [.str k!"at", .int 0, .int 0]]]]]) = .ok o :=
  C76_Schematic (.grandchild .Schematic_lib_symbols rfl [.list [.str k!"version", .int 1]] [] [] [] (.child .Symbol_pin ⟨_, rfl⟩ [] []
    (.unknown (k := .SymbolPin) ⟨_, _, rfl⟩ [] [.list [.str k!"at", .int 0, .int 0]] (unknown_word (by decide))))) o

theorem C76_Schematic_saved [TextRule] (o : Schematic) (h : o.WF) (hprec : ∀ v ∈ o.sheets, FixOk 4 v.fill.A) {v : Val} (ha : SaysSame .Schematic v o.toVal) (text : Str) (hp : parseSexp text = .ok v) :
    ∃ o' t, (parseSexp text >>= Schematic.fromSexpr) = .ok o' ∧ o'.toSexpr = .ok t ∧
      parseSexp t = .ok ((Schematic.toVal { o with junctions := o.junctions.map fun j => { j with diameter := .int 0 } })) := by
  have h0 : Schematic.WF o.asRead := Schematic.WF.asRead h hprec
  have h' := Stable.keep h0
  exact alike_saved (save := (fun o : Schematic => o.toSexpr)) hp (C76_Schematic ha) (Schematic.from_toVal h) (Schematic.lexes h' 0 true).parse
    ((Schematic.toVal_canon o.asRead h0).trans (by simp only [Schematic.asRead, Schematic.toVal, Schematic.asRead_sheets]; rfl))
set_option maxRecDepth 100000 in
example := C76_Schematic_saved smallSchematic smallSchematic_wf (fun _ h => nomatch h) (alike_last (k := .Schematic) rfl (u := .str k!"wibble") (r := [.int 3]) (unknown_word (by decide))) (spelled _)
  (textOf_parse (spelled_textOf (by decide +kernel)))

theorem C76_SymbolLib {v w : Val} (h : SaysSame .SymbolLib v w) (o : SymbolLib) : SymbolLib.fromSexpr v = .ok o ↔ SymbolLib.fromSexpr w = .ok o :=
  C76_all h o
example (o : SymbolLib) :
    SymbolLib.fromSexpr (.list [.str k!"kicad_symbol_lib", .list [.str k!"version", .int 1], .list [.str k!"symbol", .str k!"a", .list [.str k!"symbol", .str k!"a_1_1", .list [.str k!"pin", .str k!"input", .str k!"line", .list [.str k!"length", .int 1], .list [.str k!"wibble", .list [.str k!"x", .int 3]], .list [.str k!"at", .int 0, .int 0]]]]]) = .ok o ↔
    SymbolLib.fromSexpr (.list [.str k!"kicad_symbol_lib", .list [.str k!"version", .int 1], .list [.str k!"symbol", .str k!"a", .list [.str k!"symbol", .str k!"a_1_1", .list [.str k!"pin", .str k!"input", .str k!"line", .list [.str k!"length", .int 1], .list [.str k!"at", .int 0, .int 0]]]]]) = .ok o :=
  C76_SymbolLib (.child .SymbolLib_symbol rfl [.list [.str k!"version", .int 1]] [] (.child .Symbol_symbol ⟨_, rfl⟩ [] [] (.child .Symbol_pin ⟨_, rfl⟩ [] []
    (.unknown (k := .SymbolPin) ⟨_, _, rfl⟩ [.list [.str k!"length", .int 1]] [.list [.str k!"at", .int 0, .int 0]] (unknown_word (by decide)))))) o

theorem C76_SymbolLib_saved [TextRule] (o : SymbolLib) (h : o.WF) {v : Val} (ha : SaysSame .SymbolLib v o.toVal) (text : Str) (hp : parseSexp text = .ok v) :
    ∃ o' t, (parseSexp text >>= SymbolLib.fromSexpr) = .ok o' ∧ (.ok o'.toSexpr : PyM Str) = .ok t ∧
      parseSexp t = .ok ((o.toVal)) := by
  have h0 : SymbolLib.WF ({ o with filePath := none } : SymbolLib) := (show SymbolLib.WF { o with filePath := none } from { h with })
  have h' := Stable.keep h0
  exact alike_saved (save := (fun o : SymbolLib => (.ok o.toSexpr : PyM Str))) hp (C76_SymbolLib ha) (SymbolLib.from_toVal h) (Lexes.one fun _ _ hs => SymbolLib.lx h' hs).parse
    (SymbolLib.toVal_canon ({ o with filePath := none } : SymbolLib) h0)
set_option maxRecDepth 100000 in
example := C76_SymbolLib_saved sampleSymbolLib sampleSymbolLib_wf (alike_last (k := .SymbolLib) rfl (u := .str k!"wibble") (r := [.int 3]) (unknown_word (by decide))) (spelled _)
  (textOf_parse (spelled_textOf (by decide +kernel)))

theorem C76_LibTable {v w : Val} (h : SaysSame .LibTable v w) (o : LibTable) : LibTable.fromSexpr v = .ok o ↔ LibTable.fromSexpr w = .ok o :=
  C76_all h o
example (o : LibTable) :
    LibTable.fromSexpr (.list [.str k!"sym_lib_table", .list [.str k!"lib", .list [.str k!"name", .str k!"a"], .list [.str k!"wibble", .list [.str k!"x", .int 3]], .list [.str k!"type", .str k!"b"]], .list [.str k!"wibble", .list [.str k!"x", .int 3]]]) = .ok o ↔
    LibTable.fromSexpr (.list [.str k!"sym_lib_table", .list [.str k!"lib", .list [.str k!"type", .str k!"b"], .list [.str k!"name", .str k!"a"]]]) = .ok o :=
  C76_LibTable (.trans (.unknown (k := .LibTable) ⟨_, .inr rfl, rfl⟩ [.list [.str k!"lib", .list [.str k!"name", .str k!"a"], .list [.str k!"wibble", .list [.str k!"x", .int 3]], .list [.str k!"type", .str k!"b"]]] [] (unknown_word (by decide)))
    (.child .LibTable_lib ⟨_, .inr rfl, rfl⟩ [] [] (.trans (.unknown (k := .Library) rfl [.list [.str k!"name", .str k!"a"]] [.list [.str k!"type", .str k!"b"]] (unknown_word (by decide)))
      (.order (k := .Library) rfl nofun nofun (Reordered.swap [] [] [.str k!"a"] [.str k!"b"] k!"name" k!"type" (by decide) (by decide)))))) o

theorem C76_LibTable_saved [TextRule] (o : LibTable) (h : o.WF) {v : Val} (ha : SaysSame .LibTable v o.toVal) (text : Str) (hp : parseSexp text = .ok v) :
    ∃ o' t, (parseSexp text >>= LibTable.fromSexpr) = .ok o' ∧ (.ok o'.toSexpr : PyM Str) = .ok t ∧
      parseSexp t = .ok ((o.toVal)) := by
  have h0 : LibTable.WF ({ o with filePath := none } : LibTable) := (show LibTable.WF { o with filePath := none } from { h with })
  have h' := Stable.keep h0
  exact alike_saved (save := (fun o : LibTable => (.ok o.toSexpr : PyM Str))) hp (C76_LibTable ha) (LibTable.from_toVal h) (Lexes.one fun _ _ hs => LibTable.lx h' hs).parse
    (LibTable.toVal_canon ({ o with filePath := none } : LibTable))
set_option maxRecDepth 100000 in
example := C76_LibTable_saved sampleLibTable sampleLibTable_wf (alike_last (k := .LibTable) ⟨_, .inl rfl, rfl⟩ (u := .str k!"wibble") (r := [.int 3]) (unknown_word (by decide))) (spelled _)
  (textOf_parse (spelled_textOf (by decide +kernel)))

theorem C76_WorkSheet {v w : Val} (h : SaysSame .WorkSheet v w) (o : WorkSheet) : WorkSheet.fromSexpr v = .ok o ↔ WorkSheet.fromSexpr w = .ok o :=
  C76_all h o
example (o : WorkSheet) :
    WorkSheet.fromSexpr (.list [.str k!"kicad_wks", .list [.str k!"version", .int 1], .list [.str k!"tbtext", .str k!"a", .list [.str k!"pos", .int 1, .int 2], .list [.str k!"font", .list [.str k!"wibble", .list [.str k!"x", .int 3]], .str k!"bold"]]]) = .ok o ↔
    WorkSheet.fromSexpr (.list [.str k!"kicad_wks", .list [.str k!"version", .int 1], .list [.str k!"tbtext", .str k!"a", .list [.str k!"pos", .int 1, .int 2], .list [.str k!"font", .str k!"bold"]]]) = .ok o :=
  C76_WorkSheet (.child .WorkSheet_tbtext rfl [.list [.str k!"version", .int 1]] [] (.child .TbText_font ⟨_, rfl⟩ [.list [.str k!"pos", .int 1, .int 2]] [] (.unknown (k := .WksFont) rfl [] [.str k!"bold"] (unknown_word (by decide))))) o

theorem C76_WorkSheet_saved [TextRule] (o : WorkSheet) (h : o.WF) {v : Val} (ha : SaysSame .WorkSheet v o.toVal) (text : Str) (hp : parseSexp text = .ok v) :
    ∃ o' t, (parseSexp text >>= WorkSheet.fromSexpr) = .ok o' ∧ o'.toSexpr = .ok t ∧
      parseSexp t = .ok ((o.toVal)) := by
  have h0 : WorkSheet.WF ({ o with filePath := none } : WorkSheet) := (show WorkSheet.WF { o with filePath := none } from { h with })
  have h' := Stable.keep h0
  exact alike_saved (save := (fun o : WorkSheet => o.toSexpr)) hp (C76_WorkSheet ha) (WorkSheet.from_toVal h) (WorkSheet.lx h' 0 true).parse
    (WorkSheet.toVal_canon ({ o with filePath := none } : WorkSheet))
set_option maxRecDepth 100000 in
example := C76_WorkSheet_saved sampleWorkSheet sampleWorkSheet_wf (alike_last (k := .WorkSheet) rfl (u := .str k!"wibble") (r := [.int 3]) (unknown_word (by decide))) (spelled _)
  (textOf_parse (spelled_textOf (by decide +kernel)))

theorem C76_DesignRules {v w : Val} (h : SaysSame .DesignRules v w) (o : DesignRules) : DesignRules.fromSexpr v = .ok o ↔ DesignRules.fromSexpr w = .ok o :=
  C76_all h o
example (o : DesignRules) :
    DesignRules.fromSexpr (.list [.list [.str k!"version", .int 1], .list [.str k!"rule", .str k!"a", .list [.str k!"constraint", .str k!"width", .list [.str k!"min", .int 1], .list [.str k!"wibble", .list [.str k!"x", .int 3]]], .list [.str k!"layer", .str k!"b"]]]) = .ok o ↔
    DesignRules.fromSexpr (.list [.list [.str k!"version", .int 1], .list [.str k!"rule", .str k!"a", .list [.str k!"layer", .str k!"b"], .list [.str k!"constraint", .str k!"width", .list [.str k!"min", .int 1]]]]) = .ok o :=
  C76_DesignRules (.child .DesignRules_rule ⟨_, rfl⟩ [] [] (.trans
    (.child .Rule_constraint ⟨_, rfl⟩ [] [.list [.str k!"layer", .str k!"b"]] (.unknown (k := .Constraint) ⟨_, rfl⟩ [.list [.str k!"min", .int 1]] [] (unknown_word (by decide))))
    (.order (k := .Rule) ⟨_, rfl⟩ nofun nofun (Reordered.swap [] [] _ _ k!"constraint" k!"layer" (by decide) (by decide))))) o

theorem C76_DesignRules_saved [TextRule] (o : DesignRules) (h : o.WF) {v : Val} (ha : SaysSame .DesignRules v (.list o.toVals)) (text : Str)
    (hp : parseSexp ('(' :: (text ++ [')'])) = .ok v) :
    ∃ o' t, DesignRules.parseText text = .ok o' ∧ o'.toSexpr = .ok t ∧ parseSexp ('(' :: (t ++ [')'])) = .ok (.list o.toVals) := by
  have h' := Stable.keep (show DesignRules.WF { o with filePath := none } from { h with })
  have hd := C48_DesignRules _ h' 0 false
  have ht : (canon ({ o with filePath := none } : DesignRules)).toVals = o.toVals := DesignRules.toVals_canon { o with filePath := none }
  rw [ht] at hd
  unfold Denotes at hd
  cases hx : (canon ({ o with filePath := none } : DesignRules)).toSexpr with
  | error e => rw [hx] at hd; cases hd
  | ok t =>
    rw [hx] at hd
    refine ⟨_, t, ?_, hx, hd⟩
    rw [DesignRules.parseText, hp]
    exact (C76_DesignRules ha _).2 (DesignRules.from_toVals h)
set_option maxRecDepth 100000 in
example := C76_DesignRules_saved sampleDesignRules sampleDesignRules_wf
  (alike_last (k := .DesignRules) ⟨_, rfl⟩ (u := .str k!"wibble") (r := [.int 3]) (unknown_word (by decide))) ((spellSeq (sampleDesignRules.toVals ++ [.list [.str k!"wibble", .int 3]])).getD [])
  (C06_tree_round_trip _ _ ⟨[], _, fun _ h => absurd h List.not_mem_nil,
    spellSeq_prints _ _ (Option.some_get (by decide +kernel : (spellSeq (sampleDesignRules.toVals ++ [.list [.str k!"wibble", .int 3]])).isSome)).symm, rfl⟩)

end Kiutils
