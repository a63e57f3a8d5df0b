import Verif.Props.Backslash
import Verif.Props.InPlace
import Verif.Props.FixedPoint
/-!
# Files with texts that end in a backslash (C81)

What the other properties say of files (C06, C21, C49, C61, C65, C66), for files that have such texts: none of the texts of the file
begins with white space or `)`, and no word without quotes has a quote in it. In this module that is what the conditions on objects
(`WF`) and the texts of trees (`TextOf`, `PrintsSeq`) mean.
-/
namespace Kiutils
attribute [local instance 2000] TextRule.backslash

/-- Whatever the layout of the text of a tree, the reader returns that tree (C06). -/
theorem C81_tree (l : List Val) (s : Str) (h : Prints l s) : parseSexp s = .ok (.list l) := C06_tree_round_trip l s h
example := C81_tree [.str k!"a\\", .list [.str k!"c"]] k!" (\"a\\\"\n (\"c\" ))"
  ⟨k!" ", k!"\"a\\\"\n (\"c\" )", by unfold Blank; decide, .text [] k!"a\\" k!"\n (\"c\" )" _ (by unfold Blank; decide) (by decide) (by decide)
    (.list k!"\n " k!"\"c\" " [] _ [] (by unfold Blank; decide) (.text [] k!"c" k!" " [] (by unfold Blank; decide) (by decide) (by decide)
      (.nil _ (by unfold Blank; decide))) (.nil [] (by unfold Blank; decide))), rfl⟩

namespace Ending
/-- A text of the sample. -/
def spelledRules : Str := (spellSeq sampleDesignRules.toVals).getD []
theorem spelledRules_ok : PrintsSeq sampleDesignRules.toVals spelledRules :=
  spellSeq_prints _ _ (Option.some_get (by decide +kernel : (spellSeq sampleDesignRules.toVals).isSome)).symm
end Ending

/-! ## A text of an object in the documented format is loaded as that object (C49). -/

theorem C81_LibTable_loads (o : LibTable) (h : o.WF) (s : Str) (hs : TextOf o.toVal s) :
    Loads s LibTable.fromSexpr
      { o with filePath := none } :=
  C49_LibTable o h s hs
example := C81_LibTable_loads Ending.sampleLibTable Ending.sampleLibTable_wf

theorem C81_DesignRules_loads (o : DesignRules) (h : o.WF) (s : Str) (hs : PrintsSeq o.toVals s) :
    ∃ o', DesignRules.parseText s = .ok o' ∧ PyEq.eq { o with filePath := none } o' :=
  C49_DesignRules o h s hs
example := C81_DesignRules_loads Ending.sampleDesignRules Ending.sampleDesignRules_wf

theorem C81_WorkSheet_loads (o : WorkSheet) (h : o.WF) (s : Str) (hs : TextOf o.toVal s) :
    Loads s WorkSheet.fromSexpr
      { o with filePath := none } :=
  C49_WorkSheet o h s hs
example := C81_WorkSheet_loads Ending.sampleWorkSheet Ending.sampleWorkSheet_wf

theorem C81_SymbolLib_loads (o : SymbolLib) (h : o.WF) (s : Str) (hs : TextOf o.toVal s) :
    Loads s SymbolLib.fromSexpr
      { o with filePath := none } :=
  C49_SymbolLib o h s hs
example := C81_SymbolLib_loads Ending.sampleSymbolLib Ending.sampleSymbolLib_wf

theorem C81_Schematic_loads (o : Schematic) (h : o.WF) (s : Str) (hs : TextOf o.toVal s) :
    Loads s Schematic.fromSexpr
      { o with
        junctions := o.junctions.map fun j => { j with diameter := .int 0 }
        sheets := o.sheets.map fun s => { s with fill := { s.fill with precision := some 4 } }
        filePath := none } :=
  C49_Schematic o h s hs
example := C81_Schematic_loads Ending.sampleSchematic Ending.sampleSchematic_wf

theorem C81_Footprint_loads (o : Footprint) (h : o.WF) (tedit : Val) (s : Str) (hs : TextOf o.toVal s) :
    Loads s (Footprint.fromSexpr tedit)
      { o with filePath := none } :=
  C49_Footprint o h tedit s hs
example := C81_Footprint_loads Ending.sampleFootprint Ending.sampleFootprint_wf (.str k!"5f12ab34")

theorem C81_Board_loads (o : Board) (h : o.WF) (tedit : Val) (s : Str) (hs : TextOf o.toVal s) :
    Loads s (Board.fromSexpr tedit)
      { o with
        setup := { o.setup with plotSettings := o.setup.plotSettings.map fun p => { p with useAuxOrigin := false } }
        footprints := o.footprints.map fun f => { f with filePath := none }
        filePath := none } :=
  C49_Board o h tedit s hs
example := C81_Board_loads Ending.sampleBoard Ending.sampleBoard_wf (.str k!"5f12ab34")

/-! ## Loading and saving a text keeps its content (C61). -/

theorem C81_LibTable_keeps (o : LibTable) (h : o.WF) (s : Str) (hs : TextOf o.toVal s) (i : Nat) (nl : Bool) :
    Keeps s LibTable.fromSexpr (fun o => .ok (o.toSexpr i nl)) :=
  C61_LibTable o h s hs i nl
example := C81_LibTable_keeps Ending.sampleLibTable Ending.sampleLibTable_wf

theorem C81_DesignRules_keeps (o : DesignRules) (h : o.WF) (s : Str) (hs : PrintsSeq o.toVals s) (i : Nat) (nl : Bool) :
    ∃ o' t v, DesignRules.parseText s = .ok o' ∧ o'.toSexpr i nl = .ok t ∧ parseSexp ('(' :: (s ++ [')'])) = .ok v ∧
      parseSexp ('(' :: (t ++ [')'])) = .ok v :=
  C61_DesignRules o h s hs i nl
example := C81_DesignRules_keeps Ending.sampleDesignRules Ending.sampleDesignRules_wf

theorem C81_WorkSheet_keeps (o : WorkSheet) (h : o.WF) (s : Str) (hs : TextOf o.toVal s) (i : Nat) (nl : Bool) :
    Keeps s WorkSheet.fromSexpr (fun o => o.toSexpr i nl) :=
  C61_WorkSheet o h s hs i nl
example := C81_WorkSheet_keeps Ending.sampleWorkSheet Ending.sampleWorkSheet_wf

theorem C81_SymbolLib_keeps (o : SymbolLib) (h : o.WF) (s : Str) (hs : TextOf o.toVal s) (i : Nat) (nl : Bool) :
    Keeps s SymbolLib.fromSexpr (fun o => .ok (o.toSexpr i nl)) :=
  C61_SymbolLib o h s hs i nl
example := C81_SymbolLib_keeps Ending.sampleSymbolLib Ending.sampleSymbolLib_wf

theorem C81_Schematic_keeps (o : Schematic) (h : o.WF) (hf : ∀ v ∈ o.sheets, FixOk 4 v.fill.A) (s : Str) (hs : TextOf o.toVal s) (i : Nat) (nl : Bool) :
    Rewrites s Schematic.fromSexpr (fun o => o.toSexpr i nl) (Schematic.toVal { o with junctions := o.junctions.map fun j => { j with diameter := .int 0 } }) :=
  C61_Schematic o h hf s hs i nl
example := C81_Schematic_keeps Ending.sampleSchematic Ending.sampleSchematic_wf (by listOk; exact fixOk_int (exactInt_of_le (by decide)))

theorem C81_Footprint_keeps (o : Footprint) (h : o.WF) (tedit : Val) (s : Str) (hs : TextOf o.toVal s) (i : Nat) (nl lf : Bool) :
    Keeps s (Footprint.fromSexpr tedit) (fun o => o.toSexpr i nl lf) :=
  C61_Footprint o h tedit s hs i nl lf
example := C81_Footprint_keeps Ending.sampleFootprint Ending.sampleFootprint_wf

theorem C81_Board_keeps (o : Board) (h : o.WF) (tedit : Val) (s : Str) (hs : TextOf o.toVal s) (i : Nat) (nl : Bool) :
    Rewrites s (Board.fromSexpr tedit) (fun o => o.toSexpr i nl) (Board.toVal { o with setup := { o.setup with plotSettings := o.setup.plotSettings.map fun p => { p with useAuxOrigin := false } } }) :=
  C61_Board o h tedit s hs i nl
example := C81_Board_keeps Ending.sampleBoard Ending.sampleBoard_wf

/-! ## Opening a file and saving it in place keeps its content (C65). -/

theorem C81_LibTable_in_place (o : LibTable) (h : o.WF) (env env' : Env) (enc enc' : Option Codec) (hu : used env' enc' = used env enc) (p : Path) (fs : FS)
    (text : Str) (hc : Contains env fs p enc text) (hs : TextOf o.toVal text) (has : Char → Prop) (he : CharWise (used env enc) has)
    (hl : (used env enc).Lawful) (hw : Openable fs p) (hf : env'.full = none) :
    ∃ o' t, LibTable.fromFile env p enc fs = (.ok o', fs) ∧ SavedAs (o'.toFile env' none enc' fs) fs p env' enc' t ∧ SameTree text t :=
  C65_LibTable o h env env' enc enc' hu p fs text hc hs has he hl hw hf
set_option maxRecDepth 100000 in
example := C81_LibTable_in_place Ending.sampleLibTable Ending.sampleLibTable_wf (Env.simple .latin1 false) (Env.simple .latin1 true) none none rfl k!"a" (FS.spelled Ending.sampleLibTable.toVal) _
  (spelled_contains (by decide +kernel) false) (spelled_textOf (by decide +kernel)) _ charWise_latin1 Codec.latin1_lawful (two_openable ..) rfl

theorem C81_DesignRules_in_place (o : DesignRules) (h : o.WF) (env env' : Env) (enc enc' : Option Codec) (hu : used env' enc' = used env enc) (p : Path) (fs : FS)
    (text : Str) (hc : Contains env fs p enc text) (hs : PrintsSeq o.toVals text) (has : Char → Prop) (he : CharWise (used env enc) has)
    (hl : (used env enc).Lawful) (hw : Openable fs p) (hf : env'.full = none) :
    ∃ o' t, DesignRules.fromFile env p enc fs = (.ok o', fs) ∧ SavedAs (o'.toFile env' none enc' fs) fs p env' enc' t ∧ SameTree ('(' :: (text ++ [')'])) ('(' :: (t ++ [')'])) :=
  C65_DesignRules o h env env' enc enc' hu p fs text hc hs has he hl hw hf
set_option maxRecDepth 100000 in
example := C81_DesignRules_in_place Ending.sampleDesignRules Ending.sampleDesignRules_wf (Env.simple .latin1 false) (Env.simple .latin1 true) none none rfl k!"a"
  (FS.two k!"a" k!"b" (latin Ending.spelledRules) [2]) _ (latin_contains (by decide +kernel) false) Ending.spelledRules_ok _ charWise_latin1 Codec.latin1_lawful (two_openable ..) rfl

theorem C81_WorkSheet_in_place (o : WorkSheet) (h : o.WF) (env env' : Env) (enc : Option Codec) (hu : env'.locale = used env enc) (p : Path) (fs : FS)
    (text : Str) (hc : Contains env fs p enc text) (hs : TextOf o.toVal text) (has : Char → Prop) (he : CharWise (used env enc) has)
    (hl : (used env enc).Lawful) (hw : Openable fs p) (hf : env'.full = none) :
    ∃ o' t, WorkSheet.fromFile env p enc fs = (.ok o', fs) ∧ SavedAs (o'.toFile env' none fs) fs p env' none t ∧ SameTree text t :=
  C65_WorkSheet o h env env' enc hu p fs text hc hs has he hl hw hf
set_option maxRecDepth 100000 in
example := C81_WorkSheet_in_place Ending.sampleWorkSheet Ending.sampleWorkSheet_wf (Env.simple .latin1 false) (Env.simple .latin1 true) none rfl k!"a" (FS.spelled Ending.sampleWorkSheet.toVal) _
  (spelled_contains (by decide +kernel) false) (spelled_textOf (by decide +kernel)) _ charWise_latin1 Codec.latin1_lawful (two_openable ..) rfl

theorem C81_SymbolLib_in_place (o : SymbolLib) (h : o.WF) (env env' : Env) (enc enc' : Option Codec) (hu : used env' enc' = used env enc) (p : Path) (fs : FS)
    (text : Str) (hc : Contains env fs p enc text) (hs : TextOf o.toVal text) (has : Char → Prop) (he : CharWise (used env enc) has)
    (hl : (used env enc).Lawful) (hw : Openable fs p) (hf : env'.full = none) :
    ∃ o' t, SymbolLib.fromFile env p enc fs = (.ok o', fs) ∧ SavedAs (o'.toFile env' none enc' fs) fs p env' enc' t ∧ SameTree text t :=
  C65_SymbolLib o h env env' enc enc' hu p fs text hc hs has he hl hw hf
set_option maxRecDepth 100000 in
example := C81_SymbolLib_in_place Ending.sampleSymbolLib Ending.sampleSymbolLib_wf (Env.simple .latin1 false) (Env.simple .latin1 true) none none rfl k!"a" (FS.spelled Ending.sampleSymbolLib.toVal) _
  (spelled_contains (by decide +kernel) false) (spelled_textOf (by decide +kernel)) _ charWise_latin1 Codec.latin1_lawful (two_openable ..) rfl

theorem C81_Schematic_in_place (o : Schematic) (h : o.WF) (hprec : ∀ v ∈ o.sheets, FixOk 4 v.fill.A) (env env' : Env) (enc enc' : Option Codec) (hu : used env' enc' = used env enc) (p : Path) (fs : FS)
    (text : Str) (hc : Contains env fs p enc text) (hs : TextOf o.toVal text) (has : Char → Prop) (he : CharWise (used env enc) has)
    (hl : (used env enc).Lawful) (hw : Openable fs p) (hf : env'.full = none) :
    ∃ o' t, Schematic.fromFile env p enc fs = (.ok o', fs) ∧ SavedAs (o'.toFile env' none enc' fs) fs p env' enc' t ∧ parseSexp t = .ok (Schematic.toVal { o with junctions := o.junctions.map fun j => { j with diameter := .int 0 } }) :=
  C65_Schematic o h hprec env env' enc enc' hu p fs text hc hs has he hl hw hf
set_option maxRecDepth 100000 in
example := C81_Schematic_in_place Ending.smallSchematic Ending.smallSchematic_wf (fun _ h => nomatch h) (Env.simple .latin1 false) (Env.simple .latin1 true) none none rfl k!"a" (FS.spelled Ending.smallSchematic.toVal) _
  (spelled_contains (by decide +kernel) false) (spelled_textOf (by decide +kernel)) _ charWise_latin1 Codec.latin1_lawful (two_openable ..) rfl

theorem C81_Footprint_in_place (o : Footprint) (h : o.WF) (env env' : Env) (enc enc' : Option Codec) (hu : used env' enc' = used env enc) (tedit : Val) (hclock : PlainClock tedit) (p : Path) (fs : FS)
    (text : Str) (hc : Contains env fs p enc text) (hs : TextOf o.toVal text) (has : Char → Prop) (he : CharWise (used env enc) has)
    (hl : (used env enc).Lawful) (hw : Openable fs p) (hf : env'.full = none) :
    ∃ o' t, Footprint.fromFile env tedit p enc fs = (.ok o', fs) ∧ SavedAs (o'.toFile env' (some p) enc' fs) fs p env' enc' t ∧ SameTree text t :=
  C65_Footprint o h env env' enc enc' hu tedit hclock p fs text hc hs has he hl hw hf
set_option maxRecDepth 100000 in
example := C81_Footprint_in_place Ending.smallFootprint Ending.smallFootprint_wf (Env.simple .latin1 false) (Env.simple .latin1 true) none none rfl (.str k!"0") (by unfold PlainClock; decide) k!"a" (FS.spelled Ending.smallFootprint.toVal) _
  (spelled_contains (by decide +kernel) false) (spelled_textOf (by decide +kernel)) _ charWise_latin1 Codec.latin1_lawful (two_openable ..) rfl

theorem C81_Board_in_place (o : Board) (h : o.WF) (env env' : Env) (enc enc' : Option Codec) (hu : used env' enc' = used env enc) (tedit : Val) (hclock : PlainClock tedit) (p : Path) (fs : FS)
    (text : Str) (hc : Contains env fs p enc text) (hs : TextOf o.toVal text) (has : Char → Prop) (he : CharWise (used env enc) has)
    (hl : (used env enc).Lawful) (hw : Openable fs p) (hf : env'.full = none) :
    ∃ o' t, Board.fromFile env tedit p enc fs = (.ok o', fs) ∧ SavedAs (o'.toFile env' none enc' fs) fs p env' enc' t ∧ parseSexp t = .ok (Board.toVal { o with setup := { o.setup with plotSettings := o.setup.plotSettings.map fun p => { p with useAuxOrigin := false } } }) :=
  C65_Board o h env env' enc enc' hu tedit hclock p fs text hc hs has he hl hw hf
set_option maxRecDepth 100000 in
example := C81_Board_in_place Ending.smallBoard Ending.smallBoard_wf (Env.simple .latin1 false) (Env.simple .latin1 true) none none rfl (.str k!"0") (by unfold PlainClock; decide) k!"a" (FS.spelled Ending.smallBoard.toVal) _
  (spelled_contains (by decide +kernel) false) (spelled_textOf (by decide +kernel)) _ charWise_latin1 Codec.latin1_lawful (two_openable ..) rfl

/-! ## Saved in place, it is loaded again as the same object (C66). -/

theorem C81_LibTable_again (o : LibTable) (h : o.WF) (env env' : Env) (enc enc' : Option Codec) (hu : used env' enc' = used env enc) (p : Path) (fs : FS)
    (text : Str) (hc : Contains env fs p enc text) (hs : TextOf o.toVal text) (has : Char → Prop) (he : CharWise (used env enc) has)
    (hl : (used env enc).Lawful) (hw : Openable fs p) (hf : env'.full = none) :
    ∃ o' fs', LibTable.fromFile env p enc fs = (.ok o', fs) ∧ (o'.toFile env' none enc' fs).final fs = fs' ∧
      LibTable.fromFile env' p enc' fs' = (.ok o', fs') ∧ SavedUnchanged (o'.toFile env' none enc' fs') fs' :=
  C66_LibTable o h env env' enc enc' hu p fs text hc hs has he hl hw hf
set_option maxRecDepth 100000 in
example := C81_LibTable_again Ending.sampleLibTable Ending.sampleLibTable_wf (Env.simple .latin1 false) (Env.simple .latin1 true) none none rfl k!"a" (FS.spelled Ending.sampleLibTable.toVal) _
  (spelled_contains (by decide +kernel) false) (spelled_textOf (by decide +kernel)) _ charWise_latin1 Codec.latin1_lawful (two_openable ..) rfl

theorem C81_DesignRules_again (o : DesignRules) (h : o.WF) (env env' : Env) (enc enc' : Option Codec) (hu : used env' enc' = used env enc) (p : Path) (fs : FS)
    (text : Str) (hc : Contains env fs p enc text) (hs : PrintsSeq o.toVals text) (has : Char → Prop) (he : CharWise (used env enc) has)
    (hl : (used env enc).Lawful) (hw : Openable fs p) (hf : env'.full = none) :
    ∃ o' fs', DesignRules.fromFile env p enc fs = (.ok o', fs) ∧ (o'.toFile env' none enc' fs).final fs = fs' ∧
      DesignRules.fromFile env' p enc' fs' = (.ok o', fs') ∧ SavedUnchanged (o'.toFile env' none enc' fs') fs' :=
  C66_DesignRules o h env env' enc enc' hu p fs text hc hs has he hl hw hf
set_option maxRecDepth 100000 in
example := C81_DesignRules_again Ending.sampleDesignRules Ending.sampleDesignRules_wf (Env.simple .latin1 false) (Env.simple .latin1 true) none none rfl k!"a"
  (FS.two k!"a" k!"b" (latin Ending.spelledRules) [2]) _ (latin_contains (by decide +kernel) false) Ending.spelledRules_ok _ charWise_latin1 Codec.latin1_lawful (two_openable ..) rfl

theorem C81_WorkSheet_again (o : WorkSheet) (h : o.WF) (env env' : Env) (enc : Option Codec) (hu : env'.locale = used env enc) (p : Path) (fs : FS)
    (text : Str) (hc : Contains env fs p enc text) (hs : TextOf o.toVal text) (has : Char → Prop) (he : CharWise (used env enc) has)
    (hl : (used env enc).Lawful) (hw : Openable fs p) (hf : env'.full = none) :
    ∃ o' fs', WorkSheet.fromFile env p enc fs = (.ok o', fs) ∧ (o'.toFile env' none fs).final fs = fs' ∧
      WorkSheet.fromFile env' p none fs' = (.ok o', fs') ∧ SavedUnchanged (o'.toFile env' none fs') fs' :=
  C66_WorkSheet o h env env' enc hu p fs text hc hs has he hl hw hf
set_option maxRecDepth 100000 in
example := C81_WorkSheet_again Ending.sampleWorkSheet Ending.sampleWorkSheet_wf (Env.simple .latin1 false) (Env.simple .latin1 true) none rfl k!"a" (FS.spelled Ending.sampleWorkSheet.toVal) _
  (spelled_contains (by decide +kernel) false) (spelled_textOf (by decide +kernel)) _ charWise_latin1 Codec.latin1_lawful (two_openable ..) rfl

theorem C81_SymbolLib_again (o : SymbolLib) (h : o.WF) (env env' : Env) (enc enc' : Option Codec) (hu : used env' enc' = used env enc) (p : Path) (fs : FS)
    (text : Str) (hc : Contains env fs p enc text) (hs : TextOf o.toVal text) (has : Char → Prop) (he : CharWise (used env enc) has)
    (hl : (used env enc).Lawful) (hw : Openable fs p) (hf : env'.full = none) :
    ∃ o' fs', SymbolLib.fromFile env p enc fs = (.ok o', fs) ∧ (o'.toFile env' none enc' fs).final fs = fs' ∧
      SymbolLib.fromFile env' p enc' fs' = (.ok o', fs') ∧ SavedUnchanged (o'.toFile env' none enc' fs') fs' :=
  C66_SymbolLib o h env env' enc enc' hu p fs text hc hs has he hl hw hf
set_option maxRecDepth 100000 in
example := C81_SymbolLib_again Ending.sampleSymbolLib Ending.sampleSymbolLib_wf (Env.simple .latin1 false) (Env.simple .latin1 true) none none rfl k!"a" (FS.spelled Ending.sampleSymbolLib.toVal) _
  (spelled_contains (by decide +kernel) false) (spelled_textOf (by decide +kernel)) _ charWise_latin1 Codec.latin1_lawful (two_openable ..) rfl

theorem C81_Schematic_again (o : Schematic) (h : o.WF) (hprec : ∀ v ∈ o.sheets, FixOk 4 v.fill.A) (env env' : Env) (enc enc' : Option Codec) (hu : used env' enc' = used env enc) (p : Path) (fs : FS)
    (text : Str) (hc : Contains env fs p enc text) (hs : TextOf o.toVal text) (has : Char → Prop) (he : CharWise (used env enc) has)
    (hl : (used env enc).Lawful) (hw : Openable fs p) (hf : env'.full = none) :
    ∃ o' fs', Schematic.fromFile env p enc fs = (.ok o', fs) ∧ (o'.toFile env' none enc' fs).final fs = fs' ∧
      Schematic.fromFile env' p enc' fs' = (.ok o', fs') ∧ SavedUnchanged (o'.toFile env' none enc' fs') fs' :=
  C66_Schematic o h hprec env env' enc enc' hu p fs text hc hs has he hl hw hf
set_option maxRecDepth 100000 in
example := C81_Schematic_again Ending.smallSchematic Ending.smallSchematic_wf (fun _ h => nomatch h) (Env.simple .latin1 false) (Env.simple .latin1 true) none none rfl k!"a" (FS.spelled Ending.smallSchematic.toVal) _
  (spelled_contains (by decide +kernel) false) (spelled_textOf (by decide +kernel)) _ charWise_latin1 Codec.latin1_lawful (two_openable ..) rfl

theorem C81_Footprint_again (o : Footprint) (h : o.WF) (env env' : Env) (enc enc' : Option Codec) (hu : used env' enc' = used env enc) (tedit : Val) (hclock : PlainClock tedit) (p : Path) (fs : FS)
    (text : Str) (hc : Contains env fs p enc text) (hs : TextOf o.toVal text) (has : Char → Prop) (he : CharWise (used env enc) has)
    (hl : (used env enc).Lawful) (hw : Openable fs p) (hf : env'.full = none) :
    ∃ o' fs', Footprint.fromFile env tedit p enc fs = (.ok o', fs) ∧ (o'.toFile env' (some p) enc' fs).final fs = fs' ∧
      Footprint.fromFile env' tedit p enc' fs' = (.ok o', fs') ∧ SavedUnchanged (o'.toFile env' (some p) enc' fs') fs' :=
  C66_Footprint o h env env' enc enc' hu tedit hclock p fs text hc hs has he hl hw hf
set_option maxRecDepth 100000 in
example := C81_Footprint_again Ending.smallFootprint Ending.smallFootprint_wf (Env.simple .latin1 false) (Env.simple .latin1 true) none none rfl (.str k!"0") (by unfold PlainClock; decide) k!"a" (FS.spelled Ending.smallFootprint.toVal) _
  (spelled_contains (by decide +kernel) false) (spelled_textOf (by decide +kernel)) _ charWise_latin1 Codec.latin1_lawful (two_openable ..) rfl

theorem C81_Board_again (o : Board) (h : o.WF) (env env' : Env) (enc enc' : Option Codec) (hu : used env' enc' = used env enc) (tedit : Val) (hclock : PlainClock tedit) (p : Path) (fs : FS)
    (text : Str) (hc : Contains env fs p enc text) (hs : TextOf o.toVal text) (has : Char → Prop) (he : CharWise (used env enc) has)
    (hl : (used env enc).Lawful) (hw : Openable fs p) (hf : env'.full = none) :
    ∃ o' fs', Board.fromFile env tedit p enc fs = (.ok o', fs) ∧ (o'.toFile env' none enc' fs).final fs = fs' ∧
      Board.fromFile env' tedit p enc' fs' = (.ok o', fs') ∧ SavedUnchanged (o'.toFile env' none enc' fs') fs' :=
  C66_Board o h env env' enc enc' hu tedit hclock p fs text hc hs has he hl hw hf
set_option maxRecDepth 100000 in
example := C81_Board_again Ending.smallBoard Ending.smallBoard_wf (Env.simple .latin1 false) (Env.simple .latin1 true) none none rfl (.str k!"0") (by unfold PlainClock; decide) k!"a" (FS.spelled Ending.smallBoard.toVal) _
  (spelled_contains (by decide +kernel) false) (spelled_textOf (by decide +kernel)) _ charWise_latin1 Codec.latin1_lawful (two_openable ..) rfl

/-! ## What was loaded once is the same after further saving and loading (C21; schematics have a further condition, see `C21_Schematic_partial`). -/

theorem C81_LibTable_stable (o : LibTable) (h : o.WF) (i : Nat) (nl : Bool) (i' : Nat) (nl' : Bool) :
    Settles (fun o : LibTable => .ok (o.toSexpr i nl)) (fun o => .ok (o.toSexpr i' nl')) LibTable.fromSexpr o :=
  C21_LibTable o h i nl i' nl'
example := C81_LibTable_stable Ending.sampleLibTable Ending.sampleLibTable_wf

theorem C81_DesignRules_stable (o : DesignRules) (h : o.WF) (i i' : Nat) (nl nl' : Bool) :
    ∃ o', (o.toSexpr i nl >>= DesignRules.parseText) = .ok o' ∧ (o'.toSexpr i' nl' >>= DesignRules.parseText) = .ok o' :=
  C21_DesignRules o h i i' nl nl'
example := C81_DesignRules_stable Ending.sampleDesignRules Ending.sampleDesignRules_wf

theorem C81_WorkSheet_stable (o : WorkSheet) (h : o.WF) (i : Nat) (nl : Bool) (i' : Nat) (nl' : Bool) :
    Settles (fun o : WorkSheet => o.toSexpr i nl) (fun o => o.toSexpr i' nl') WorkSheet.fromSexpr o :=
  C21_WorkSheet o h i nl i' nl'
example := C81_WorkSheet_stable Ending.sampleWorkSheet Ending.sampleWorkSheet_wf

theorem C81_SymbolLib_stable (o : SymbolLib) (h : o.WF) (i : Nat) (nl : Bool) (i' : Nat) (nl' : Bool) :
    Settles (fun o : SymbolLib => .ok (o.toSexpr i nl)) (fun o => .ok (o.toSexpr i' nl')) SymbolLib.fromSexpr o :=
  C21_SymbolLib o h i nl i' nl'
example := C81_SymbolLib_stable Ending.sampleSymbolLib Ending.sampleSymbolLib_wf

theorem C81_Footprint_stable (o : Footprint) (h : o.WF) (tedit : Val) (i : Nat) (nl lf : Bool) (i' : Nat) (nl' lf' : Bool) :
    Settles (fun o : Footprint => o.toSexpr i nl lf) (fun o => o.toSexpr i' nl' lf') (Footprint.fromSexpr tedit) o :=
  C21_Footprint o h tedit i nl lf i' nl' lf'
example := C81_Footprint_stable Ending.sampleFootprint Ending.sampleFootprint_wf (.str k!"5f12ab34")

theorem C81_Board_stable (o : Board) (h : o.WF) (tedit : Val) (i : Nat) (nl : Bool) (i' : Nat) (nl' : Bool) :
    Settles (fun o : Board => o.toSexpr i nl) (fun o => o.toSexpr i' nl') (Board.fromSexpr tedit) o :=
  C21_Board o h tedit i nl i' nl'
example := C81_Board_stable Ending.sampleBoard Ending.sampleBoard_wf (.str k!"5f12ab34")

end Kiutils
