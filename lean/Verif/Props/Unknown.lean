import Verif.Props.Alike
import Verif.Props.Holes
import Verif.Props.InPlace
/-!
# Opening and saving files with unknown tokens (C82)

C65 and C66 for files that say the same as the text of an object (`SaysSame`, `Verif/Alike.lean`): the file may have children with
unknown tokens at any depth, and its children may be in another order.
-/
namespace Kiutils

theorem settle_like {α : Type} {v w u x : Val} {load : Val → PyM α} {save : α → PyM Str} {e : α} {text : Str}
    (hp : parseSexp text = .ok v) (ha : ∀ o, load v = .ok o ↔ load w = .ok o) (hl : load w = .ok e)
    (hs : (save e >>= parseSexp) = .ok u) (hu : load u = .ok e) (hx : u = x) :
    ∃ o t, (parseSexp text >>= load) = .ok o ∧ save o = .ok t ∧ parseSexp t = .ok x ∧ (parseSexp t >>= load) = .ok o := by
  subst hx
  cases ht : save e with
  | error x => rw [ht] at hs; cases hs
  | ok t =>
    rw [ht] at hs
    replace hs : parseSexp t = .ok u := hs
    refine ⟨e, t, ?_, ht, hs, ?_⟩
    · rw [hp]; exact (ha e).2 hl
    · rw [hs]; exact hu


theorem Board.loaded_again (o : Board) : ({ o with setup := o.setup.asRead } : Board).loaded = o.loaded := by
  have : o.setup.asRead.asRead = o.setup.asRead := by
    simp only [SetupData.asRead]
    cases o.setup.plotSettings <;> rfl
  show ({ o with setup := o.setup.asRead.asRead, footprints := _, filePath := none } : Board) = { o with setup := o.setup.asRead, footprints := _, filePath := none }
  rw [this]

/-- A footprint with a round hole with an offset. -/
def smallHoledFootprint : Footprint := { smallFootprint with pads := [sampleHoledPad] }
theorem smallHoledFootprint_ok : smallHoledFootprint.Holed :=
  smallFootprint_wf.holed (by intro p hp; cases List.mem_singleton.1 hp; exact sampleHoledPad_ok)
def smallHoledBoard : Board := { smallBoard with footprints := [smallHoledFootprint] }
theorem smallHoledBoard_ok : smallHoledBoard.Holed :=
  smallBoard_wf.holed (by intro p hp; cases List.mem_singleton.1 hp; exact smallHoledFootprint_ok)


theorem LibTable.settle_like [TextRule] (o : LibTable) (h : o.WF) {v : Val} (ha : SaysSame .LibTable v o.toVal) (text : Str) (hp : parseSexp text = .ok v) :
    ∃ o' t, (parseSexp text >>= LibTable.fromSexpr) = .ok o' ∧ (fun o : LibTable => (.ok o.toSexpr : PyM Str)) o' = .ok t ∧ parseSexp t = .ok (o.toVal) ∧
      (parseSexp t >>= LibTable.fromSexpr) = .ok o' := by
  have h0 : LibTable.WF ({ o with filePath := none } : LibTable) := (show LibTable.WF { o with filePath := none } from { h with })
  have h' := Stable.keep h0
  exact Kiutils.settle_like (save := (fun o : LibTable => (.ok o.toSexpr : PyM Str))) hp (C76_LibTable ha) (LibTable.from_toVal h) (Lexes.one fun _ _ hs => LibTable.lx h' hs).parse
    ((LibTable.from_toVal h').trans (congrArg Except.ok ((show canon { canon ({ o with filePath := none } : LibTable) with filePath := none } = _ from idem ({ o with filePath := none } : LibTable)))))
    (LibTable.toVal_canon ({ o with filePath := none } : LibTable))

theorem C82_LibTable [TextRule] (o : LibTable) (h : o.WF) (env env' : Env) (enc enc' : Option Codec) (hu : used env' enc' = used env enc) (p : Path) (fs : FS) (text : Str)
    (hc : Contains env fs p enc text) {v : Val} (hp : parseSexp text = .ok v) (ha : SaysSame .LibTable v o.toVal) (has : Char → Prop)
    (he : CharWise (used env enc) has) (hl : (used env enc).Lawful) (hw : Openable fs p) (hf : env'.full = none) :
    ∃ o' t fs', LibTable.fromFile env p enc fs = (.ok o', fs) ∧ SavedAs (o'.toFile env' none enc' fs) fs p env' enc' t ∧
      parseSexp t = .ok (o.toVal) ∧
      (o'.toFile env' none enc' fs).final fs = fs' ∧ LibTable.fromFile env' p enc' fs' = (.ok o', fs') ∧ SavedUnchanged (o'.toFile env' none enc' fs') fs' := by
  have hb := noCR_base he
  obtain ⟨o', t, h1, h2, hst, h3⟩ := LibTable.settle_like o h ha text hp
  have hch : Chars (NoCR has) t := (by cases h2; exact LibTable.loaded_chars (contains_noCR he hc) h1)
  have hS : Session (fun p text => (parseSexp text >>= LibTable.fromSexpr).map fun o => { o with filePath := some p }) Doc.libTable p text t ({ o' with filePath := some p } : LibTable) := ⟨congrArg (Except.map fun o => { o with filePath := some p }) h1, h2, congrArg (Except.map fun o => { o with filePath := some p }) h3⟩
  rw [← hu] at he hl
  exact ⟨({ o' with filePath := some p } : LibTable), t, _, Session.load C58_LibTable hc hS.first, saved_as (.libTable ({ o' with filePath := some p } : LibTable)) (enc := enc') he hl (by cases enc' <;> rfl) rfl h2 hch hf hw (contains_canRead hc), hst, rfl,
    Session.again C58_LibTable hS (fp := none) (enc := enc') he hl (by cases enc' <;> rfl) rfl hch hf hw (contains_canRead hc)⟩
/-- The sample with one more child with an unknown token. -/
def moreLibTable : Val := match sampleLibTable.toVal with | .list l => .list (l ++ [.list [.str k!"wibble", .int 3]]) | v => v
set_option maxRecDepth 100000 in
example := C82_LibTable sampleLibTable sampleLibTable_wf (Env.simple .latin1 false) (Env.simple .latin1 true) none none rfl k!"a" (FS.spelled moreLibTable) _
  (spelled_contains (by decide +kernel) false) (textOf_parse (spelled_textOf (by decide +kernel)))
  (alike_last (k := .LibTable) ⟨_, .inl rfl, rfl⟩ (u := .str k!"wibble") (r := [.int 3]) (unknown_word (by decide))) _ charWise_latin1 Codec.latin1_lawful (two_openable ..) rfl


theorem WorkSheet.settle_like [TextRule] (o : WorkSheet) (h : o.WF) {v : Val} (ha : SaysSame .WorkSheet v o.toVal) (text : Str) (hp : parseSexp text = .ok v) :
    ∃ o' t, (parseSexp text >>= WorkSheet.fromSexpr) = .ok o' ∧ (fun o : WorkSheet => o.toSexpr) o' = .ok t ∧ parseSexp t = .ok (o.toVal) ∧
      (parseSexp t >>= WorkSheet.fromSexpr) = .ok o' := by
  have h0 : WorkSheet.WF ({ o with filePath := none } : WorkSheet) := (show WorkSheet.WF { o with filePath := none } from { h with })
  have h' := Stable.keep h0
  exact Kiutils.settle_like (save := (fun o : WorkSheet => o.toSexpr)) hp (C76_WorkSheet ha) (WorkSheet.from_toVal h) (WorkSheet.lx h' 0 true).parse
    ((WorkSheet.from_toVal h').trans (congrArg Except.ok ((show canon { canon ({ o with filePath := none } : WorkSheet) with filePath := none } = _ from idem ({ o with filePath := none } : WorkSheet)))))
    (WorkSheet.toVal_canon ({ o with filePath := none } : WorkSheet))

theorem C82_WorkSheet [TextRule] (o : WorkSheet) (h : o.WF) (env env' : Env) (enc : Option Codec) (hu : env'.locale = used env enc) (p : Path) (fs : FS) (text : Str)
    (hc : Contains env fs p enc text) {v : Val} (hp : parseSexp text = .ok v) (ha : SaysSame .WorkSheet v o.toVal) (has : Char → Prop)
    (he : CharWise (used env enc) has) (hl : (used env enc).Lawful) (hw : Openable fs p) (hf : env'.full = none) :
    ∃ o' t fs', WorkSheet.fromFile env p enc fs = (.ok o', fs) ∧ SavedAs (o'.toFile env' none fs) fs p env' none t ∧
      parseSexp t = .ok (o.toVal) ∧
      (o'.toFile env' none fs).final fs = fs' ∧ WorkSheet.fromFile env' p none fs' = (.ok o', fs') ∧ SavedUnchanged (o'.toFile env' none fs') fs' := by
  have hb := noCR_base he
  obtain ⟨o', t, h1, h2, hst, h3⟩ := WorkSheet.settle_like o h ha text hp
  have hch : Chars (NoCR has) t := WorkSheet.loaded_chars (contains_noCR he hc) h1 t h2
  have hS : Session (fun p text => (parseSexp text >>= WorkSheet.fromSexpr).map fun o => { o with filePath := some p }) Doc.workSheet p text t ({ o' with filePath := some p } : WorkSheet) := ⟨congrArg (Except.map fun o => { o with filePath := some p }) h1, h2, congrArg (Except.map fun o => { o with filePath := some p }) h3⟩
  rw [← hu] at he hl
  exact ⟨({ o' with filePath := some p } : WorkSheet), t, _, Session.load C58_WorkSheet hc hS.first, saved_as (.workSheet ({ o' with filePath := some p } : WorkSheet)) (enc := none) he hl rfl rfl h2 hch hf hw (contains_canRead hc), hst, rfl,
    Session.again C58_WorkSheet hS (fp := none) (enc := none) he hl rfl rfl hch hf hw (contains_canRead hc)⟩
/-- The sample with one more child with an unknown token. -/
def moreWorkSheet : Val := match sampleWorkSheet.toVal with | .list l => .list (l ++ [.list [.str k!"wibble", .int 3]]) | v => v
set_option maxRecDepth 100000 in
example := C82_WorkSheet sampleWorkSheet sampleWorkSheet_wf (Env.simple .latin1 false) (Env.simple .latin1 true) none rfl k!"a" (FS.spelled moreWorkSheet) _
  (spelled_contains (by decide +kernel) false) (textOf_parse (spelled_textOf (by decide +kernel)))
  (alike_last (k := .WorkSheet) rfl (u := .str k!"wibble") (r := [.int 3]) (unknown_word (by decide))) _ charWise_latin1 Codec.latin1_lawful (two_openable ..) rfl


theorem SymbolLib.settle_like [TextRule] (o : SymbolLib) (h : o.WF) {v : Val} (ha : SaysSame .SymbolLib v o.toVal) (text : Str) (hp : parseSexp text = .ok v) :
    ∃ o' t, (parseSexp text >>= SymbolLib.fromSexpr) = .ok o' ∧ (fun o : SymbolLib => (.ok o.toSexpr : PyM Str)) o' = .ok t ∧ parseSexp t = .ok (o.toVal) ∧
      (parseSexp t >>= SymbolLib.fromSexpr) = .ok o' := by
  have h0 : SymbolLib.WF ({ o with filePath := none } : SymbolLib) := (show SymbolLib.WF { o with filePath := none } from { h with })
  have h' := Stable.keep h0
  exact Kiutils.settle_like (save := (fun o : SymbolLib => (.ok o.toSexpr : PyM Str))) hp (C76_SymbolLib ha) (SymbolLib.from_toVal h) (Lexes.one fun _ _ hs => SymbolLib.lx h' hs).parse
    ((SymbolLib.from_toVal h').trans (congrArg Except.ok ((show canon { canon ({ o with filePath := none } : SymbolLib) with filePath := none } = _ from idem ({ o with filePath := none } : SymbolLib)))))
    (SymbolLib.toVal_canon ({ o with filePath := none } : SymbolLib) h0)

theorem C82_SymbolLib [TextRule] (o : SymbolLib) (h : o.WF) (env env' : Env) (enc enc' : Option Codec) (hu : used env' enc' = used env enc) (p : Path) (fs : FS) (text : Str)
    (hc : Contains env fs p enc text) {v : Val} (hp : parseSexp text = .ok v) (ha : SaysSame .SymbolLib v o.toVal) (has : Char → Prop)
    (he : CharWise (used env enc) has) (hl : (used env enc).Lawful) (hw : Openable fs p) (hf : env'.full = none) :
    ∃ o' t fs', SymbolLib.fromFile env p enc fs = (.ok o', fs) ∧ SavedAs (o'.toFile env' none enc' fs) fs p env' enc' t ∧
      parseSexp t = .ok (o.toVal) ∧
      (o'.toFile env' none enc' fs).final fs = fs' ∧ SymbolLib.fromFile env' p enc' fs' = (.ok o', fs') ∧ SavedUnchanged (o'.toFile env' none enc' fs') fs' := by
  have hb := noCR_base he
  obtain ⟨o', t, h1, h2, hst, h3⟩ := SymbolLib.settle_like o h ha text hp
  have hch : Chars (NoCR has) t := (by cases h2; exact SymbolLib.loaded_chars (contains_noCR he hc) h1)
  have hS : Session (fun p text => (parseSexp text >>= SymbolLib.fromSexpr).map fun o => { o with filePath := some p }) Doc.symbolLib p text t ({ o' with filePath := some p } : SymbolLib) := ⟨congrArg (Except.map fun o => { o with filePath := some p }) h1, h2, congrArg (Except.map fun o => { o with filePath := some p }) h3⟩
  rw [← hu] at he hl
  exact ⟨({ o' with filePath := some p } : SymbolLib), t, _, Session.load C58_SymbolLib hc hS.first, saved_as (.symbolLib ({ o' with filePath := some p } : SymbolLib)) (enc := enc') he hl (by cases enc' <;> rfl) rfl h2 hch hf hw (contains_canRead hc), hst, rfl,
    Session.again C58_SymbolLib hS (fp := none) (enc := enc') he hl (by cases enc' <;> rfl) rfl hch hf hw (contains_canRead hc)⟩
/-- The sample with one more child with an unknown token. -/
def moreSymbolLib : Val := match sampleSymbolLib.toVal with | .list l => .list (l ++ [.list [.str k!"wibble", .int 3]]) | v => v
set_option maxRecDepth 100000 in
example := C82_SymbolLib sampleSymbolLib sampleSymbolLib_wf (Env.simple .latin1 false) (Env.simple .latin1 true) none none rfl k!"a" (FS.spelled moreSymbolLib) _
  (spelled_contains (by decide +kernel) false) (textOf_parse (spelled_textOf (by decide +kernel)))
  (alike_last (k := .SymbolLib) rfl (u := .str k!"wibble") (r := [.int 3]) (unknown_word (by decide))) _ charWise_latin1 Codec.latin1_lawful (two_openable ..) rfl


theorem Schematic.settle_like [TextRule] (o : Schematic) (h : o.WF) (hprec : ∀ v ∈ o.sheets, FixOk 4 v.fill.A) {v : Val} (ha : SaysSame .Schematic v o.toVal) (text : Str) (hp : parseSexp text = .ok v) :
    ∃ o' t, (parseSexp text >>= Schematic.fromSexpr) = .ok o' ∧ (fun o : Schematic => o.toSexpr) o' = .ok t ∧ parseSexp t = .ok (Schematic.toVal { o with junctions := o.junctions.map fun j => { j with diameter := .int 0 } }) ∧
      (parseSexp t >>= Schematic.fromSexpr) = .ok o' := by
  have h0 : Schematic.WF o.asRead := Schematic.WF.asRead h hprec
  have h' := Stable.keep h0
  exact Kiutils.settle_like (save := (fun o : Schematic => o.toSexpr)) hp (C76_Schematic ha) (Schematic.from_toVal h) (Schematic.lexes h' 0 true).parse
    ((Schematic.from_toVal h').trans (congrArg Except.ok (Schematic.asRead_idem o)))
    ((Schematic.toVal_canon o.asRead h0).trans (by simp only [Schematic.asRead, Schematic.toVal, Schematic.asRead_sheets]; rfl))

/-- Junctions lose their diameter (C22). -/
theorem C82_Schematic [TextRule] (o : Schematic) (h : o.WF) (hprec : ∀ v ∈ o.sheets, FixOk 4 v.fill.A) (env env' : Env) (enc enc' : Option Codec) (hu : used env' enc' = used env enc) (p : Path) (fs : FS) (text : Str)
    (hc : Contains env fs p enc text) {v : Val} (hp : parseSexp text = .ok v) (ha : SaysSame .Schematic v o.toVal) (has : Char → Prop)
    (he : CharWise (used env enc) has) (hl : (used env enc).Lawful) (hw : Openable fs p) (hf : env'.full = none) :
    ∃ o' t fs', Schematic.fromFile env p enc fs = (.ok o', fs) ∧ SavedAs (o'.toFile env' none enc' fs) fs p env' enc' t ∧
      parseSexp t = .ok (Schematic.toVal { o with junctions := o.junctions.map fun j => { j with diameter := .int 0 } }) ∧
      (o'.toFile env' none enc' fs).final fs = fs' ∧ Schematic.fromFile env' p enc' fs' = (.ok o', fs') ∧ SavedUnchanged (o'.toFile env' none enc' fs') fs' := by
  have hb := noCR_base he
  obtain ⟨o', t, h1, h2, hst, h3⟩ := Schematic.settle_like o h hprec ha text hp
  have hch : Chars (NoCR has) t := Schematic.loaded_chars (contains_noCR he hc) h1 t h2
  have hS : Session (fun p text => (parseSexp text >>= Schematic.fromSexpr).map fun o => { o with filePath := some p }) Doc.schematic p text t ({ o' with filePath := some p } : Schematic) := ⟨congrArg (Except.map fun o => { o with filePath := some p }) h1, h2, congrArg (Except.map fun o => { o with filePath := some p }) h3⟩
  rw [← hu] at he hl
  exact ⟨({ o' with filePath := some p } : Schematic), t, _, Session.load C58_Schematic hc hS.first, saved_as (.schematic ({ o' with filePath := some p } : Schematic)) (enc := enc') he hl (by cases enc' <;> rfl) rfl h2 hch hf hw (contains_canRead hc), hst, rfl,
    Session.again C58_Schematic hS (fp := none) (enc := enc') he hl (by cases enc' <;> rfl) rfl hch hf hw (contains_canRead hc)⟩
/-- The sample with one more child with an unknown token. -/
def moreSchematic : Val := match smallSchematic.toVal with | .list l => .list (l ++ [.list [.str k!"wibble", .int 3]]) | v => v
set_option maxRecDepth 100000 in
example := C82_Schematic smallSchematic smallSchematic_wf (fun _ h => nomatch h) (Env.simple .latin1 false) (Env.simple .latin1 true) none none rfl k!"a" (FS.spelled moreSchematic) _
  (spelled_contains (by decide +kernel) false) (textOf_parse (spelled_textOf (by decide +kernel)))
  (alike_last (k := .Schematic) rfl (u := .str k!"wibble") (r := [.int 3]) (unknown_word (by decide))) _ charWise_latin1 Codec.latin1_lawful (two_openable ..) rfl


theorem Footprint.settle_like [TextRule] (o : Footprint) (h : o.Holed) (tedit : Val) {v : Val} (ha : SaysSame .Footprint v o.toVal) (text : Str) (hp : parseSexp text = .ok v) :
    ∃ o' t, (parseSexp text >>= (Footprint.fromSexpr tedit)) = .ok o' ∧ (fun o : Footprint => o.toSexpr) o' = .ok t ∧ parseSexp t = .ok (o.toVal) ∧
      (parseSexp t >>= (Footprint.fromSexpr tedit)) = .ok o' := by
  refine Kiutils.settle_like (save := (fun o : Footprint => o.toSexpr)) hp (C76_Footprint ha tedit) (h.from_toVal tedit) ?_ (h.from_toVal tedit) rfl
  show ((canon o.loaded).toSexpr >>= parseSexp) = _
  rw [Footprint.loaded_canon, Footprint.loaded_toSexpr]
  exact (h.stable.lexes 0 true false).parse.trans (congrArg Except.ok h.toVal_canon)

/-- The path has to be given, as it is not stored (C27). Round holes may have offsets (C79). -/
theorem C82_Footprint [TextRule] (o : Footprint) (h : o.Holed) (env env' : Env) (enc enc' : Option Codec) (hu : used env' enc' = used env enc) (tedit : Val) (hclock : PlainClock tedit) (p : Path) (fs : FS) (text : Str)
    (hc : Contains env fs p enc text) {v : Val} (hp : parseSexp text = .ok v) (ha : SaysSame .Footprint v o.toVal) (has : Char → Prop)
    (he : CharWise (used env enc) has) (hl : (used env enc).Lawful) (hw : Openable fs p) (hf : env'.full = none) :
    ∃ o' t fs', Footprint.fromFile env tedit p enc fs = (.ok o', fs) ∧ SavedAs (o'.toFile env' (some p) enc' fs) fs p env' enc' t ∧
      parseSexp t = .ok (o.toVal) ∧
      (o'.toFile env' (some p) enc' fs).final fs = fs' ∧ Footprint.fromFile env' tedit p enc' fs' = (.ok o', fs') ∧ SavedUnchanged (o'.toFile env' (some p) enc' fs') fs' := by
  have hb := noCR_base he
  obtain ⟨o', t, h1, h2, hst, h3⟩ := Footprint.settle_like o h tedit ha text hp
  have hch : Chars (NoCR has) t := Footprint.loaded_chars tedit hclock (contains_noCR he hc) h1 t h2
  have hS : Session (fun _ text => parseSexp text >>= (Footprint.fromSexpr tedit)) Doc.footprint p text t o' := ⟨h1, h2, h3⟩
  rw [← hu] at he hl
  exact ⟨o', t, _, Session.load (C58_Footprint tedit) hc hS.first, saved_as (.footprint o') (enc := enc') he hl (by cases enc' <;> rfl) rfl h2 hch hf hw (contains_canRead hc), hst, rfl,
    Session.again (C58_Footprint tedit) hS (fp := (some p)) (enc := enc') he hl (by cases enc' <;> rfl) rfl hch hf hw (contains_canRead hc)⟩
/-- The sample with one more child with an unknown token. -/
def moreFootprint : Val := match smallHoledFootprint.toVal with | .list l => .list (l ++ [.list [.str k!"wibble", .int 3]]) | v => v
set_option maxRecDepth 100000 in
example := C82_Footprint smallHoledFootprint smallHoledFootprint_ok (Env.simple .latin1 false) (Env.simple .latin1 true) none none rfl (.str k!"0") (by unfold PlainClock; decide) k!"a" (FS.spelled moreFootprint) _
  (spelled_contains (by decide +kernel) false) (textOf_parse (spelled_textOf (by decide +kernel)))
  (alike_last (k := .Footprint) ⟨_, _, .inr rfl, rfl⟩ (u := .str k!"wibble") (r := [.int 3]) (unknown_word (by decide))) _ charWise_latin1 Codec.latin1_lawful (two_openable ..) rfl


theorem Board.settle_like [TextRule] (o : Board) (h : o.Holed) (tedit : Val) {v : Val} (ha : SaysSame .Board v o.toVal) (text : Str) (hp : parseSexp text = .ok v) :
    ∃ o' t, (parseSexp text >>= (Board.fromSexpr tedit)) = .ok o' ∧ (fun o : Board => o.toSexpr) o' = .ok t ∧ parseSexp t = .ok (Board.toVal { o with setup := { o.setup with plotSettings := o.setup.plotSettings.map fun p => { p with useAuxOrigin := false } } }) ∧
      (parseSexp t >>= (Board.fromSexpr tedit)) = .ok o' := by
  have ha' : (canon ({ o with setup := o.setup.asRead } : Board).loaded) = canon o.loaded := by rw [Board.loaded_again]
  refine Kiutils.settle_like (save := (fun o : Board => o.toSexpr)) hp (C76_Board ha tedit) (h.from_toVal tedit) ?_ ((h.asRead.from_toVal tedit).trans (congrArg Except.ok ha')) rfl
  show ((canon o.loaded).toSexpr >>= parseSexp) = _
  rw [Board.canon_loaded_toSexpr]
  exact (h.asRead.stable.lexes 0 true).parse.trans (congrArg Except.ok h.asRead.toVal_canon)

/-- The plot settings lose `useauxorigin` (C40). Round holes may have offsets (C79). -/
theorem C82_Board [TextRule] (o : Board) (h : o.Holed) (env env' : Env) (enc enc' : Option Codec) (hu : used env' enc' = used env enc) (tedit : Val) (hclock : PlainClock tedit) (p : Path) (fs : FS) (text : Str)
    (hc : Contains env fs p enc text) {v : Val} (hp : parseSexp text = .ok v) (ha : SaysSame .Board v o.toVal) (has : Char → Prop)
    (he : CharWise (used env enc) has) (hl : (used env enc).Lawful) (hw : Openable fs p) (hf : env'.full = none) :
    ∃ o' t fs', Board.fromFile env tedit p enc fs = (.ok o', fs) ∧ SavedAs (o'.toFile env' none enc' fs) fs p env' enc' t ∧
      parseSexp t = .ok (Board.toVal { o with setup := { o.setup with plotSettings := o.setup.plotSettings.map fun p => { p with useAuxOrigin := false } } }) ∧
      (o'.toFile env' none enc' fs).final fs = fs' ∧ Board.fromFile env' tedit p enc' fs' = (.ok o', fs') ∧ SavedUnchanged (o'.toFile env' none enc' fs') fs' := by
  have hb := noCR_base he
  obtain ⟨o', t, h1, h2, hst, h3⟩ := Board.settle_like o h tedit ha text hp
  have hch : Chars (NoCR has) t := Board.loaded_chars tedit hclock (contains_noCR he hc) h1 t h2
  have hS : Session (fun p text => (parseSexp text >>= (Board.fromSexpr tedit)).map fun o => { o with filePath := some p }) Doc.board p text t ({ o' with filePath := some p } : Board) := ⟨congrArg (Except.map fun o => { o with filePath := some p }) h1, h2, congrArg (Except.map fun o => { o with filePath := some p }) h3⟩
  rw [← hu] at he hl
  exact ⟨({ o' with filePath := some p } : Board), t, _, Session.load (C58_Board tedit) hc hS.first, saved_as (.board ({ o' with filePath := some p } : Board)) (enc := enc') he hl (by cases enc' <;> rfl) rfl h2 hch hf hw (contains_canRead hc), hst, rfl,
    Session.again (C58_Board tedit) hS (fp := none) (enc := enc') he hl (by cases enc' <;> rfl) rfl hch hf hw (contains_canRead hc)⟩
/-- The sample with one more child with an unknown token. -/
def moreBoard : Val := match smallHoledBoard.toVal with | .list l => .list (l ++ [.list [.str k!"wibble", .int 3]]) | v => v
set_option maxRecDepth 100000 in
example := C82_Board smallHoledBoard smallHoledBoard_ok (Env.simple .latin1 false) (Env.simple .latin1 true) none none rfl (.str k!"0") (by unfold PlainClock; decide) k!"a" (FS.spelled moreBoard) _
  (spelled_contains (by decide +kernel) false) (textOf_parse (spelled_textOf (by decide +kernel)))
  (alike_last (k := .Board) rfl (u := .str k!"wibble") (r := [.int 3]) (unknown_word (by decide))) _ charWise_latin1 Codec.latin1_lawful (two_openable ..) rfl


theorem DesignRules.settle_like [TextRule] (o : DesignRules) (h : o.WF) {v : Val} (ha : SaysSame .DesignRules v (.list o.toVals)) (text : Str)
    (hp : parseSexp ('(' :: (text ++ [')'])) = .ok v) :
    ∃ o' t, DesignRules.parseText text = .ok o' ∧ o'.toSexpr = .ok t ∧ parseSexp ('(' :: (t ++ [')'])) = .ok (.list o.toVals) ∧
      DesignRules.parseText t = .ok o' := by
  have h' := Stable.keep (show DesignRules.WF { o with filePath := none } from { h with })
  have hd := C48_DesignRules _ h' 0 false
  have hg := DesignRules.parse h' 0 false
  have ht : (canon ({ o with filePath := none } : DesignRules)).toVals = o.toVals := DesignRules.toVals_canon { o with filePath := none }
  rw [ht] at hd
  unfold Denotes at hd
  cases hx : (canon ({ o with filePath := none } : DesignRules)).toSexpr with
  | error e => rw [hx] at hd; cases hd
  | ok t =>
    rw [hx] at hd hg
    refine ⟨_, t, ?_, hx, hd, hg.trans (congrArg Except.ok (idem ({ o with filePath := none } : DesignRules)))⟩
    rw [DesignRules.parseText, hp]
    exact (C76_DesignRules ha _).2 (DesignRules.from_toVals h)

theorem C82_DesignRules [TextRule] (o : DesignRules) (h : o.WF) (env env' : Env) (enc enc' : Option Codec) (hu : used env' enc' = used env enc) (p : Path) (fs : FS) (text : Str)
    (hc : Contains env fs p enc text) {v : Val} (hp : parseSexp ('(' :: (text ++ [')'])) = .ok v) (ha : SaysSame .DesignRules v (.list o.toVals)) (has : Char → Prop)
    (he : CharWise (used env enc) has) (hl : (used env enc).Lawful) (hw : Openable fs p) (hf : env'.full = none) :
    ∃ o' t fs', DesignRules.fromFile env p enc fs = (.ok o', fs) ∧ SavedAs (o'.toFile env' none enc' fs) fs p env' enc' t ∧
      parseSexp ('(' :: (t ++ [')'])) = .ok (.list o.toVals) ∧
      (o'.toFile env' none enc' fs).final fs = fs' ∧ DesignRules.fromFile env' p enc' fs' = (.ok o', fs') ∧ SavedUnchanged (o'.toFile env' none enc' fs') fs' := by
  have hb := noCR_base he
  obtain ⟨o', t, h1, h2, hst, h3⟩ := DesignRules.settle_like o h ha text hp
  have hch : Chars (NoCR has) t := DesignRules.loaded_chars (contains_noCR he hc) h1 t h2
  have hS : Session (fun p text => (parseSexp ('(' :: (text ++ [')'])) >>= DesignRules.fromSexpr).map fun o => { o with filePath := some p }) Doc.designRules p text t ({ o' with filePath := some p }) := ⟨congrArg (Except.map fun o => { o with filePath := some p }) h1, h2, congrArg (Except.map fun o => { o with filePath := some p }) h3⟩
  rw [← hu] at he hl
  exact ⟨{ o' with filePath := some p }, t, _, Session.load C58_DesignRules hc hS.first, saved_as (.designRules { o' with filePath := some p }) (enc := enc') he hl (by cases enc' <;> rfl) rfl h2 hch hf hw (contains_canRead hc), hst, rfl,
    Session.again C58_DesignRules hS (fp := none) (enc := enc') he hl (by cases enc' <;> rfl) rfl hch hf hw (contains_canRead hc)⟩
/-- A text of the sample with one more child with an unknown token. -/
def moreRules : Str := (spellSeq (sampleDesignRules.toVals ++ [.list [.str k!"wibble", .int 3]])).getD []
theorem moreRules_ok : PrintsSeq (sampleDesignRules.toVals ++ [.list [.str k!"wibble", .int 3]]) moreRules :=
  spellSeq_prints _ _ (Option.some_get (by decide +kernel : (spellSeq (sampleDesignRules.toVals ++ [.list [.str k!"wibble", .int 3]])).isSome)).symm
set_option maxRecDepth 100000 in
example := C82_DesignRules sampleDesignRules sampleDesignRules_wf (Env.simple .latin1 false) (Env.simple .latin1 true) none none rfl k!"a"
  (FS.two k!"a" k!"b" (latin moreRules) [2]) _ (latin_contains (by decide +kernel) false)
  (C06_tree_round_trip _ _ ⟨[], moreRules, fun _ h => absurd h List.not_mem_nil, moreRules_ok, rfl⟩)
  (alike_last (k := .DesignRules) ⟨_, rfl⟩ (u := .str k!"wibble") (r := [.int 3]) (unknown_word (by decide))) _ charWise_latin1 Codec.latin1_lawful (two_openable ..) rfl

end Kiutils
