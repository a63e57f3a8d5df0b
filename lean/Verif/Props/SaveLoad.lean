import Verif.Props.InPlace
/-!
# C67: saving to a file and loading it again, in terms of the attributes

C30 and C44 say that a saved file is read back, if saving succeeds and the text has no carriage returns. Here both conditions are
reduced to the strings among the attributes of the object: each of their characters must be in the encoding and not be a carriage
return.
-/
namespace Kiutils

/-- The strings of the object have only characters of the encoding, and no carriage returns. -/
def Encodable {α : Type} [Texts α] (has : Char → Prop) (o : α) : Prop := ∀ s ∈ texts o, ∀ c ∈ s, has c ∧ c ≠ '\r'

theorem codec_used (env : Env) (enc : Option Codec) : env.codec enc = used env enc := by cases enc <;> rfl

theorem bind_ok_fst {α β : Type} {m : PyM α} {f : α → PyM β} {b : β} (h : (m >>= f) = .ok b) : ∃ a, m = .ok a := by
  obtain ⟨a, h, -⟩ := bind_ok_split h
  exact ⟨a, h⟩

theorem C67_LibTable [TextRule] (o : LibTable) (h : o.WF) (env env' : Env) (enc enc' : Option Codec) (hu : used env' enc' = used env enc) (p : Path) (fs : FS)
    (has : Char → Prop) (he : CharWise (used env enc) has) (hl : (used env enc).Lawful) (hc : Encodable has o) (hw : Openable fs p) (hr : fs.canRead p = true)
    (hf : env.full = none) :
    ∃ fs' o', (o.toFile env (some p) enc fs).outcome = .ok () ∧ (o.toFile env (some p) enc fs).final fs = fs' ∧ LibTable.fromFile env' p enc' fs' = (.ok o', fs') ∧
      PyEq.eq { o with filePath := some p } o' := by
  have := noCR_base he
  have hch : Chars (NoCR has) o.toSexpr := LibTable.toSexpr_chars (show Only (Chars (NoCR has)) o from hc)
  have hs := saved_as (.libTable o) (fp := some p) (enc := enc) (enc' := enc) he hl (by cases enc <;> rfl) rfl rfl hch hf hw hr
  obtain ⟨o', h1, h2⟩ := C30_LibTable o h env env' p enc enc' fs _ hs.success (by rw [codec_used]; exact hl)
    (by rw [codec_used, codec_used]; exact hu) rfl (save_canRead (.libTable o) env (some p) enc fs p hr) (fun hm => (hch _ hm).2 rfl)
  exact ⟨_, o', hs.success, rfl, h1, h2⟩
set_option maxRecDepth 100000 in
example := C67_LibTable sampleLibTable sampleLibTable_wf (Env.simple .latin1 true) (Env.simple .latin1 false) none none rfl k!"a" (FS.two k!"a" k!"b" [1] [2]) _
  charWise_latin1 Codec.latin1_lawful (by unfold Encodable; decide +kernel) (two_openable ..) rfl rfl

theorem C67_DesignRules [TextRule] (o : DesignRules) (h : o.WF) (env env' : Env) (enc enc' : Option Codec) (hu : used env' enc' = used env enc) (p : Path) (fs : FS)
    (has : Char → Prop) (he : CharWise (used env enc) has) (hl : (used env enc).Lawful) (hc : Encodable has o) (hw : Openable fs p) (hr : fs.canRead p = true)
    (hf : env.full = none) :
    ∃ fs' o', (o.toFile env (some p) enc fs).outcome = .ok () ∧ (o.toFile env (some p) enc fs).final fs = fs' ∧ DesignRules.fromFile env' p enc' fs' = (.ok o', fs') ∧
      PyEq.eq { o with filePath := some p } o' := by
  have := noCR_base he
  obtain ⟨_, hx, -⟩ := C14_DesignRules o h 0 false
  obtain ⟨t, ht⟩ : ∃ t, o.toSexpr = .ok t := bind_ok_fst hx
  have hch : Chars (NoCR has) t := DesignRules.toSexpr_chars (show Only (Chars (NoCR has)) o from hc) t ht
  have hs := saved_as (.designRules o) (fp := some p) (enc := enc) (enc' := enc) he hl (by cases enc <;> rfl) rfl ht hch hf hw hr
  obtain ⟨o', h1, h2⟩ := C30_DesignRules o h env env' p enc enc' fs _ hs.success (by rw [codec_used]; exact hl)
    (by rw [codec_used, codec_used]; exact hu) rfl (save_canRead (.designRules o) env (some p) enc fs p hr) (fun s hs => by cases ht.symm.trans hs; exact fun hm => (hch _ hm).2 rfl)
  exact ⟨_, o', hs.success, rfl, h1, h2⟩
set_option maxRecDepth 100000 in
example := C67_DesignRules sampleDesignRules sampleDesignRules_wf (Env.simple .latin1 true) (Env.simple .latin1 false) none none rfl k!"a" (FS.two k!"a" k!"b" [1] [2]) _
  charWise_latin1 Codec.latin1_lawful (by unfold Encodable; decide +kernel) (two_openable ..) rfl rfl

theorem C67_WorkSheet [TextRule] (o : WorkSheet) (h : o.WF) (env env' : Env) (enc' : Option Codec) (hu : used env' enc' = env.locale) (p : Path) (fs : FS)
    (has : Char → Prop) (he : CharWise env.locale has) (hl : env.locale.Lawful) (hc : Encodable has o) (hw : Openable fs p) (hr : fs.canRead p = true)
    (hf : env.full = none) :
    ∃ fs' o', (o.toFile env (some p) fs).outcome = .ok () ∧ (o.toFile env (some p) fs).final fs = fs' ∧ WorkSheet.fromFile env' p enc' fs' = (.ok o', fs') ∧
      PyEq.eq { o with filePath := some p } o' := by
  have := noCR_base he
  obtain ⟨_, hx, -⟩ := C15_WorkSheet o h 0 true
  obtain ⟨t, ht⟩ : ∃ t, o.toSexpr = .ok t := (bind_ok_fst hx).elim fun _ h => bind_ok_fst h
  have hch : Chars (NoCR has) t := WorkSheet.toSexpr_chars (show Only (Chars (NoCR has)) o from hc) t ht
  have hs := saved_as (.workSheet o) (fp := some p) (enc := none) (enc' := none) he hl rfl rfl ht hch hf hw hr
  obtain ⟨o', h1, h2⟩ := C30_WorkSheet o h env env' p enc' fs _ hs.success hl
    (by rw [codec_used]; exact hu) rfl (save_canRead (.workSheet o) env (some p) none fs p hr) (fun s hs => by cases ht.symm.trans hs; exact fun hm => (hch _ hm).2 rfl)
  exact ⟨_, o', hs.success, rfl, h1, h2⟩
set_option maxRecDepth 100000 in
example := C67_WorkSheet sampleWorkSheet sampleWorkSheet_wf (Env.simple .latin1 true) (Env.simple .latin1 false) none rfl k!"a" (FS.two k!"a" k!"b" [1] [2]) _
  charWise_latin1 Codec.latin1_lawful (by unfold Encodable; decide +kernel) (two_openable ..) rfl rfl

theorem C67_SymbolLib [TextRule] (o : SymbolLib) (h : o.WF) (env env' : Env) (enc enc' : Option Codec) (hu : used env' enc' = used env enc) (p : Path) (fs : FS)
    (has : Char → Prop) (he : CharWise (used env enc) has) (hl : (used env enc).Lawful) (hc : Encodable has o) (hw : Openable fs p) (hr : fs.canRead p = true)
    (hf : env.full = none) :
    ∃ fs' o', (o.toFile env (some p) enc fs).outcome = .ok () ∧ (o.toFile env (some p) enc fs).final fs = fs' ∧ SymbolLib.fromFile env' p enc' fs' = (.ok o', fs') ∧
      PyEq.eq { o with filePath := some p } o' := by
  have := noCR_base he
  have hch : Chars (NoCR has) o.toSexpr := SymbolLib.toSexpr_chars (show Only (Chars (NoCR has)) o from hc)
  have hs := saved_as (.symbolLib o) (fp := some p) (enc := enc) (enc' := enc) he hl (by cases enc <;> rfl) rfl rfl hch hf hw hr
  obtain ⟨o', h1, h2⟩ := C30_SymbolLib o h env env' p enc enc' fs _ hs.success (by rw [codec_used]; exact hl)
    (by rw [codec_used, codec_used]; exact hu) rfl (save_canRead (.symbolLib o) env (some p) enc fs p hr) (fun hm => (hch _ hm).2 rfl)
  exact ⟨_, o', hs.success, rfl, h1, h2⟩
set_option maxRecDepth 100000 in
example := C67_SymbolLib sampleSymbolLib sampleSymbolLib_wf (Env.simple .latin1 true) (Env.simple .latin1 false) none none rfl k!"a" (FS.two k!"a" k!"b" [1] [2]) _
  charWise_latin1 Codec.latin1_lawful (by unfold Encodable; decide +kernel) (two_openable ..) rfl rfl

theorem C67_Schematic [TextRule] (o : Schematic) (h : o.WF) (env env' : Env) (enc enc' : Option Codec) (hu : used env' enc' = used env enc) (p : Path) (fs : FS)
    (has : Char → Prop) (he : CharWise (used env enc) has) (hl : (used env enc).Lawful) (hc : Encodable has o) (hw : Openable fs p) (hr : fs.canRead p = true)
    (hf : env.full = none) :
    ∃ fs' o', (o.toFile env (some p) enc fs).outcome = .ok () ∧ (o.toFile env (some p) enc fs).final fs = fs' ∧ Schematic.fromFile env' p enc' fs' = (.ok o', fs') ∧
      PyEq.eq { o with
        junctions := o.junctions.map fun j => { j with diameter := .int 0 }
        sheets := o.sheets.map fun s => { s with fill := { s.fill with precision := some 4 } }
        filePath := some p } o' := by
  have := noCR_base he
  obtain ⟨_, hx, -⟩ := C17_Schematic o h 0 true
  obtain ⟨t, ht⟩ : ∃ t, o.toSexpr = .ok t := (bind_ok_fst hx).elim fun _ h => bind_ok_fst h
  have hch : Chars (NoCR has) t := Schematic.toSexpr_chars (show Only (Chars (NoCR has)) o from hc) t ht
  have hs := saved_as (.schematic o) (fp := some p) (enc := enc) (enc' := enc) he hl (by cases enc <;> rfl) rfl ht hch hf hw hr
  obtain ⟨o', h1, h2⟩ := C30_Schematic o h env env' p enc enc' fs _ hs.success (by rw [codec_used]; exact hl)
    (by rw [codec_used, codec_used]; exact hu) rfl (save_canRead (.schematic o) env (some p) enc fs p hr) (fun s hs => by cases ht.symm.trans hs; exact fun hm => (hch _ hm).2 rfl)
  exact ⟨_, o', hs.success, rfl, h1, h2⟩
set_option maxRecDepth 100000 in
example := C67_Schematic smallSchematic smallSchematic_wf (Env.simple .latin1 true) (Env.simple .latin1 false) none none rfl k!"a" (FS.two k!"a" k!"b" [1] [2]) _
  charWise_latin1 Codec.latin1_lawful (by unfold Encodable; decide +kernel) (two_openable ..) rfl rfl

theorem C67_Footprint [TextRule] (o : Footprint) (h : o.WF) (env env' : Env) (enc enc' : Option Codec) (hu : used env' enc' = used env enc) (tedit : Val) (p : Path) (fs : FS)
    (has : Char → Prop) (he : CharWise (used env enc) has) (hl : (used env enc).Lawful) (hc : Encodable has o) (hw : Openable fs p) (hr : fs.canRead p = true)
    (hf : env.full = none) :
    ∃ fs' o', (o.toFile env (some p) enc fs).outcome = .ok () ∧ (o.toFile env (some p) enc fs).final fs = fs' ∧ Footprint.fromFile env' tedit p enc' fs' = (.ok o', fs') ∧
      PyEq.eq { o with filePath := none } o' := by
  have := noCR_base he
  obtain ⟨_, hx, -⟩ := C18_Footprint o h tedit 0 true false
  obtain ⟨t, ht⟩ : ∃ t, o.toSexpr = .ok t := (bind_ok_fst hx).elim fun _ h => bind_ok_fst h
  have hch : Chars (NoCR has) t := Footprint.toSexpr_chars (show Only (Chars (NoCR has)) o from hc) t ht
  have hs := saved_as (.footprint o) (fp := some p) (enc := enc) (enc' := enc) he hl (by cases enc <;> rfl) rfl ht hch hf hw hr
  obtain ⟨o', h1, h2⟩ := C30_Footprint o h env env' tedit p enc enc' fs _ hs.success (by rw [codec_used]; exact hl)
    (by rw [codec_used, codec_used]; exact hu) rfl (save_canRead (.footprint o) env (some p) enc fs p hr) (fun s hs => by cases ht.symm.trans hs; exact fun hm => (hch _ hm).2 rfl)
  exact ⟨_, o', hs.success, rfl, h1, h2⟩
set_option maxRecDepth 100000 in
example := C67_Footprint smallFootprint smallFootprint_wf (Env.simple .latin1 true) (Env.simple .latin1 false) none none rfl (.str k!"0") k!"a" (FS.two k!"a" k!"b" [1] [2]) _
  charWise_latin1 Codec.latin1_lawful (by unfold Encodable; decide +kernel) (two_openable ..) rfl rfl

theorem C67_Board [TextRule] (o : Board) (h : o.WF) (env env' : Env) (enc enc' : Option Codec) (hu : used env' enc' = used env enc) (tedit : Val) (p : Path) (fs : FS)
    (has : Char → Prop) (he : CharWise (used env enc) has) (hl : (used env enc).Lawful) (hc : Encodable has o) (hw : Openable fs p) (hr : fs.canRead p = true)
    (hf : env.full = none) :
    ∃ fs' o', (o.toFile env (some p) enc fs).outcome = .ok () ∧ (o.toFile env (some p) enc fs).final fs = fs' ∧ Board.fromFile env' tedit p enc' fs' = (.ok o', fs') ∧
      PyEq.eq { o with
        setup := { o.setup with plotSettings := o.setup.plotSettings.map fun p => { p with useAuxOrigin := false } }
        footprints := o.footprints.map fun f => { f with filePath := none }
        filePath := some p } o' := by
  have := noCR_base he
  obtain ⟨_, hx, -⟩ := C19_Board o h tedit 0 true
  obtain ⟨t, ht⟩ : ∃ t, o.toSexpr = .ok t := (bind_ok_fst hx).elim fun _ h => bind_ok_fst h
  have hch : Chars (NoCR has) t := Board.toSexpr_chars (show Only (Chars (NoCR has)) o from hc) t ht
  have hs := saved_as (.board o) (fp := some p) (enc := enc) (enc' := enc) he hl (by cases enc <;> rfl) rfl ht hch hf hw hr
  obtain ⟨o', h1, h2⟩ := C30_Board o h env env' tedit p enc enc' fs _ hs.success (by rw [codec_used]; exact hl)
    (by rw [codec_used, codec_used]; exact hu) rfl (save_canRead (.board o) env (some p) enc fs p hr) (fun s hs => by cases ht.symm.trans hs; exact fun hm => (hch _ hm).2 rfl)
  exact ⟨_, o', hs.success, rfl, h1, h2⟩
set_option maxRecDepth 100000 in
example := C67_Board smallBoard smallBoard_wf (Env.simple .latin1 true) (Env.simple .latin1 false) none none rfl (.str k!"0") k!"a" (FS.two k!"a" k!"b" [1] [2]) _
  charWise_latin1 Codec.latin1_lawful (by unfold Encodable; decide +kernel) (two_openable ..) rfl rfl

end Kiutils
