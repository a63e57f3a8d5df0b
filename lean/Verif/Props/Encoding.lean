import Verif.Props.Files
/-!
# C44: the encoding given to `to_file` and `from_file`

For all classes but `WorkSheet` (`C44_WorkSheet_violated`, `C44_WorkSheet_garbled` in `Props/Files`): an object saved with an encoding
on one platform and loaded with the same encoding on another one comes back, whatever the encodings, line ends and buffers of the
two platforms are.
-/
namespace Kiutils

/-- Everything that saving `d` to the path `p` with the encoding `e` needs: the path can be written and read, the device is not full,
the encoding can represent the text of `d` (and gives it back), and the text has no carriage returns. -/
structure Savable (d : Doc) (env : Env) (p : Path) (e : Codec) (fs : FS) : Prop where
  writable : Openable fs p
  readable : fs.canRead p = true
  space : env.full = none
  lawful : e.Lawful
  text : ∃ s, d.text = .ok s ∧ '\r' ∉ s ∧
    (e.encode (if env.crlf then s.flatMap fun c => if c = '\n' then ['\r', '\n'] else [c] else s)).isSome = true

theorem Savable.bytes {d : Doc} {env : Env} {p : Path} {e : Codec} {fs : FS} (h : Savable d env p e fs) (hc : d.codec env (some e) = e) :
    (d.bytes env (some e)).isSome = true := by
  obtain ⟨s, hs, -, hb⟩ := h.text
  unfold Doc.bytes
  rw [hs, hc]
  exact hb

theorem Savable.noCR {d : Doc} {env : Env} {p : Path} {e : Codec} {fs : FS} (h : Savable d env p e fs) :
    ∀ s, d.text = .ok s → '\r' ∉ s := by
  obtain ⟨s, hs, hcr, -⟩ := h.text
  intro s' hs'
  rw [hs] at hs'
  cases hs'
  exact hcr

/-- Checks the conditions of a concrete case. -/
theorem savable_of {d : Doc} {p : Path} {e : Codec} (he : e.Lawful) (env : Env) (hs : env.full = none)
    (h : (match d.text with
      | .ok s => !s.contains '\r' && (e.encode (if env.crlf then s.flatMap fun c => if c = '\n' then ['\r', '\n'] else [c] else s)).isSome
      | .error _ => false) = true) :
    Savable d env p e (FS.two p k!"other" [1] [2]) := by
  refine ⟨two_openable _ _ _ _, rfl, hs, he, ?_⟩
  cases ht : d.text with
  | error x => rw [ht] at h; cases h
  | ok s =>
    rw [ht] at h
    simp only [Bool.and_eq_true] at h
    exact ⟨s, rfl, by simpa using h.1, h.2⟩

theorem C44_LibTable_partial [TextRule] (o : LibTable) (h : o.WF) (e : Codec) (env env' : Env) (p : Path) (fs : FS) (hs : Savable (.libTable o) env p e fs) :
    (o.toFile env (some p) (some e) fs).outcome = .ok () ∧
    ∃ o', LibTable.fromFile env' p (some e) ((o.toFile env (some p) (some e) fs).final fs) =
        (.ok o', (o.toFile env (some p) (some e) fs).final fs) ∧
      PyEq.eq { o with filePath := some p } o' := by
  have hok : (o.toFile env (some p) (some e) fs).outcome = .ok () :=
    save_ok (.libTable o) env p (some e) fs hs.space hs.writable (hs.bytes rfl)
  exact ⟨hok, C30_LibTable o h env env' p (some e) (some e) fs _ hok hs.lawful rfl rfl (save_canRead (.libTable o) _ _ _ _ _ hs.readable) (hs.noCR _ rfl)⟩
set_option maxRecDepth 100000 in
example := C44_LibTable_partial sampleLibTable sampleLibTable_wf .utf8 (Env.simple .latin1 true) (Env.simple .utf8 false) k!"a" _
  (savable_of (d := .libTable sampleLibTable) Codec.utf8_lawful _ rfl (by decide +kernel))

theorem C44_DesignRules_partial [TextRule] (o : DesignRules) (h : o.WF) (e : Codec) (env env' : Env) (p : Path) (fs : FS) (hs : Savable (.designRules o) env p e fs) :
    (o.toFile env (some p) (some e) fs).outcome = .ok () ∧
    ∃ o', DesignRules.fromFile env' p (some e) ((o.toFile env (some p) (some e) fs).final fs) =
        (.ok o', (o.toFile env (some p) (some e) fs).final fs) ∧
      PyEq.eq { o with filePath := some p } o' := by
  have hok : (o.toFile env (some p) (some e) fs).outcome = .ok () :=
    save_ok (.designRules o) env p (some e) fs hs.space hs.writable (hs.bytes rfl)
  exact ⟨hok, C30_DesignRules o h env env' p (some e) (some e) fs _ hok hs.lawful rfl rfl (save_canRead (.designRules o) _ _ _ _ _ hs.readable) hs.noCR⟩
set_option maxRecDepth 100000 in
example := C44_DesignRules_partial sampleDesignRules sampleDesignRules_wf .utf8 (Env.simple .latin1 true) (Env.simple .utf8 false) k!"a" _
  (savable_of (d := .designRules sampleDesignRules) Codec.utf8_lawful _ rfl (by decide +kernel))

theorem C44_SymbolLib_partial [TextRule] (o : SymbolLib) (h : o.WF) (e : Codec) (env env' : Env) (p : Path) (fs : FS) (hs : Savable (.symbolLib o) env p e fs) :
    (o.toFile env (some p) (some e) fs).outcome = .ok () ∧
    ∃ o', SymbolLib.fromFile env' p (some e) ((o.toFile env (some p) (some e) fs).final fs) =
        (.ok o', (o.toFile env (some p) (some e) fs).final fs) ∧
      PyEq.eq { o with filePath := some p } o' := by
  have hok : (o.toFile env (some p) (some e) fs).outcome = .ok () :=
    save_ok (.symbolLib o) env p (some e) fs hs.space hs.writable (hs.bytes rfl)
  exact ⟨hok, C30_SymbolLib o h env env' p (some e) (some e) fs _ hok hs.lawful rfl rfl (save_canRead (.symbolLib o) _ _ _ _ _ hs.readable) (hs.noCR _ rfl)⟩
set_option maxRecDepth 100000 in
example := C44_SymbolLib_partial sampleSymbolLib sampleSymbolLib_wf .utf8 (Env.simple .latin1 true) (Env.simple .utf8 false) k!"a" _
  (savable_of (d := .symbolLib sampleSymbolLib) Codec.utf8_lawful _ rfl (by decide +kernel))

theorem C44_Schematic_partial [TextRule] (o : Schematic) (h : o.WF) (e : Codec) (env env' : Env) (p : Path) (fs : FS) (hs : Savable (.schematic o) env p e fs) :
    (o.toFile env (some p) (some e) fs).outcome = .ok () ∧
    ∃ o', Schematic.fromFile env' p (some e) ((o.toFile env (some p) (some e) fs).final fs) =
        (.ok o', (o.toFile env (some p) (some e) fs).final fs) ∧
      PyEq.eq { o with
        junctions := o.junctions.map fun j => { j with diameter := .int 0 }
        sheets := o.sheets.map fun s => { s with fill := { s.fill with precision := some 4 } }
        filePath := some p } o' := by
  have hok : (o.toFile env (some p) (some e) fs).outcome = .ok () :=
    save_ok (.schematic o) env p (some e) fs hs.space hs.writable (hs.bytes rfl)
  exact ⟨hok, C30_Schematic o h env env' p (some e) (some e) fs _ hok hs.lawful rfl rfl (save_canRead (.schematic o) _ _ _ _ _ hs.readable) hs.noCR⟩
set_option maxRecDepth 100000 in
example := C44_Schematic_partial smallSchematic smallSchematic_wf .utf8 (Env.simple .latin1 true) (Env.simple .utf8 false) k!"a" _
  (savable_of (d := .schematic smallSchematic) Codec.utf8_lawful _ rfl (by decide +kernel))

theorem C44_Footprint_partial [TextRule] (o : Footprint) (h : o.WF) (e : Codec) (env env' : Env) (tedit : Val) (p : Path) (fs : FS) (hs : Savable (.footprint o) env p e fs) :
    (o.toFile env (some p) (some e) fs).outcome = .ok () ∧
    ∃ o', Footprint.fromFile env' tedit p (some e) ((o.toFile env (some p) (some e) fs).final fs) =
        (.ok o', (o.toFile env (some p) (some e) fs).final fs) ∧
      PyEq.eq { o with filePath := none } o' := by
  have hok : (o.toFile env (some p) (some e) fs).outcome = .ok () :=
    save_ok (.footprint o) env p (some e) fs hs.space hs.writable (hs.bytes rfl)
  exact ⟨hok, C30_Footprint o h env env' tedit p (some e) (some e) fs _ hok hs.lawful rfl rfl (save_canRead (.footprint o) _ _ _ _ _ hs.readable) hs.noCR⟩
set_option maxRecDepth 100000 in
example := C44_Footprint_partial smallFootprint smallFootprint_wf .utf8 (Env.simple .latin1 true) (Env.simple .utf8 false) (.str k!"0") k!"a" _
  (savable_of (d := .footprint smallFootprint) Codec.utf8_lawful _ rfl (by decide +kernel))

theorem C44_Board_partial [TextRule] (o : Board) (h : o.WF) (e : Codec) (env env' : Env) (tedit : Val) (p : Path) (fs : FS) (hs : Savable (.board o) env p e fs) :
    (o.toFile env (some p) (some e) fs).outcome = .ok () ∧
    ∃ o', Board.fromFile env' tedit p (some e) ((o.toFile env (some p) (some e) fs).final fs) =
        (.ok o', (o.toFile env (some p) (some e) fs).final fs) ∧
      PyEq.eq { o with
        setup := { o.setup with plotSettings := o.setup.plotSettings.map fun p => { p with useAuxOrigin := false } }
        footprints := o.footprints.map fun f => { f with filePath := none }
        filePath := some p } o' := by
  have hok : (o.toFile env (some p) (some e) fs).outcome = .ok () :=
    save_ok (.board o) env p (some e) fs hs.space hs.writable (hs.bytes rfl)
  exact ⟨hok, C30_Board o h env env' tedit p (some e) (some e) fs _ hok hs.lawful rfl rfl (save_canRead (.board o) _ _ _ _ _ hs.readable) hs.noCR⟩
set_option maxRecDepth 100000 in
example := C44_Board_partial smallBoard smallBoard_wf .utf8 (Env.simple .latin1 true) (Env.simple .utf8 false) (.str k!"0") k!"a" _
  (savable_of (d := .board smallBoard) Codec.utf8_lawful _ rfl (by decide +kernel))

end Kiutils
