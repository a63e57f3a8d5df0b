import Verif.Props.Files
import Verif.Props.Exact
import Verif.Props.SamplesBackslash
/-!
# Texts that end in a backslash (C81)

The round-trip theorems (C13–C20, C30, C41) demand by default that no text ends in a backslash. Here they are stated for objects
that may hold such texts, if none of their texts begins with white space or `)`. The last theorem shows that this cannot be left
out.
-/
namespace Kiutils

/-- What the rule demands of a text: it does not begin with white space or `)`. Nothing is demanded of its end. -/
theorem C81_rule (s : Str) : TextRule.backslash.text s ↔ ∀ c r, s = c :: r → c ≠ ')' ∧ isSpace c = false := by
  show sqEnd s = false ↔ _
  cases s with
  | nil => simp [sqEnd]
  | cons c r => simp [sqEnd]
example : TextRule.backslash.text k!"C:\\lib\\" := by decide

section Objects
/-! ## Objects of each kind of file -/

theorem C81_LibTable (o : LibTable) (h : @LibTable.WF TextRule.backslash o) (i : Nat) (nl : Bool) :
    Reloads (.ok (o.toSexpr i nl)) LibTable.fromSexpr { o with filePath := none } :=
  @C13_LibTable TextRule.backslash o h i nl
example := C81_LibTable Ending.sampleLibTable Ending.sampleLibTable_wf

theorem C81_DesignRules (o : DesignRules) (h : @DesignRules.WF TextRule.backslash o) (i : Nat) (nl : Bool) :
    ∃ o', (o.toSexpr i nl >>= DesignRules.parseText) = .ok o' ∧ PyEq.eq { o with filePath := none } o' :=
  @C14_DesignRules TextRule.backslash o h i nl
example := C81_DesignRules Ending.sampleDesignRules Ending.sampleDesignRules_wf

theorem C81_WorkSheet (o : WorkSheet) (h : @WorkSheet.WF TextRule.backslash o) (i : Nat) (nl : Bool) :
    Reloads (o.toSexpr i nl) WorkSheet.fromSexpr { o with filePath := none } :=
  @C15_WorkSheet TextRule.backslash o h i nl
example := C81_WorkSheet Ending.sampleWorkSheet Ending.sampleWorkSheet_wf

theorem C81_SymbolLib (o : SymbolLib) (h : @SymbolLib.WF TextRule.backslash o) (i : Nat) (nl : Bool) :
    Reloads (.ok (o.toSexpr i nl)) SymbolLib.fromSexpr { o with filePath := none } :=
  @C16_SymbolLib TextRule.backslash o h i nl
example := C81_SymbolLib Ending.sampleSymbolLib Ending.sampleSymbolLib_wf

/-- As in C17, apart from the diameter of junctions and the precision of colours. -/
theorem C81_Schematic (o : Schematic) (h : @Schematic.WF TextRule.backslash o) (i : Nat) (nl : Bool) :
    Reloads (o.toSexpr i nl) Schematic.fromSexpr
      { o with
        junctions := o.junctions.map fun j => { j with diameter := .int 0 }
        sheets := o.sheets.map fun s => { s with fill := { s.fill with precision := some 4 } }
        filePath := none } :=
  @C17_Schematic TextRule.backslash o h i nl
example := C81_Schematic Ending.sampleSchematic Ending.sampleSchematic_wf

theorem C81_Footprint (o : Footprint) (h : @Footprint.WF TextRule.backslash o) (tedit : Val) (i : Nat) (nl lf : Bool) :
    Reloads (o.toSexpr i nl lf) (Footprint.fromSexpr tedit) { o with filePath := none } :=
  @C18_Footprint TextRule.backslash o h tedit i nl lf
example := C81_Footprint Ending.sampleFootprint Ending.sampleFootprint_wf (.str k!"5f12ab34")

/-- As in C19, apart from `useAuxOrigin`. -/
theorem C81_Board (o : Board) (h : @Board.WF TextRule.backslash o) (tedit : Val) (i : Nat) (nl : Bool) :
    Reloads (o.toSexpr i nl) (Board.fromSexpr tedit)
      { o with
        setup := { o.setup with plotSettings := o.setup.plotSettings.map fun p => { p with useAuxOrigin := false } }
        footprints := o.footprints.map fun f => { f with filePath := none }
        filePath := none } :=
  @C19_Board TextRule.backslash o h tedit i nl
example := C81_Board Ending.sampleBoard Ending.sampleBoard_wf (.str k!"5f12ab34")
end Objects

section Files
/-! ## Whole files -/

namespace Ending
attribute [local instance 2000] TextRule.backslash
local macro "textOk" : tactic => `(tactic| (show sqEnd _ = false; decide))

def smallSchematic : Schematic :=
  { version := .int 20211014, generator := .str k!"5e1f-00", uuid := some (.str k!"word"), paper := samplePageSettings, junctions := [sampleJunction], noConnects := [sampleNoConnect], labels := [sampleLocalLabel], filePath := some k!"/a/b.kicad_sch" }
theorem smallSchematic_wf : smallSchematic.WF :=
  { version := (.inl (ok_int (by decide))),
    generator := (.inr (by tokOk)),
    uuid := (by optOk; exact by tokOk),
    paper := (samplePageSettings_wf),
    titleBlock := (by intro _ h; cases h),
    libSymbols := (by intro _ h; cases h),
    junctions := (by listOk; (· exact sampleJunction_wf)),
    noConnects := (by listOk; (· exact sampleNoConnect_wf)),
    busEntries := (by intro _ h; cases h),
    busAliases := (by intro _ h; cases h),
    graphicalItems := (by intro _ h; cases h),
    shapes := (by intro _ h; cases h),
    images := (by intro _ h; cases h),
    textBoxes := (by intro _ h; cases h),
    texts := (by intro _ h; cases h),
    labels := (by listOk; (· exact sampleLocalLabel_wf)),
    globalLabels := (by intro _ h; cases h),
    hierarchicalLabels := (by intro _ h; cases h),
    netclassFlags := (by intro _ h; cases h),
    schematicSymbols := (by intro _ h; cases h),
    sheets := (by intro _ h; cases h),
    sheetInstances := (by intro _ h; cases h),
    symbolInstances := (by intro _ h; cases h) }

def smallFootprint : Footprint :=
  { libraryNickname := none, entryName := some (.str k!"R_0603"), version := some (.str k!"5e1f-00"), layer := .str k!"a \"b\" (c)\\", tedit := .str k!"5f12ab34", tags := some (.str k!"a \"b\" (c)\\"), attributes := sampleAttributes, models := [sampleModel], properties := [(.str k!"a", .str k!"x"), (.str k!"b", .str k!"y \"z\"\\")] }
theorem smallFootprint_wf : smallFootprint.WF :=
  { id := (.plain k!"R_0603" (by decide) (by decide)),
    version := (by optOk; exact .inr (by tokOk)),
    generator := (by intro _ h; cases h),
    layer := (by textOk),
    tedit := (.inr (by tokOk)),
    tstamp := (by intro _ h; cases h),
    position := (by intro _ h; cases h),
    description := (by intro _ h; cases h),
    tags := (by optOk; exact by textOk),
    propertyNames := (by listOk <;> textOk),
    properties := (by listOk <;> textOk),
    distinct := (by pairOk),
    path := (by intro _ h; cases h),
    autoplaceCost90 := (by intro _ h; cases h),
    autoplaceCost180 := (by intro _ h; cases h),
    solderMaskMargin := (by intro _ h; cases h),
    solderPasteMargin := (by intro _ h; cases h),
    solderPasteRatio := (by intro _ h; cases h),
    clearance := (by intro _ h; cases h),
    zoneConnect := (by intro _ h; cases h),
    thermalWidth := (by intro _ h; cases h),
    thermalGap := (by intro _ h; cases h),
    attributes := (sampleAttributes_wf),
    privateLayers := (by intro _ h; cases h),
    netTiePadGroups := (by intro _ h; cases h),
    graphicItems := (by intro _ h; cases h),
    pads := (by intro _ h; cases h),
    zones := (by intro _ h; cases h),
    models := (by listOk; (· exact sampleModel_wf)),
    groups := (by intro _ h; cases h) }

def smallBoard : Board :=
  { version := .int 20211014, generator := .str k!"5e1f-00", general := sampleGeneralSettings, paper := samplePageSettings, layers := [sampleLayerToken], nets := [sampleNet], properties := [(.str k!"a", .str k!"x"), (.str k!"b", .str k!"y \"z\"\\")], traceItems := [.segment sampleSegment, .arc sampleTraceArc, .via sampleVia] }
theorem smallBoard_wf : smallBoard.WF :=
  { version := (.inl (ok_int (by decide))),
    generator := (.inr (by tokOk)),
    general := (sampleGeneralSettings_wf),
    paper := (samplePageSettings_wf),
    titleBlock := (by intro _ h; cases h),
    layers := (by listOk; (· exact sampleLayerToken_wf)),
    setup := (by constructor <;> first | (intro v hv; cases hv) | exact ok_zero),
    propertyNames := (by listOk <;> textOk),
    properties := (by listOk <;> textOk),
    distinct := (by pairOk),
    nets := (by listOk; (· exact sampleNet_wf)),
    footprints := (by intro _ h; cases h),
    graphicItems := (by intro _ h; cases h),
    dimensions := (by intro _ h; cases h),
    targets := (by intro _ h; cases h),
    traceItems := (by listOk; (· exact sampleSegment_wf); (· exact sampleTraceArc_wf); (· exact sampleVia_wf)),
    zones := (by intro _ h; cases h),
    groups := (by intro _ h; cases h) }

end Ending

/-- A library table whose texts end in backslashes is the same after saving and loading the file. -/
theorem C81_LibTable_file (o : LibTable) (h : @LibTable.WF TextRule.backslash o) (env env' : Env) (p : Path) (enc enc' : Option Codec)
    (fs fs' : FS) (hok : (o.toFile env (some p) enc fs).outcome = .ok ()) (hl : (env.codec enc).Lawful)
    (hsame : env'.codec enc' = env.codec enc) (hkeep : fs'.node p = ((o.toFile env (some p) enc fs).final fs).node p)
    (hr : fs'.canRead p = true) (hcr : '\r' ∉ o.toSexpr) :
    ∃ o', LibTable.fromFile env' p enc' fs' = (.ok o', fs') ∧ PyEq.eq { o with filePath := some p } o' :=
  @C30_LibTable TextRule.backslash o h env env' p enc enc' fs fs' hok hl hsame hkeep hr hcr
set_option maxRecDepth 100000 in
example := C81_LibTable_file Ending.sampleLibTable Ending.sampleLibTable_wf (Env.simple .latin1 true) (Env.simple .latin1 false)
  k!"a" none none (FS.two k!"a" k!"b" [1] [2]) _
  (save_ok (.libTable Ending.sampleLibTable) _ k!"a" none _ rfl (two_openable _ _ _ _) (by decide +kernel)) Codec.latin1_lawful rfl rfl
  (save_canRead (.libTable Ending.sampleLibTable) _ _ _ _ _ rfl) (by decide +kernel)

theorem C81_SymbolLib_file (o : SymbolLib) (h : @SymbolLib.WF TextRule.backslash o) (env env' : Env) (p : Path) (enc enc' : Option Codec)
    (fs fs' : FS) (hok : (o.toFile env (some p) enc fs).outcome = .ok ()) (hl : (env.codec enc).Lawful)
    (hsame : env'.codec enc' = env.codec enc) (hkeep : fs'.node p = ((o.toFile env (some p) enc fs).final fs).node p)
    (hr : fs'.canRead p = true) (hcr : '\r' ∉ o.toSexpr) :
    ∃ o', SymbolLib.fromFile env' p enc' fs' = (.ok o', fs') ∧ PyEq.eq { o with filePath := some p } o' :=
  @C30_SymbolLib TextRule.backslash o h env env' p enc enc' fs fs' hok hl hsame hkeep hr hcr
set_option maxRecDepth 100000 in
example := C81_SymbolLib_file Ending.sampleSymbolLib Ending.sampleSymbolLib_wf (Env.simple .latin1 true) (Env.simple .latin1 false)
  k!"a" none none (FS.two k!"a" k!"b" [1] [2]) _
  (save_ok (.symbolLib Ending.sampleSymbolLib) _ k!"a" none _ rfl (two_openable _ _ _ _) (by decide +kernel)) Codec.latin1_lawful rfl rfl
  (save_canRead (.symbolLib Ending.sampleSymbolLib) _ _ _ _ _ rfl) (by decide +kernel)
theorem C81_DesignRules_file (o : DesignRules) (h : @DesignRules.WF TextRule.backslash o) (env env' : Env) (p : Path) (enc : Option Codec) (enc' : Option Codec) (fs fs' : FS)
    (hok : (o.toFile env (some p) enc fs).outcome = .ok ()) (hl : (env.codec enc).Lawful) (hsame : env'.codec enc' = (env.codec enc))
    (hkeep : fs'.node p = ((o.toFile env (some p) enc fs).final fs).node p) (hr : fs'.canRead p = true)
    (hcr : ∀ s, o.toSexpr = .ok s → '\r' ∉ s) :
    ∃ o', DesignRules.fromFile env' p enc' fs' = (.ok o', fs') ∧
      PyEq.eq { o with filePath := some p } o' :=
  @C30_DesignRules TextRule.backslash o h env env' p enc enc' fs fs' hok hl hsame hkeep hr hcr
set_option maxRecDepth 100000 in
example := C81_DesignRules_file Ending.sampleDesignRules Ending.sampleDesignRules_wf (Env.simple .latin1 true) (Env.simple .latin1 false) k!"a" none none (FS.two k!"a" k!"b" [1] [2]) _
  (save_ok (.designRules Ending.sampleDesignRules) _ k!"a" none _ rfl (two_openable _ _ _ _) (by decide +kernel)) Codec.latin1_lawful rfl rfl
  (save_canRead (.designRules Ending.sampleDesignRules) _ _ _ _ _ rfl) (noCR_iff (by decide +kernel))

theorem C81_WorkSheet_file (o : WorkSheet) (h : @WorkSheet.WF TextRule.backslash o) (env env' : Env) (p : Path) (enc' : Option Codec) (fs fs' : FS)
    (hok : (o.toFile env (some p) fs).outcome = .ok ()) (hl : env.locale.Lawful) (hsame : env'.codec enc' = env.locale)
    (hkeep : fs'.node p = ((o.toFile env (some p) fs).final fs).node p) (hr : fs'.canRead p = true)
    (hcr : ∀ s, o.toSexpr = .ok s → '\r' ∉ s) :
    ∃ o', WorkSheet.fromFile env' p enc' fs' = (.ok o', fs') ∧
      PyEq.eq { o with filePath := some p } o' :=
  @C30_WorkSheet TextRule.backslash o h env env' p enc' fs fs' hok hl hsame hkeep hr hcr
set_option maxRecDepth 100000 in
example := C81_WorkSheet_file Ending.sampleWorkSheet Ending.sampleWorkSheet_wf (Env.simple .latin1 true) (Env.simple .latin1 false) k!"a"  none (FS.two k!"a" k!"b" [1] [2]) _
  (save_ok (.workSheet Ending.sampleWorkSheet) _ k!"a" none _ rfl (two_openable _ _ _ _) (by decide +kernel)) Codec.latin1_lawful rfl rfl
  (save_canRead (.workSheet Ending.sampleWorkSheet) _ _ none _ _ rfl) (noCR_iff (by decide +kernel))

theorem C81_Schematic_file (o : Schematic) (h : @Schematic.WF TextRule.backslash o) (env env' : Env) (p : Path) (enc : Option Codec) (enc' : Option Codec) (fs fs' : FS)
    (hok : (o.toFile env (some p) enc fs).outcome = .ok ()) (hl : (env.codec enc).Lawful) (hsame : env'.codec enc' = (env.codec enc))
    (hkeep : fs'.node p = ((o.toFile env (some p) enc fs).final fs).node p) (hr : fs'.canRead p = true)
    (hcr : ∀ s, o.toSexpr = .ok s → '\r' ∉ s) :
    ∃ o', Schematic.fromFile env' p enc' fs' = (.ok o', fs') ∧
      PyEq.eq { o with
        junctions := o.junctions.map fun j => { j with diameter := .int 0 }
        sheets := o.sheets.map fun s => { s with fill := { s.fill with precision := some 4 } }
        filePath := some p } o' :=
  @C30_Schematic TextRule.backslash o h env env' p enc enc' fs fs' hok hl hsame hkeep hr hcr
set_option maxRecDepth 100000 in
example := C81_Schematic_file Ending.smallSchematic Ending.smallSchematic_wf (Env.simple .latin1 true) (Env.simple .latin1 false) k!"a" none none (FS.two k!"a" k!"b" [1] [2]) _
  (save_ok (.schematic Ending.smallSchematic) _ k!"a" none _ rfl (two_openable _ _ _ _) (by decide +kernel)) Codec.latin1_lawful rfl rfl
  (save_canRead (.schematic Ending.smallSchematic) _ _ _ _ _ rfl) (noCR_iff (by decide +kernel))

theorem C81_Footprint_file (o : Footprint) (h : @Footprint.WF TextRule.backslash o) (env env' : Env) (tedit : Val) (p : Path) (enc : Option Codec) (enc' : Option Codec) (fs fs' : FS)
    (hok : (o.toFile env (some p) enc fs).outcome = .ok ()) (hl : (env.codec enc).Lawful) (hsame : env'.codec enc' = (env.codec enc))
    (hkeep : fs'.node p = ((o.toFile env (some p) enc fs).final fs).node p) (hr : fs'.canRead p = true)
    (hcr : ∀ s, o.toSexpr = .ok s → '\r' ∉ s) :
    ∃ o', Footprint.fromFile env' tedit p enc' fs' = (.ok o', fs') ∧
      PyEq.eq { o with filePath := none } o' :=
  @C30_Footprint TextRule.backslash o h env env' tedit p enc enc' fs fs' hok hl hsame hkeep hr hcr
set_option maxRecDepth 100000 in
example := C81_Footprint_file Ending.smallFootprint Ending.smallFootprint_wf (Env.simple .latin1 true) (Env.simple .latin1 false) (.str k!"0") k!"a" none none (FS.two k!"a" k!"b" [1] [2]) _
  (save_ok (.footprint Ending.smallFootprint) _ k!"a" none _ rfl (two_openable _ _ _ _) (by decide +kernel)) Codec.latin1_lawful rfl rfl
  (save_canRead (.footprint Ending.smallFootprint) _ _ _ _ _ rfl) (noCR_iff (by decide +kernel))

theorem C81_Board_file (o : Board) (h : @Board.WF TextRule.backslash o) (env env' : Env) (tedit : Val) (p : Path) (enc : Option Codec) (enc' : Option Codec) (fs fs' : FS)
    (hok : (o.toFile env (some p) enc fs).outcome = .ok ()) (hl : (env.codec enc).Lawful) (hsame : env'.codec enc' = (env.codec enc))
    (hkeep : fs'.node p = ((o.toFile env (some p) enc fs).final fs).node p) (hr : fs'.canRead p = true)
    (hcr : ∀ s, o.toSexpr = .ok s → '\r' ∉ s) :
    ∃ o', Board.fromFile env' tedit p enc' fs' = (.ok o', fs') ∧
      PyEq.eq { o with
        setup := { o.setup with plotSettings := o.setup.plotSettings.map fun p => { p with useAuxOrigin := false } }
        footprints := o.footprints.map fun f => { f with filePath := none }
        filePath := some p } o' :=
  @C30_Board TextRule.backslash o h env env' tedit p enc enc' fs fs' hok hl hsame hkeep hr hcr
set_option maxRecDepth 100000 in
example := C81_Board_file Ending.smallBoard Ending.smallBoard_wf (Env.simple .latin1 true) (Env.simple .latin1 false) (.str k!"0") k!"a" none none (FS.two k!"a" k!"b" [1] [2]) _
  (save_ok (.board Ending.smallBoard) _ k!"a" none _ rfl (two_openable _ _ _ _) (by decide +kernel)) Codec.latin1_lawful rfl rfl
  (save_canRead (.board Ending.smallBoard) _ _ _ _ _ rfl) (noCR_iff (by decide +kernel))

end Files

/-! ## The rule cannot be left out -/

theorem Property.key_first {l : List Val} {h k : Val} {o : Property} (hl : Property.fromSexpr (.list (h :: k :: l)) = .ok o) :
    o.key = k := by
  unfold Property.fromSexpr at hl
  cases hc : checkHead k!"property" (.list (h :: k :: l)) with
  | error e => rw [hc] at hl; cases hl
  | ok l' =>
    have : l' = h :: k :: l := by
      unfold checkHead at hc
      simp only at hc
      split at hc
      · cases hc; rfl
      · cases hc
    subst this
    rw [hc] at hl
    cases hg : getI (h :: k :: l) 2 with
    | error e => simp only [getI, bind, Except.bind, List.getElem?_cons_succ, List.getElem?_cons_zero] at hl hg; rw [hg] at hl; cases hl
    | ok w =>
      have hl : forM Property.step { key := k, value := w } l.tail = .ok o := by
        simp only [bind, Except.bind, hg] at hl
        simpa [getI] using hl
      refine forM_inv (P := fun o => o.key = k) ?_ _ _ o rfl hl
      intro o x o' hp hs
      unfold Property.step at hs
      cases hk : x.idx 0 with
      | error e => rw [hk] at hs; cases hs
      | ok k =>
        rw [hk] at hs
        simp only [bind, Except.bind, pure, Except.pure] at hs
        repeat' split at hs
        all_goals first | (cases hs; exact hp) | cases hs

/-- No property whose name ends in a backslash and whose value begins with white space or `)` is the same after saving and loading:
the name swallows the beginning of the value. -/
theorem C81_needed (o : Property) (k v : Str) (d : Char) (hk : o.key = .str k) (hv : o.value = .str (d :: v))
    (hb : k.getLast? = some '\\') (hd : d = ')' ∨ isSpace d = true) (i : Nat) (nl : Bool) :
    ¬ Reloads (.ok (o.toSexpr i nl)) Property.fromSexpr o := by
  rintro ⟨o', ho, he⟩
  obtain ⟨r, hr⟩ : ∃ r, o.toSexpr i nl = indents i ++ '(' :: (kw k!"property" ++ ' ' :: '"' :: (dequote k ++ '"' :: ' ' :: ([] ++ '"' :: d :: r))) := by
    have hdq : dequote (d :: v) = d :: dequote v := dequote_cons_ne v (ne_quote_of_end hd)
    unfold Property.toSexpr
    simp only [hk, hv, dq, Val.pyStr, hdq]
    simp only [kw, List.append_assoc, List.cons_append, List.nil_append]
    exact ⟨_, rfl⟩
  have hlex : lex (o.toSexpr i nl) = .op :: .atom (.str k!"property") :: .atom (.str (k.dropLast ++ ['"', ' '])) :: lex (d :: r) := by
    have h1 := C04_backslash_merges k [] r ' ' d hb (by simp) (by simp [isSpace]) hd (by simp)
    have h2 := lx_sp (⟨h1, trivial⟩ : ('"' :: (dequote k ++ '"' :: ' ' :: ([] ++ '"' :: d :: r))) ⇛ _)
    rw [hr]
    exact (lx_indents (lx_op (lx_kw (k := k!"property") rfl rfl h2))).lex
  have hp : parseSexp (o.toSexpr i nl) = run [[]] [.str k!"property", .str (k.dropLast ++ ['"', ' '])] (lex (d :: r)) := by
    rw [parseSexp, hlex]; rfl
  simp only [bind, Except.bind] at ho
  rw [hp] at ho
  split at ho
  · cases ho
  · rename_i w hw
    obtain ⟨l, rfl, -⟩ := run_level (pre := []) rfl hw
    have hkey := Property.key_first ho
    obtain ⟨hkk, -⟩ := he
    rw [hk, hkey] at hkk
    have : k.dropLast ++ ['"', ' '] = k := by
      generalize k.dropLast ++ ['"', ' '] = m at hkk
      have hkk : Val.Eq (.str k) (.str m) := hkk
      cases hkk
      rfl
    rw [← this] at hb
    simp at hb
example := C81_needed { key := .str k!"a\\", value := .str k!" b" } k!"a\\" k!"b" ' ' rfl rfl rfl (by decide)

end Kiutils
