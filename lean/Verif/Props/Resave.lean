import Verif.Props.InPlace
import Verif.Props.SavesFiles
/-!
# C75: what opening a file and saving it does to any file

Nothing is assumed about the content of the file: it may be in the documented format, in some other format, or no text at all.
-/
namespace Kiutils

/-! ## Specification -/

/-- `o = X.from_file(p, encoding)`, then `o.to_file(encoding=encoding)` -/
def resave {α : Type} (load : FileM α) (save : α → FS → Attempt) (fs : FS) : PyM Unit × FS :=
  match load fs with
  | (.ok o, fs') => ((save o fs').outcome, (save o fs').final fs')
  | (.error e, fs') => (.error e, fs')

/-- The result `r` of the program, depending on the content of the file. `parse` makes an expression of the text, `load` an object of
the expression, `text` is the text of the object, and `Fine` is a condition on expressions. -/
structure Resaves {α : Type} (r : PyM Unit × FS) (env : Env) (enc : Option Codec) (fs : FS) (p : Path) (parse : Str → PyM Val)
    (load : Val → PyM α) (text : α → PyM Str) (Fine : Val → Prop) : Prop where
  /-- If the file cannot be loaded, there is an exception, and no file changes. -/
  rejected : (∀ s v o, Contains env fs p enc s → parse s = .ok v → load v ≠ .ok o) → (∃ e, r.1 = .error e) ∧ r.2 = fs
  /-- If the file can be loaded and is fine, it is replaced by the text of the object, and no other file changes. -/
  rewritten : ∀ s v o, Contains env fs p enc s → parse s = .ok v → load v = .ok o → Fine v →
    ∃ t, text o = .ok t ∧ r.1 = .ok () ∧ OnlyAt p fs r.2 ∧ Contains env r.2 p enc t
  /-- If the file can be loaded and is not fine, there is an exception, the content of the file is lost, and no other file changes. -/
  emptied : ∀ s v o, Contains env fs p enc s → parse s = .ok v → load v = .ok o → ¬ Fine v →
    (∃ e, r.1 = .error e) ∧ OnlyAt p fs r.2 ∧ r.2.node p = some (.file [])

/-! ## Lemmas -/

theorem lib_returns (s : Str) : Returns (Except.ok s : PyM Str) := ⟨s, rfl⟩

theorem raises_of {α : Type} {m : PyM α} (h : ¬ Returns m) : ∃ e, m = .error e := by
  cases m with
  | ok a => exact absurd ⟨a, rfl⟩ h
  | error e => exact ⟨e, rfl⟩

theorem resaves_of {α : Type} {fromFile : Env → Path → Option Codec → FileM α} {parse : Str → PyM Val} {load : Val → PyM α}
    {withPath : Path → α → α} (hF : Faithful fromFile fun p s => (parse s >>= load).map (withPath p)) {mk : α → Doc} {text : α → PyM Str}
    {Fine : Val → Prop} {env : Env} {enc enc' : Option Codec} {fs : FS} {p : Path} {has : Char → Prop} (he : CharWise (used env enc) has)
    (hl : (used env enc).Lawful) (hf : env.full = none) (hw : Openable fs p)
    (hcodec : ∀ o, (mk o).codec env enc' = used env enc)
    (htarget : ∀ o, (mk (withPath p o)).target none = some p) (htext : ∀ o, (mk (withPath p o)).text = text o)
    (hfine : ∀ v o, load v = .ok o → (Returns (text o) ↔ Fine v))
    (hchars : ∀ s o t, Chars (NoCR has) s → (parse s >>= load) = .ok o → text o = .ok t → Chars (NoCR has) t) :
    Resaves (resave (fromFile env p enc) (fun o fs => (mk o).toFile env none enc' fs) fs) env enc fs p parse load text Fine where
  rejected h := by
    have hk := hF.keeps env p enc fs
    have hs := hF.success env p enc fs
    unfold resave
    split
    · rename_i o fs' e
      rw [e] at hs
      obtain ⟨s, hc, hr⟩ := (hs o).1 rfl
      obtain ⟨o', ho', -⟩ := map_ok_split hr
      obtain ⟨v, hv, hv'⟩ := bind_ok_split ho'
      exact absurd hv' (h s v o' hc hv)
    · rename_i x fs' e
      rw [e] at hk
      exact ⟨⟨x, rfl⟩, hk⟩
  rewritten s v o hc hv ho hfi := by
    obtain ⟨t, ht⟩ := (hfine v o ho).2 hfi
    have hb : (parse s >>= load) = .ok o := by rw [hv]; exact ho
    have hld := Session.load hF hc (show (parse s >>= load).map (withPath p) = .ok (withPath p o) by rw [hb]; rfl)
    have hsv := saved_as (mk (withPath p o)) (fp := none) (enc := enc') he hl (hcodec _) (htarget o) ((htext o).trans ht)
      (hchars s o t (contains_noCR he hc) hb ht) hf hw (contains_canRead hc)
    refine ⟨t, ht, ?_⟩
    unfold resave
    rw [hld]
    exact ⟨hsv.success, hsv.only, hsv.content⟩
  emptied s v o hc hv ho hfi := by
    obtain ⟨e, hte⟩ := raises_of (mt (hfine v o ho).1 hfi)
    have hb : (parse s >>= load) = .ok o := by rw [hv]; exact ho
    have hld := Session.load hF hc (show (parse s >>= load).map (withPath p) = .ok (withPath p o) by rw [hb]; rfl)
    have hx := C28_violated (mk (withPath p o)) env none enc' fs p e (htarget o) hw ((htext o).trans hte)
    unfold resave
    rw [hld]
    refine ⟨⟨e, hx.1⟩, ⟨fun q hq => C27_only_target _ env none enc' fs q fun h => hq (Option.some.inj (h.symm.trans (htarget o))), ?_⟩, hx.2⟩
    rcases (mk (withPath p o)).toFile_shape env none enc' fs with ⟨h', -⟩ | ⟨p, -, -, ⟨e, -, h'⟩ | ⟨b, n, -, -, -, h'⟩ | ⟨b, -, -, h'⟩⟩
    · dsimp only; rw [Attempt.final, h']; exact ⟨rfl, rfl⟩
    · dsimp only; rw [h']; exact ⟨rfl, rfl⟩
    · dsimp only; rw [h', Attempt.final]; exact (apply_truncate p _ fs).2.2
    · dsimp only; rw [h', Attempt.final]; exact (apply_truncate p _ fs).2.2

/-! ## Theorems -/

/-- Boards: which boards are lost is said by `BoardFine`. -/
theorem C75_Board (env : Env) (enc : Option Codec) (fs : FS) (p : Path) (tedit : Val) (hclock : PlainClock tedit) (has : Char → Prop)
    (he : CharWise (used env enc) has) (hl : (used env enc).Lawful) (hf : env.full = none) (hw : Openable fs p) :
    Resaves (resave (Board.fromFile env tedit p enc) (fun o => o.toFile env none enc) fs) env enc fs p parseSexp (Board.fromSexpr tedit)
      (fun o => o.toSexpr) BoardFine :=
  have := noCR_base he
  resaves_of (C58_Board tedit) (mk := .board) he hl hf hw (fun _ => by cases enc <;> rfl) (fun _ => rfl) (fun _ => rfl)
    (fun v o h => C47_Board tedit v o h _ _) fun _ _ t hc hb ht => Board.loaded_chars tedit hclock hc hb t ht

/-- Schematics: which schematics are lost is said by `SchematicFine`. -/
theorem C75_Schematic (env : Env) (enc : Option Codec) (fs : FS) (p : Path) (has : Char → Prop)
    (he : CharWise (used env enc) has) (hl : (used env enc).Lawful) (hf : env.full = none) (hw : Openable fs p) :
    Resaves (resave (Schematic.fromFile env p enc) (fun o => o.toFile env none enc) fs) env enc fs p parseSexp Schematic.fromSexpr
      (fun o => o.toSexpr) SchematicFine :=
  have := noCR_base he
  resaves_of C58_Schematic (mk := .schematic) he hl hf hw (fun _ => by cases enc <;> rfl) (fun _ => rfl) (fun _ => rfl)
    (fun v o h => C47_Schematic v o h _ _) fun _ _ t hc hb ht => Schematic.loaded_chars hc hb t ht

/-- Library tables are never lost. -/
theorem C75_LibTable (env : Env) (enc : Option Codec) (fs : FS) (p : Path) (has : Char → Prop)
    (he : CharWise (used env enc) has) (hl : (used env enc).Lawful) (hf : env.full = none) (hw : Openable fs p) :
    Resaves (resave (LibTable.fromFile env p enc) (fun o => o.toFile env none enc) fs) env enc fs p parseSexp LibTable.fromSexpr
      (fun o => .ok o.toSexpr) fun _ => True :=
  have := noCR_base he
  resaves_of C58_LibTable (mk := .libTable) he hl hf hw (fun _ => by cases enc <;> rfl) (fun _ => rfl) (fun _ => rfl)
    (fun _ _ _ => iff_of_true (lib_returns _) trivial) fun _ _ _ hc hb ht => by cases ht; exact LibTable.loaded_chars hc hb

/-- Symbol libraries are never lost. -/
theorem C75_SymbolLib (env : Env) (enc : Option Codec) (fs : FS) (p : Path) (has : Char → Prop)
    (he : CharWise (used env enc) has) (hl : (used env enc).Lawful) (hf : env.full = none) (hw : Openable fs p) :
    Resaves (resave (SymbolLib.fromFile env p enc) (fun o => o.toFile env none enc) fs) env enc fs p parseSexp SymbolLib.fromSexpr
      (fun o => .ok o.toSexpr) fun _ => True :=
  have := noCR_base he
  resaves_of C58_SymbolLib (mk := .symbolLib) he hl hf hw (fun _ => by cases enc <;> rfl) (fun _ => rfl) (fun _ => rfl)
    (fun _ _ _ => iff_of_true (lib_returns _) trivial) fun _ _ _ hc hb ht => by cases ht; exact SymbolLib.loaded_chars hc hb

/-- Design rules are never lost. The text of the file is read as the content of one list. -/
theorem C75_DesignRules (env : Env) (enc : Option Codec) (fs : FS) (p : Path) (has : Char → Prop)
    (he : CharWise (used env enc) has) (hl : (used env enc).Lawful) (hf : env.full = none) (hw : Openable fs p) :
    Resaves (resave (DesignRules.fromFile env p enc) (fun o => o.toFile env none enc) fs) env enc fs p
      (fun s => parseSexp ('(' :: (s ++ [')']))) DesignRules.fromSexpr (fun o => o.toSexpr) fun _ => True :=
  have := noCR_base he
  resaves_of C58_DesignRules (mk := .designRules) he hl hf hw (fun _ => by cases enc <;> rfl) (fun _ => rfl) (fun _ => rfl)
    (fun v o h => iff_of_true (C47_DesignRules v o h _ _) trivial) fun _ _ t hc hb ht => DesignRules.loaded_chars hc hb t ht

/-- Worksheets are never lost, provided that the encoding of the file is that of the platform (`to_file` has no argument `encoding`). -/
theorem C75_WorkSheet (env : Env) (enc : Option Codec) (hu : env.locale = used env enc) (fs : FS) (p : Path) (has : Char → Prop)
    (he : CharWise (used env enc) has) (hl : (used env enc).Lawful) (hf : env.full = none) (hw : Openable fs p) :
    Resaves (resave (WorkSheet.fromFile env p enc) (fun o => o.toFile env none) fs) env enc fs p parseSexp WorkSheet.fromSexpr
      (fun o => o.toSexpr) fun _ => True :=
  have := noCR_base he
  resaves_of C58_WorkSheet (mk := .workSheet) (enc' := none) he hl hf hw (fun _ => hu) (fun _ => rfl) (fun _ => rfl)
    (fun v o h => iff_of_true (C47_WorkSheet v o h _ _) trivial) fun _ _ t hc hb ht => WorkSheet.loaded_chars hc hb t ht

/-- Footprints forget where they come from: the program always ends with an exception, and no file changes, whatever is in the file. -/
theorem C75_Footprint (env : Env) (enc : Option Codec) (fs : FS) (p : Path) (tedit : Val) :
    (∃ e, (resave (Footprint.fromFile env tedit p enc) (fun o => o.toFile env none enc) fs).1 = .error e) ∧
      (resave (Footprint.fromFile env tedit p enc) (fun o => o.toFile env none enc) fs).2 = fs := by
  have hk := (C58_Footprint tedit).keeps env p enc fs
  unfold resave
  split
  · rename_i o fs' e
    rw [e] at hk
    cases hk
    dsimp only
    rw [(C27_Footprint_violated env env tedit p enc enc _ _ fs' o e).2]
    exact ⟨⟨_, rfl⟩, rfl⟩
  · rename_i x fs' e
    rw [e] at hk
    exact ⟨⟨x, rfl⟩, hk⟩

/-! ## Examples -/

/-- A file system with the text in the file `a`. -/
def FS.text (s : Str) : FS := FS.two k!"a" k!"b" (latin s) [2]

/-- A schematic and a board that can be loaded but not saved. -/
def badSchematic : Str := k!"(kicad_sch (netclass_flag x))"
def badBoard : Str := k!"(kicad_pcb (zone))"

theorem badSchematic_bad : ¬ SchematicFine (.list [.str k!"kicad_sch", .list [.str k!"netclass_flag", .str k!"x"]]) := fun h =>
  let ⟨_, h, _⟩ := h.2.2.1 _ (List.mem_singleton.2 rfl) ⟨_, rfl⟩
  nomatch h

theorem badBoard_bad : ¬ BoardFine (.list [.str k!"kicad_pcb", .list [.str k!"zone"]]) := fun h => by
  obtain ⟨a, r, h | h⟩ := h.2.2.2.2 _ (List.mem_singleton.2 rfl) ⟨_, rfl⟩ <;> cases List.mem_singleton.1 h

/-- They are destroyed: afterwards the file is empty. -/
example : (∃ e, (resave (Schematic.fromFile (Env.simple .latin1 false) k!"a" none) (fun o => o.toFile (Env.simple .latin1 false) none none)
    (FS.text badSchematic)).1 = .error e) :=
  ((C75_Schematic (Env.simple .latin1 false) none (FS.text badSchematic) k!"a" _ charWise_latin1 Codec.latin1_lawful rfl
    (two_openable ..)).emptied badSchematic _ _ (latin_contains (by decide +kernel) false) rfl rfl badSchematic_bad).1
example : (resave (Board.fromFile (Env.simple .latin1 false) (.str k!"0") k!"a" none) (fun o => o.toFile (Env.simple .latin1 false) none none)
    (FS.text badBoard)).2.node k!"a" = some (.file []) :=
  ((C75_Board (Env.simple .latin1 false) none (FS.text badBoard) k!"a" (.str k!"0") (by unfold PlainClock; decide) _ charWise_latin1
    Codec.latin1_lawful rfl (two_openable ..)).emptied badBoard _ _ (latin_contains (by decide +kernel) false) rfl rfl badBoard_bad).2.2

/-- A schematic that is rewritten, and a text that is no schematic. -/
theorem goodSchematic_good : SchematicFine (.list [.str k!"kicad_sch", .list [.str k!"unknown"]]) := by
  refine ⟨?_, ?_, ?_, ?_⟩ <;> rintro x hx ⟨r, rfl⟩ <;> cases List.mem_singleton.1 hx
example := (C75_Schematic (Env.simple .latin1 false) none (FS.text k!"(kicad_sch (unknown))") k!"a" _ charWise_latin1 Codec.latin1_lawful rfl
  (two_openable ..)).rewritten _ _ _ (latin_contains (by decide +kernel) false) rfl rfl goodSchematic_good
example := (C75_Schematic (Env.simple .latin1 false) none (FS.text k!"(kicad_sch") k!"a" _ charWise_latin1 Codec.latin1_lawful rfl
  (two_openable ..)).rejected fun s v o hc hv _ => by
    rw [contains_inj hc (latin_contains (by decide +kernel) false)] at hv; cases hv
example := (C75_LibTable (Env.simple .latin1 false) none (FS.text k!"(fp_lib_table (x))") k!"a" _ charWise_latin1 Codec.latin1_lawful rfl
  (two_openable ..)).rewritten _ _ _ (latin_contains (by decide +kernel) false) rfl rfl trivial
example := (C75_SymbolLib (Env.simple .latin1 false) none (FS.text k!"(kicad_symbol_lib (x))") k!"a" _ charWise_latin1 Codec.latin1_lawful rfl
  (two_openable ..)).rewritten _ _ _ (latin_contains (by decide +kernel) false) rfl rfl trivial
example := (C75_DesignRules (Env.simple .latin1 false) none (FS.text k!"(version 1)") k!"a" _ charWise_latin1 Codec.latin1_lawful rfl
  (two_openable ..)).rewritten _ _ _ (latin_contains (by decide +kernel) false) rfl rfl trivial
example := (C75_WorkSheet (Env.simple .latin1 false) none rfl (FS.text k!"(kicad_wks (x))") k!"a" _ charWise_latin1 Codec.latin1_lawful rfl
  (two_openable ..)).rewritten _ _ _ (latin_contains (by decide +kernel) false) rfl rfl trivial
example := C75_Footprint (Env.simple .latin1 false) none (FS.text k!"(footprint x)") k!"a" (.str k!"0")

end Kiutils
