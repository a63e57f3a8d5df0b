import Verif.Props.Joined
/-!
# C91: converting a file changes nothing

Another computer, another encoding, other line ends, another path: what is loaded depends only on the characters of the file.
-/
namespace Kiutils

/-! ## Specification -/

/-- The two texts differ at most in their line ends (`\n`, `\r\n` or `\r`, in any mixture): in text mode they are the same. -/
def SameText (s s' : Str) : Prop := ∃ t, TextMode s t ∧ TextMode s' t

/-- The bytes `b` and `b'` are the same text, each in the encoding it is read in. -/
def SameFile (env env' : Env) (enc enc' : Option Codec) (b b' : Bytes) : Prop :=
  ∃ s s', decoded env enc b = some s ∧ decoded env' enc' b' = some s' ∧ SameText s s'

/-! ## Texts that are the same -/

theorem sameText_refl (s : Str) : SameText s s := ⟨_, textMode_universal s, textMode_universal s⟩

/-- What `unix2dos` does (git with `core.autocrlf`). -/
theorem sameText_crlf (s : Str) (h : '\r' ∉ s) : SameText s (s.flatMap fun c => if c = '\n' then ['\r', '\n'] else [c]) := by
  induction s with
  | nil => exact ⟨[], .nil, .nil⟩
  | cons c s ih =>
    have hc : c ≠ '\r' := fun e => h (by simp [e])
    obtain ⟨t, h1, h2⟩ := ih fun hm => h (List.mem_cons_of_mem _ hm)
    rw [List.flatMap_cons]
    by_cases hn : c = '\n'
    · subst hn
      exact ⟨'\n' :: t, .other (by decide) h1, .crlf h2⟩
    · rw [if_neg hn]
      exact ⟨c :: t, .other hc h1, .other hc h2⟩

/-- The line ends of old Macintosh computers. -/
theorem sameText_cr (s : Str) (h : '\r' ∉ s) : SameText s (s.map fun c => if c = '\n' then '\r' else c) := by
  induction s with
  | nil => exact ⟨[], .nil, .nil⟩
  | cons c s ih =>
    have hc : c ≠ '\r' := fun e => h (by simp [e])
    obtain ⟨t, h1, h2⟩ := ih fun hm => h (List.mem_cons_of_mem _ hm)
    rw [List.map_cons]
    by_cases hn : c = '\n'
    · subst hn
      refine ⟨'\n' :: t, .other (by decide) h1, .cr ?_ h2⟩
      intro r e
      cases s with
      | nil => cases e
      | cons d s =>
        rw [List.map_cons] at e
        injection e with e _
        split at e
        · cases e
        · rename_i hd; exact hd e
    · rw [if_neg hn]
      exact ⟨c :: t, .other hc h1, .other hc h2⟩

/-! ## Lemmas -/

theorem converted {α : Type} {load : Env → Path → Option Codec → FileM α} {r : Str → PyM α} {k : Path → α → α}
    (hload : Faithful load fun p text => (r text).map (k p)) (hk : ∀ p p' o, k p' (k p o) = k p' o) {env env' : Env} {p p' : Path}
    {enc enc' : Option Codec} {fs fs' : FS} {b b' : Bytes} (hb : HasContent fs p b) (hb' : HasContent fs' p' b') (hr : fs.canRead p = true)
    (hr' : fs'.canRead p' = true) (h : SameFile env env' enc enc' b b') :
    (load env' p' enc' fs').1 = (load env p enc fs).1.map (k p') := by
  obtain ⟨s, s', h1, h2, t, h3, h4⟩ := h
  have c : Contains env fs p enc t := ⟨b, s, hb, hr, h1, h3⟩
  have c' : Contains env' fs' p' enc' t := ⟨b', s', hb', hr', h2, h4⟩
  cases hq : r t with
  | error e =>
    rw [hload.malformed _ _ _ _ _ e c (by rw [hq]; rfl), hload.malformed _ _ _ _ _ e c' (by rw [hq]; rfl)]
    rfl
  | ok o =>
    rw [(hload.success _ _ _ _ (k p o)).2 ⟨t, c, by rw [hq]; rfl⟩, (hload.success _ _ _ _ (k p' o)).2 ⟨t, c', by rw [hq]; rfl⟩]
    exact congrArg Except.ok (hk p p' o).symm

/-! ## The property -/

/-- C91, saving: an object whose text has no carriage return is saved as the same text on all platforms and in all encodings that
can express it. -/
theorem C91_saved (d : Doc) (env env' : Env) (enc enc' : Option Codec) (hl : (d.codec env enc).Lawful) (hl' : (d.codec env' enc').Lawful)
    (hcr : ∀ x, d.text = .ok x → '\r' ∉ x) (b b' : Bytes) (hb : d.bytes env enc = some b) (hb' : d.bytes env' enc' = some b') :
    ∃ s s', (d.codec env enc).decode b = some s ∧ (d.codec env' enc').decode b' = some s' ∧ SameText s s' := by
  unfold Doc.bytes at hb hb'
  cases hx : d.text with
  | error e => rw [hx] at hb; cases hb
  | ok x =>
    rw [hx] at hb hb'
    refine ⟨_, _, hl _ _ hb, hl' _ _ hb', x, ?_, ?_⟩
    · have := textMode_universal (env.toLines x)
      rw [universal_toLines env x (hcr x hx)] at this
      exact this
    · have := textMode_universal (env'.toLines x)
      rw [universal_toLines env' x (hcr x hx)] at this
      exact this

/-! C91, loading: the same object or the same exception, except for the path that the object remembers. -/

theorem C91_LibTable (env env' : Env) (p p' : Path) (enc enc' : Option Codec) (fs fs' : FS) (b b' : Bytes) (hb : HasContent fs p b)
    (hb' : HasContent fs' p' b') (hr : fs.canRead p = true) (hr' : fs'.canRead p' = true) (h : SameFile env env' enc enc' b b') :
    (LibTable.fromFile env' p' enc' fs').1 = (LibTable.fromFile env p enc fs).1.map fun o => { o with filePath := some p' } := by
  exact converted (C58_LibTable) (fun _ _ _ => rfl) hb hb' hr hr' h

theorem C91_DesignRules (env env' : Env) (p p' : Path) (enc enc' : Option Codec) (fs fs' : FS) (b b' : Bytes) (hb : HasContent fs p b)
    (hb' : HasContent fs' p' b') (hr : fs.canRead p = true) (hr' : fs'.canRead p' = true) (h : SameFile env env' enc enc' b b') :
    (DesignRules.fromFile env' p' enc' fs').1 = (DesignRules.fromFile env p enc fs).1.map fun o => { o with filePath := some p' } := by
  exact converted (C58_DesignRules) (fun _ _ _ => rfl) hb hb' hr hr' h

theorem C91_WorkSheet (env env' : Env) (p p' : Path) (enc enc' : Option Codec) (fs fs' : FS) (b b' : Bytes) (hb : HasContent fs p b)
    (hb' : HasContent fs' p' b') (hr : fs.canRead p = true) (hr' : fs'.canRead p' = true) (h : SameFile env env' enc enc' b b') :
    (WorkSheet.fromFile env' p' enc' fs').1 = (WorkSheet.fromFile env p enc fs).1.map fun o => { o with filePath := some p' } := by
  exact converted (C58_WorkSheet) (fun _ _ _ => rfl) hb hb' hr hr' h

theorem C91_SymbolLib (env env' : Env) (p p' : Path) (enc enc' : Option Codec) (fs fs' : FS) (b b' : Bytes) (hb : HasContent fs p b)
    (hb' : HasContent fs' p' b') (hr : fs.canRead p = true) (hr' : fs'.canRead p' = true) (h : SameFile env env' enc enc' b b') :
    (SymbolLib.fromFile env' p' enc' fs').1 = (SymbolLib.fromFile env p enc fs).1.map fun o => { o with filePath := some p' } := by
  exact converted (C58_SymbolLib) (fun _ _ _ => rfl) hb hb' hr hr' h

theorem C91_Schematic (env env' : Env) (p p' : Path) (enc enc' : Option Codec) (fs fs' : FS) (b b' : Bytes) (hb : HasContent fs p b)
    (hb' : HasContent fs' p' b') (hr : fs.canRead p = true) (hr' : fs'.canRead p' = true) (h : SameFile env env' enc enc' b b') :
    (Schematic.fromFile env' p' enc' fs').1 = (Schematic.fromFile env p enc fs).1.map fun o => { o with filePath := some p' } := by
  exact converted (C58_Schematic) (fun _ _ _ => rfl) hb hb' hr hr' h

theorem C91_Footprint (tedit : Val) (env env' : Env) (p p' : Path) (enc enc' : Option Codec) (fs fs' : FS) (b b' : Bytes) (hb : HasContent fs p b)
    (hb' : HasContent fs' p' b') (hr : fs.canRead p = true) (hr' : fs'.canRead p' = true) (h : SameFile env env' enc enc' b b') :
    (Footprint.fromFile env' tedit p' enc' fs').1 = (Footprint.fromFile env tedit p enc fs).1 := by
  have := converted (k := fun _ o => o) (footprint_faithful tedit) (fun _ _ _ => rfl) hb hb' hr hr' h
  rw [this]
  cases (Footprint.fromFile env tedit p enc fs).1 <;> rfl

theorem C91_Board (tedit : Val) (env env' : Env) (p p' : Path) (enc enc' : Option Codec) (fs fs' : FS) (b b' : Bytes) (hb : HasContent fs p b)
    (hb' : HasContent fs' p' b') (hr : fs.canRead p = true) (hr' : fs'.canRead p' = true) (h : SameFile env env' enc enc' b b') :
    (Board.fromFile env' tedit p' enc' fs').1 = (Board.fromFile env tedit p enc fs).1.map fun o => { o with filePath := some p' } := by
  exact converted (C58_Board tedit) (fun _ _ _ => rfl) hb hb' hr hr' h

/-! ## Files that meet the hypotheses -/

/-- A text with a character that has two bytes in UTF-8, and with two lines. -/
def convText : Str := k!"(fp_lib_table\n(lib (name \"é\")(type \"KiCad\")(uri \"u\")(options \"\")(descr \"\"))\n)"

def inLatin (t : Str) : Bytes := t.map fun c => UInt8.ofNat c.toNat
def inUtf8 (t : Str) : Bytes := (t.flatMap fun c => if c = '\n' then ['\r', '\n'] else [c]).flatMap String.utf8EncodeChar

theorem same_latin_utf8 (t : Str) (hr : t.contains '\r' = false) (h : t.all (fun c => c.toNat < 256) = true) :
    SameFile (Env.simple .latin1 false) (Env.simple .utf8 true) none none (inLatin t) (inUtf8 t) :=
  ⟨_, _, Codec.latin1_lawful t _ (if_pos h), Codec.utf8_lawful _ _ rfl, sameText_crlf t (by simpa using hr)⟩

/-- A library table in Latin-1 with Unix line ends, and the same in UTF-8 with those of Windows at another path: one entry each. -/
example : ((LibTable.fromFile (Env.simple .latin1 false) k!"a" none (FS.two k!"a" k!"b" (inLatin convText) [2])).1.toOption.map
      fun o => o.libs.length) = some 1 ∧
    (LibTable.fromFile (Env.simple .utf8 true) k!"c" none (FS.two k!"c" k!"b" (inUtf8 convText) [2])).1 =
      (LibTable.fromFile (Env.simple .latin1 false) k!"a" none (FS.two k!"a" k!"b" (inLatin convText) [2])).1.map
        fun o => { o with filePath := some k!"c" } :=
  ⟨by decide +kernel, C91_LibTable _ _ _ _ none none _ _ _ _ rfl rfl rfl rfl (same_latin_utf8 convText (by decide) (by decide))⟩

example : (DesignRules.fromFile (Env.simple .latin1 false) k!"a" none (FS.two k!"a" k!"b" (inLatin k!"(version 1)\n(rule \"é\")\n") [2])).1.isOk = true ∧
    (DesignRules.fromFile (Env.simple .utf8 true) k!"c" none (FS.two k!"c" k!"b" (inUtf8 k!"(version 1)\n(rule \"é\")\n") [2])).1 =
      (DesignRules.fromFile (Env.simple .latin1 false) k!"a" none (FS.two k!"a" k!"b" (inLatin k!"(version 1)\n(rule \"é\")\n") [2])).1.map fun o => { o with filePath := some k!"c" } :=
  ⟨by decide +kernel, C91_DesignRules _ _ _ _ none none _ _ _ _ rfl rfl rfl rfl (same_latin_utf8 _ (by decide) (by decide))⟩

example : (WorkSheet.fromFile (Env.simple .latin1 false) k!"a" none (FS.two k!"a" k!"b" (inLatin k!"(kicad_wks\n(version 1)(generator \"é\"))") [2])).1.isOk = true ∧
    (WorkSheet.fromFile (Env.simple .utf8 true) k!"c" none (FS.two k!"c" k!"b" (inUtf8 k!"(kicad_wks\n(version 1)(generator \"é\"))") [2])).1 =
      (WorkSheet.fromFile (Env.simple .latin1 false) k!"a" none (FS.two k!"a" k!"b" (inLatin k!"(kicad_wks\n(version 1)(generator \"é\"))") [2])).1.map fun o => { o with filePath := some k!"c" } :=
  ⟨by decide +kernel, C91_WorkSheet _ _ _ _ none none _ _ _ _ rfl rfl rfl rfl (same_latin_utf8 _ (by decide) (by decide))⟩

example : (SymbolLib.fromFile (Env.simple .latin1 false) k!"a" none (FS.two k!"a" k!"b" (inLatin k!"(kicad_symbol_lib\n(version 1)(generator \"é\"))") [2])).1.isOk = true ∧
    (SymbolLib.fromFile (Env.simple .utf8 true) k!"c" none (FS.two k!"c" k!"b" (inUtf8 k!"(kicad_symbol_lib\n(version 1)(generator \"é\"))") [2])).1 =
      (SymbolLib.fromFile (Env.simple .latin1 false) k!"a" none (FS.two k!"a" k!"b" (inLatin k!"(kicad_symbol_lib\n(version 1)(generator \"é\"))") [2])).1.map fun o => { o with filePath := some k!"c" } :=
  ⟨by decide +kernel, C91_SymbolLib _ _ _ _ none none _ _ _ _ rfl rfl rfl rfl (same_latin_utf8 _ (by decide) (by decide))⟩

example : (Schematic.fromFile (Env.simple .latin1 false) k!"a" none (FS.two k!"a" k!"b" (inLatin k!"(kicad_sch\n(version 1)(generator \"é\"))") [2])).1.isOk = true ∧
    (Schematic.fromFile (Env.simple .utf8 true) k!"c" none (FS.two k!"c" k!"b" (inUtf8 k!"(kicad_sch\n(version 1)(generator \"é\"))") [2])).1 =
      (Schematic.fromFile (Env.simple .latin1 false) k!"a" none (FS.two k!"a" k!"b" (inLatin k!"(kicad_sch\n(version 1)(generator \"é\"))") [2])).1.map fun o => { o with filePath := some k!"c" } :=
  ⟨by decide +kernel, C91_Schematic _ _ _ _ none none _ _ _ _ rfl rfl rfl rfl (same_latin_utf8 _ (by decide) (by decide))⟩

example : (Footprint.fromFile (Env.simple .latin1 false) (.str k!"0") k!"a" none (FS.two k!"a" k!"b" (inLatin k!"(footprint \"é\"\n(layer F.Cu))") [2])).1.isOk = true ∧
    (Footprint.fromFile (Env.simple .utf8 true) (.str k!"0") k!"c" none (FS.two k!"c" k!"b" (inUtf8 k!"(footprint \"é\"\n(layer F.Cu))") [2])).1 =
      (Footprint.fromFile (Env.simple .latin1 false) (.str k!"0") k!"a" none (FS.two k!"a" k!"b" (inLatin k!"(footprint \"é\"\n(layer F.Cu))") [2])).1 :=
  ⟨by decide +kernel, C91_Footprint (.str k!"0") _ _ _ _ none none _ _ _ _ rfl rfl rfl rfl (same_latin_utf8 _ (by decide) (by decide))⟩

example : (Board.fromFile (Env.simple .latin1 false) (.str k!"0") k!"a" none (FS.two k!"a" k!"b" (inLatin k!"(kicad_pcb\n(version 1)(generator \"é\"))") [2])).1.isOk = true ∧
    (Board.fromFile (Env.simple .utf8 true) (.str k!"0") k!"c" none (FS.two k!"c" k!"b" (inUtf8 k!"(kicad_pcb\n(version 1)(generator \"é\"))") [2])).1 =
      (Board.fromFile (Env.simple .latin1 false) (.str k!"0") k!"a" none (FS.two k!"a" k!"b" (inLatin k!"(kicad_pcb\n(version 1)(generator \"é\"))") [2])).1.map fun o => { o with filePath := some k!"c" } :=
  ⟨by decide +kernel, C91_Board (.str k!"0") _ _ _ _ none none _ _ _ _ rfl rfl rfl rfl (same_latin_utf8 _ (by decide) (by decide))⟩

set_option maxRecDepth 100000 in
/-- The same table saved on two platforms. -/
example : ∃ b b', (Doc.libTable cutLibTable).bytes (Env.simple .latin1 false) none = some b ∧ (Doc.libTable cutLibTable).bytes (Env.simple .utf8 true) none = some b' ∧
    SameFile (Env.simple .latin1 false) (Env.simple .utf8 true) none none b b' := by
  have ok := save_ok (.libTable cutLibTable) (Env.simple .latin1 false) k!"a" none (FS.two k!"a" k!"b" [1] [2]) rfl (two_openable _ _ _ _) (by decide +kernel)
  obtain ⟨p', b, hp', hb, hn⟩ := C27_content (.libTable cutLibTable) (Env.simple .latin1 false) (some k!"a") none (FS.two k!"a" k!"b" [1] [2]) ok
  refine ⟨b, _, hb, rfl, ?_⟩
  exact C91_saved (.libTable cutLibTable) (Env.simple .latin1 false) (Env.simple .utf8 true) none none Codec.latin1_lawful Codec.utf8_lawful
    (noCR_iff (by decide +kernel)) b _ hb rfl

end Kiutils
