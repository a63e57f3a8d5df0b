import Verif.Props.Files
/-!
# Exactly when `from_file` succeeds (C58)
-/
namespace Kiutils

/-! ## Specification -/

/-- What text mode makes of the line ends: `\r\n` and a lone `\r` become `\n`, nothing else changes. -/
inductive TextMode : Str → Str → Prop where
  | nil : TextMode [] []
  | crlf {s t : Str} : TextMode s t → TextMode ('\r' :: '\n' :: s) ('\n' :: t)
  | cr {s t : Str} : (∀ r, s ≠ '\n' :: r) → TextMode s t → TextMode ('\r' :: s) ('\n' :: t)
  | other {c : Char} {s t : Str} : c ≠ '\r' → TextMode s t → TextMode (c :: s) (c :: t)

/-- The bytes in the encoding given, else in that of the platform. -/
def decoded (env : Env) (encoding : Option Codec) (b : Bytes) : Option Str :=
  match encoding with
  | some c => c.decode b
  | none => env.locale.decode b

/-- The file at `p` exists, can be read, and is a valid file of the encoding, whose text is `text`. -/
def Contains (env : Env) (fs : FS) (p : Path) (encoding : Option Codec) (text : Str) : Prop :=
  ∃ b s, fs.node p = some (.file b) ∧ fs.canRead p = true ∧
    decoded env encoding b = some s ∧ TextMode s text

/-- `load` is a faithful way to read the files whose texts `read` accepts: it never changes the file system; it succeeds exactly if
the path names a file that can be read and decoded and whose text is accepted, and then the result is what `read` makes of the text;
otherwise it says what is wrong. -/
structure Faithful {α : Type} (load : Env → Path → Option Codec → FileM α) (read : Path → Str → PyM α) : Prop where
  /-- nothing is written, whatever happens -/
  keeps : ∀ env p enc fs, (load env p enc fs).2 = fs
  /-- success -/
  success : ∀ env p enc fs o, (load env p enc fs).1 = .ok o ↔ ∃ text, Contains env fs p enc text ∧ read p text = .ok o
  /-- a path that is not a file: `Exception` -/
  missing : ∀ env p enc fs, (∀ b, fs.node p ≠ some (.file b)) → (load env p enc fs).1 = .error .exception
  /-- no permission: `OSError` -/
  forbidden : ∀ env p enc fs b, fs.node p = some (.file b) → fs.canRead p = false → (load env p enc fs).1 = .error .osError
  /-- the wrong encoding: `ValueError` -/
  undecodable : ∀ env p enc fs b, fs.node p = some (.file b) → fs.canRead p = true →
    decoded env enc b = none → (load env p enc fs).1 = .error .valueError
  /-- a text that is not accepted: what is raised for it -/
  malformed : ∀ env p enc fs text e, Contains env fs p enc text → read p text = .error e → (load env p enc fs).1 = .error e

/-! ## Lemmas -/

theorem textMode_universal : ∀ s, TextMode s (universalNewlines s)
  | [] => by rw [universalNewlines]; exact .nil
  | c :: r => by
    by_cases hc : c = '\r'
    · subst hc
      match r with
      | [] => rw [universalNewlines]; exact .cr (fun _ h => nomatch h) (textMode_universal [])
              intro r h; cases h
      | d :: r =>
        by_cases hd : d = '\n'
        · subst hd
          rw [universalNewlines]
          exact .crlf (textMode_universal r)
        · rw [universalNewlines]
          · refine .cr ?_ (textMode_universal (d :: r))
            intro r' h
            cases h
            exact hd rfl
          · intro r' h
            cases h
            exact hd rfl
    · rw [universal_cons hc]
      exact .other hc (textMode_universal r)

/-- Text mode is deterministic. -/
theorem TextMode.eq {s t : Str} (h : TextMode s t) : t = universalNewlines s := by
  induction h with
  | nil => rfl
  | crlf _ ih => rw [universalNewlines, ih]
  | @cr s t hn _ ih =>
    rw [universalNewlines, ih]
    intro r h
    exact hn r h
  | other hc _ ih => rw [universal_cons hc, ih]

theorem Env.codec_decode (env : Env) (enc : Option Codec) (b : Bytes) :
    (env.codec enc).decode b = decoded env enc b := by
  cases enc <;> rfl

/-- A loader that reads the file and does something without effect to its text. -/
theorem faithful_of {α : Type} {load : Env → Path → Option Codec → FileM α} {read : Path → Str → PyM α}
    (h : ∀ env p enc fs, load env p enc fs = (readFile env p enc >>= fun text => FileM.lift (read p text)) fs) : Faithful load read := by
  have hok : ∀ env p enc fs s, readFile env p enc fs = (.ok s, fs) → load env p enc fs = (read p s, fs) := fun env p enc fs s hs =>
    (h ..).trans (FileM.bind_run hs)
  have herr : ∀ env p enc fs e, readFile env p enc fs = (.error e, fs) → load env p enc fs = (.error e, fs) := fun env p enc fs e hs =>
    (h ..).trans (FileM.bind_err hs)
  have hcont : ∀ env p enc fs text, Contains env fs p enc text → readFile env p enc fs = (.ok text, fs) := by
    intro env p enc fs text ⟨b, s, hb, hr, hd, ht⟩
    rw [← Env.codec_decode] at hd
    simp only [readFile, hb, hr, if_true, hd, ht.eq]
  have hmiss : ∀ env p enc fs, (∀ b, fs.node p ≠ some (.file b)) → readFile env p enc fs = (.error .exception, fs) := by
    intro env p enc fs hb
    unfold readFile
    cases hn : fs.node p with
    | none => rfl
    | some n => cases n with
      | file b => exact absurd hn (hb b)
      | dir => rfl
  have hforb : ∀ env p enc fs b, fs.node p = some (.file b) → fs.canRead p = false → readFile env p enc fs = (.error .osError, fs) := by
    intro env p enc fs b hb hr
    simp only [readFile, hb, hr]
    rfl
  have hund : ∀ env p enc fs b, fs.node p = some (.file b) → fs.canRead p = true →
      decoded env enc b = none → readFile env p enc fs = (.error .valueError, fs) := by
    intro env p enc fs b hb hr hd
    rw [← Env.codec_decode] at hd
    simp only [readFile, hb, hr, if_true, hd]
  have hcases : ∀ env p enc fs, (∃ text, Contains env fs p enc text) ∨ (∃ e, readFile env p enc fs = (.error e, fs)) := by
    intro env p enc fs
    by_cases hb : ∃ b, fs.node p = some (.file b)
    · obtain ⟨b, hb⟩ := hb
      cases hr : fs.canRead p with
      | false => exact .inr ⟨_, hforb env p enc fs b hb hr⟩
      | true =>
        cases hd : decoded env enc b with
        | none => exact .inr ⟨_, hund env p enc fs b hb hr hd⟩
        | some s => exact .inl ⟨_, b, s, hb, hr, hd, textMode_universal s⟩
    · exact .inr ⟨_, hmiss env p enc fs fun b hb' => hb ⟨b, hb'⟩⟩
  refine ⟨?_, ?_, ?_, ?_, ?_, ?_⟩
  · intro env p enc fs
    rcases hcases env p enc fs with ⟨t, ht⟩ | ⟨e, he⟩
    · rw [hok _ _ _ _ _ (hcont _ _ _ _ _ ht)]
    · rw [herr _ _ _ _ _ he]
  · intro env p enc fs o
    constructor
    · intro ho
      rcases hcases env p enc fs with ⟨t, ht⟩ | ⟨e, he⟩
      · rw [hok _ _ _ _ _ (hcont _ _ _ _ _ ht)] at ho
        exact ⟨t, ht, ho⟩
      · rw [herr _ _ _ _ _ he] at ho
        exact nomatch ho
    · intro ⟨t, ht, ho⟩
      rw [hok _ _ _ _ _ (hcont _ _ _ _ _ ht)]
      exact ho
  · intro env p enc fs hb
    rw [herr _ _ _ _ _ (hmiss env p enc fs hb)]
  · intro env p enc fs b hb hr
    rw [herr _ _ _ _ _ (hforb env p enc fs b hb hr)]
  · intro env p enc fs b hb hr hd
    rw [herr _ _ _ _ _ (hund env p enc fs b hb hr hd)]
  · intro env p enc fs text e ht he
    rw [hok _ _ _ _ _ (hcont _ _ _ _ _ ht)]
    exact he

/-- An object that is given its path after loading. -/
theorem lift_withPath {α : Type} (m : PyM α) (f : α → α) (fs : FS) :
    (FileM.lift m >>= fun item => (pure (f item) : FileM α)) fs = FileM.lift (m.map f) fs := by
  cases m <;> rfl

theorem fileM_bind_congr {α β : Type} (m : FileM α) {f g : α → FileM β} (h : ∀ a fs, f a fs = g a fs) (fs : FS) :
    (m >>= f) fs = (m >>= g) fs :=
  congrArg (fun k => (m >>= k) fs) (funext fun a => funext fun fs => h a fs)

/-! ## Theorems -/

/-- `LibTable.from_file`: the text is parsed and handed to `from_sexpr`, and the object remembers the path. -/
theorem C58_LibTable : Faithful LibTable.fromFile
    (fun p text => (parseSexp text >>= LibTable.fromSexpr).map fun o => { o with filePath := some p }) :=
  faithful_of fun _ _ _ fs => fileM_bind_congr _ (fun _ fs => lift_withPath _ _ fs) fs

/-- `DesignRules.from_file`: the text is read as the content of one list, and the object remembers the path. -/
theorem C58_DesignRules : Faithful DesignRules.fromFile
    (fun p text => (parseSexp ('(' :: (text ++ [')'])) >>= DesignRules.fromSexpr).map fun o => { o with filePath := some p }) :=
  faithful_of fun _ _ _ fs => fileM_bind_congr _ (fun _ fs => lift_withPath _ _ fs) fs

/-- `WorkSheet.from_file`: the text is parsed and handed to `from_sexpr`, and the object remembers the path. -/
theorem C58_WorkSheet : Faithful WorkSheet.fromFile
    (fun p text => (parseSexp text >>= WorkSheet.fromSexpr).map fun o => { o with filePath := some p }) :=
  faithful_of fun _ _ _ fs => fileM_bind_congr _ (fun _ fs => lift_withPath _ _ fs) fs

/-- `SymbolLib.from_file`: the text is parsed and handed to `from_sexpr`, and the object remembers the path. -/
theorem C58_SymbolLib : Faithful SymbolLib.fromFile
    (fun p text => (parseSexp text >>= SymbolLib.fromSexpr).map fun o => { o with filePath := some p }) :=
  faithful_of fun _ _ _ fs => fileM_bind_congr _ (fun _ fs => lift_withPath _ _ fs) fs

/-- `Schematic.from_file`: the text is parsed and handed to `from_sexpr`, and the object remembers the path. -/
theorem C58_Schematic : Faithful Schematic.fromFile
    (fun p text => (parseSexp text >>= Schematic.fromSexpr).map fun o => { o with filePath := some p }) :=
  faithful_of fun _ _ _ fs => fileM_bind_congr _ (fun _ fs => lift_withPath _ _ fs) fs

/-- `Footprint.from_file`: the object does not remember the path (C28). -/
theorem C58_Footprint (tedit : Val) : Faithful (fun env p enc => Footprint.fromFile env tedit p enc)
    (fun _ text => parseSexp text >>= Footprint.fromSexpr tedit) :=
  faithful_of fun _ _ _ _ => rfl

/-- `Board.from_file`: the text is parsed and handed to `from_sexpr`, and the object remembers the path. -/
theorem C58_Board (tedit : Val) : Faithful (fun env p enc => Board.fromFile env tedit p enc)
    (fun p text => (parseSexp text >>= Board.fromSexpr tedit).map fun o => { o with filePath := some p }) :=
  faithful_of fun _ _ _ fs => fileM_bind_congr _ (fun _ fs => lift_withPath _ _ fs) fs

/-! ## Unhashable keys

Four loops put what they read into a dictionary: the properties of boards and footprints, the comments of title blocks and the pins of
schematic symbols. A list is no key: such a file is rejected, wherever in the file the item is. -/

theorem forM_all {σ : Type} {step : σ → Val → PyM σ} {P : Val → Prop} (h : ∀ s x s', step s x = .ok s' → P x) (l : List Val) (s s' : σ)
    (hl : forM step s l = .ok s') : ∀ x ∈ l, P x := by
  induction l generalizing s with
  | nil => exact fun x hx => absurd hx List.not_mem_nil
  | cons v l ih =>
    simp only [forM] at hl
    cases hv : step s v with
    | error e => rw [hv] at hl; exact nomatch hl
    | ok s1 =>
      rw [hv] at hl
      intro x hx
      rcases List.mem_cons.mp hx with rfl | hx
      · exact h _ _ _ hv
      · exact ih s1 hl x hx

/-- The item `x` does not use a list as the key after the word `key`. -/
def KeyOk (key : Str) (x : Val) : Prop := ∀ k r, x ≠ .list (.str key :: .list k :: r)

theorem TitleBlock.step_key (s : TitleBlock) (x : Val) (s' : TitleBlock) (h : TitleBlock.step s x = .ok s') : KeyOk k!"comment" x := by
  rintro k (_ | ⟨v, r⟩) rfl <;> exact nomatch h
theorem Board.step_key (tedit : Val) (s : Board) (x : Val) (s' : Board) (h : Board.step tedit s x = .ok s') : KeyOk k!"property" x := by
  rintro k (_ | ⟨v, r⟩) rfl <;> exact nomatch h
theorem Footprint.step_key (s : Footprint) (x : Val) (s' : Footprint) (h : Footprint.step s x = .ok s') : KeyOk k!"property" x := by
  rintro k (_ | ⟨v, r⟩) rfl <;> exact nomatch h

theorem SchematicSymbol.step_key (s : SchematicSymbol) (x : Val) (s' : SchematicSymbol) (h : SchematicSymbol.step s x = .ok s') :
    KeyOk k!"pin" x := by
  rintro k r rfl
  match r, h with
  | [], h => exact nomatch h
  | v :: r, h =>
    change (v.idx 1 >>= fun u => Except.error PyErr.typeError) = _ at h
    cases hu : v.idx 1 <;> rw [hu] at h <;> exact nomatch h

theorem C58_TitleBlock_keys (items : List Val) (o : TitleBlock) (h : TitleBlock.fromSexpr (.list (.str k!"title_block" :: items)) = .ok o) :
    ∀ x ∈ items, KeyOk k!"comment" x :=
  forM_all TitleBlock.step_key _ _ _ h
example := C58_TitleBlock_keys [.list [.str k!"comment", .int 1, .str k!"x"]] _ rfl
theorem C58_Board_keys (tedit : Val) (items : List Val) (o : Board)
    (h : Board.fromSexpr tedit (.list (.str k!"kicad_pcb" :: items)) = .ok o) : ∀ x ∈ items, KeyOk k!"property" x :=
  forM_all (Board.step_key tedit) _ _ _ h
theorem C58_Footprint_keys (tedit : Val) (w id : Val) (items : List Val) (o : Footprint)
    (h : Footprint.fromSexpr tedit (.list (w :: id :: items)) = .ok o) : ∀ x ∈ items, KeyOk k!"property" x := by
  unfold Footprint.fromSexpr at h
  dsimp only at h
  split at h
  · exact forM_all Footprint.step_key _ _ _ h
  · exact nomatch h
example := C58_Footprint_keys (.int 0) (.str k!"footprint") (.str k!"x") [.list [.str k!"property", .str k!"a", .str k!"b"]] _ rfl
theorem C58_SchematicSymbol_keys (items : List Val) (o : SchematicSymbol)
    (h : SchematicSymbol.fromSexpr (.list (.str k!"symbol" :: items)) = .ok o) : ∀ x ∈ items, KeyOk k!"pin" x :=
  forM_all SchematicSymbol.step_key _ _ _ h

/-! ## Examples -/

/-- A file with line ends of all three kinds. -/
def FS.one (b : Bytes) (readable : Bool) : FS :=
  { node := fun q => if q = k!"a" then some (.file b) else none, canRead := fun _ => readable, canWrite := fun _ => true }

example : TextMode k!"a\r\nb\rc\n" k!"a\nb\nc\n" := textMode_universal _

/-- A file that is there, can be read and is in order; the same file if it may not be read; a file that is not there. -/
example (env : Env) : Contains env (FS.one (k!"(sym_lib_table\r\n)".map fun c => UInt8.ofNat c.toNat) true) k!"a" (some .latin1) k!"(sym_lib_table\n)" :=
  ⟨_, k!"(sym_lib_table\r\n)", rfl, rfl, (by show Codec.latin1.decode _ = _; decide +kernel), textMode_universal _⟩
example (env : Env) : ∃ o, (LibTable.fromFile env k!"a" (some .latin1)
    (FS.one (k!"(sym_lib_table\r\n)".map fun c => UInt8.ofNat c.toNat) true)).1 = .ok o ∧ o.filePath = some k!"a" :=
  ⟨_, (C58_LibTable.success ..).mpr ⟨k!"(sym_lib_table\n)", ⟨_, k!"(sym_lib_table\r\n)", rfl, rfl, (by show Codec.latin1.decode _ = _; decide +kernel), textMode_universal _⟩, rfl⟩, rfl⟩
example (env : Env) (b : Bytes) : (LibTable.fromFile env k!"a" none (FS.one b false)).1 = .error .osError :=
  C58_LibTable.forbidden env _ _ _ b rfl rfl
example (env : Env) (b : Bytes) : (LibTable.fromFile env k!"b" none (FS.one b true)).1 = .error .exception :=
  C58_LibTable.missing env _ _ _ fun _ h => nomatch h
example (env : Env) : (LibTable.fromFile env k!"a" (some .utf8) (FS.one [0xff] true)).1 = .error .valueError :=
  C58_LibTable.undecodable env _ _ _ [0xff] rfl rfl (by show Codec.utf8.decode _ = _; decide +kernel)
/-- Boards with a property load, and are rejected if the key is a list. -/
example (tedit : Val) : ∃ o, Board.fromSexpr tedit (.list [.str k!"kicad_pcb", .list [.str k!"property", .str k!"a", .str k!"b"]]) = .ok o :=
  ⟨_, rfl⟩
example (tedit : Val) (l : List Val) (o : Board) :
    Board.fromSexpr tedit (.list [.str k!"kicad_pcb", .list [.str k!"property", .list l, .str k!"b"]]) ≠ .ok o := fun h =>
  C58_Board_keys tedit _ o h _ (List.mem_singleton.mpr rfl) l _ rfl

end Kiutils
