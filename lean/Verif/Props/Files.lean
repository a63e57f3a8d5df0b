import Verif.Props.Zones
import Verif.Model.Files
import Verif.Post
/-!
# Saving to files and loading from files (C27–C30, C39, C44)
-/
namespace Kiutils

/-! ## Specification -/

/-- An object of one of the seven file classes. -/
inductive Doc where
  | libTable (o : LibTable)
  | designRules (o : DesignRules)
  | workSheet (o : WorkSheet)
  | symbolLib (o : SymbolLib)
  | schematic (o : Schematic)
  | footprint (o : Footprint)
  | board (o : Board)

/-- The attribute `filePath`. -/
def Doc.filePath : Doc → Option Path
  | libTable o => o.filePath
  | designRules o => o.filePath
  | workSheet o => o.filePath
  | symbolLib o => o.filePath
  | schematic o => o.filePath
  | footprint o => o.filePath
  | board o => o.filePath

/-- The text that is saved. -/
def Doc.text : Doc → PyM Str
  | libTable o => .ok o.toSexpr
  | designRules o => o.toSexpr
  | workSheet o => o.toSexpr
  | symbolLib o => .ok o.toSexpr
  | schematic o => o.toSexpr
  | footprint o => o.toSexpr
  | board o => o.toSexpr

/-- `to_file(filepath, encoding)`; worksheets take no encoding. -/
def Doc.toFile (env : Env) (filepath : Option Path) (encoding : Option Codec) (fs : FS) : Doc → Attempt
  | libTable o => o.toFile env filepath encoding fs
  | designRules o => o.toFile env filepath encoding fs
  | workSheet o => o.toFile env filepath fs
  | symbolLib o => o.toFile env filepath encoding fs
  | schematic o => o.toFile env filepath encoding fs
  | footprint o => o.toFile env filepath encoding fs
  | board o => o.toFile env filepath encoding fs

/-- Where a save has to go: the path given, else the path of the object. -/
def Doc.target (d : Doc) (filepath : Option Path) : Option Path :=
  match filepath with
  | some p => some p
  | none => d.filePath

/-- The encoding in which a save has to be done: the encoding given, else that of the platform. -/
def Doc.codec (d : Doc) (env : Env) (encoding : Option Codec) : Codec :=
  match d with
  | workSheet _ => env.locale
  | _ => match encoding with
    | some c => c
    | none => env.locale

/-- The bytes of a complete file: the text with the line ends of the platform, encoded. -/
def Doc.bytes (d : Doc) (env : Env) (encoding : Option Codec) : Option Bytes :=
  match d.text with
  | .ok s => (d.codec env encoding).encode (if env.crlf then s.flatMap fun c => if c = '\n' then ['\r', '\n'] else [c] else s)
  | .error _ => none

/-- No file but `p` differs. -/
def OnlyAt (p : Path) (fs fs' : FS) : Prop :=
  (∀ q, q ≠ p → fs'.node q = fs.node q) ∧ fs'.canRead = fs.canRead ∧ fs'.canWrite = fs.canWrite

/-- The path can be opened for writing. -/
def Openable (fs : FS) (p : Path) : Prop := fs.canWrite p = true ∧ fs.node p ≠ some .dir

/-! ## Lemmas -/

theorem openable_iff (fs : FS) (p : Path) : fs.openable p = true ↔ Openable fs p := by
  unfold FS.openable Openable
  cases h : fs.node p with
  | none => simp
  | some n => cases n <;> simp

/-- The encoding that is passed on. -/
def Doc.passed (d : Doc) (enc : Option Codec) : Option Codec :=
  match d with
  | .workSheet _ => none
  | _ => enc

theorem Doc.codec_eq (d : Doc) (env : Env) (enc : Option Codec) : d.codec env enc = env.codec (d.passed enc) := by
  cases d <;> cases enc <;> rfl

theorem Doc.toFile_eq (d : Doc) (env : Env) (fp : Option Path) (enc : Option Codec) (fs : FS) :
    d.toFile env fp enc fs = match d.target fp with
      | some p => writeFile env p (d.passed enc) d.text fs
      | none => ⟨[], .error .exception⟩ := by
  cases d <;> cases fp <;> rfl

theorem set_node (fs : FS) (p : Path) (n : Node) : (fs.set p n).node p = some n := by simp [FS.set]
theorem set_only (fs : FS) (p : Path) (n : Node) : OnlyAt p fs (fs.set p n) :=
  ⟨fun q hq => by simp [FS.set, hq], rfl, rfl⟩

theorem OnlyAt.refl (p : Path) (fs : FS) : OnlyAt p fs fs := ⟨fun _ _ => rfl, rfl, rfl⟩
theorem OnlyAt.trans {p : Path} {a b c : FS} (h : OnlyAt p a b) (h' : OnlyAt p b c) : OnlyAt p a c :=
  ⟨fun q hq => (h'.1 q hq).trans (h.1 q hq), h'.2.1.trans h.2.1, h'.2.2.trans h.2.2⟩

/-- Appending portions. -/
theorem apply_append (p : Path) (bs : List Bytes) (fs : FS) (old : Bytes) (h : fs.node p = some (.file old)) :
    (applySteps fs (bs.map (Step.append p))).node p = some (.file (old ++ bs.flatten)) ∧
    OnlyAt p fs (applySteps fs (bs.map (Step.append p))) := by
  induction bs generalizing fs old with
  | nil => simpa [applySteps, h] using OnlyAt.refl p fs
  | cons b bs ih =>
    have hs : applySteps fs ((b :: bs).map (Step.append p)) = applySteps (fs.set p (.file (old ++ b))) (bs.map (Step.append p)) := by
      simp [applySteps, Step.apply, h]
    rw [hs]
    obtain ⟨h1, h2⟩ := ih _ _ (set_node fs p _)
    exact ⟨by simpa using h1, (set_only fs p _).trans h2⟩

theorem apply_truncate (p : Path) (bs : List Bytes) (fs : FS) :
    (applySteps fs (.truncate p :: bs.map (Step.append p))).node p = some (.file bs.flatten) ∧
    OnlyAt p fs (applySteps fs (.truncate p :: bs.map (Step.append p))) := by
  have hs : applySteps fs (.truncate p :: bs.map (Step.append p)) = applySteps (fs.set p (.file [])) (bs.map (Step.append p)) := rfl
  rw [hs]
  obtain ⟨h1, h2⟩ := apply_append p bs _ _ (set_node fs p _)
  exact ⟨by simpa using h1, (set_only fs p _).trans h2⟩

/-- The shape of every attempt: nothing, or the file is truncated and portions of the complete file follow, all of them if the outcome
is good. -/
theorem Doc.toFile_shape (d : Doc) (env : Env) (fp : Option Path) (enc : Option Codec) (fs : FS) :
    ((d.toFile env fp enc fs).steps = [] ∧ (∃ e, (d.toFile env fp enc fs).outcome = .error e) ∧
      (∀ p, d.target fp = some p → ¬ Openable fs p)) ∨
    ∃ p, d.target fp = some p ∧ Openable fs p ∧
      ((∃ e, d.bytes env enc = none ∧ (d.toFile env fp enc fs) = ⟨[.truncate p], .error e⟩) ∨
       (∃ b n, d.bytes env enc = some b ∧ n < (env.chunks b).length ∧ env.full = some n ∧
          (d.toFile env fp enc fs) = ⟨.truncate p :: ((env.chunks b).take n).map (Step.append p), .error .osError⟩) ∨
       (∃ b, d.bytes env enc = some b ∧ (∀ n, env.full = some n → (env.chunks b).length ≤ n) ∧
          (d.toFile env fp enc fs) = ⟨.truncate p :: (env.chunks b).map (Step.append p), .ok ()⟩)) := by
  rw [toFile_eq]
  unfold bytes
  rw [codec_eq]
  cases ht : d.target fp with
  | none => exact .inl ⟨rfl, ⟨_, rfl⟩, fun p hp => by cases hp⟩
  | some p =>
    simp only
    unfold writeFile
    by_cases ho : fs.openable p = true
    · rw [if_pos ho]
      refine .inr ⟨p, rfl, (openable_iff fs p).mp ho, ?_⟩
      cases hx : d.text with
      | error e => exact .inl ⟨e, rfl, rfl⟩
      | ok s =>
        simp only [Env.toLines]
        cases hb : (env.codec (d.passed enc)).encode
            (if env.crlf then s.flatMap fun c => if c = '\n' then ['\r', '\n'] else [c] else s) with
        | none => exact .inl ⟨_, rfl, rfl⟩
        | some b =>
          right
          simp only [List.length_map]
          cases hf : env.full with
          | none => exact .inr ⟨b, rfl, fun n hn => (by cases hn), rfl⟩
          | some n =>
            simp only
            by_cases hn : n < (env.chunks b).length
            · rw [if_pos hn]
              exact .inl ⟨b, n, rfl, hn, rfl, by rw [List.map_take]⟩
            · rw [if_neg hn]
              exact .inr ⟨b, rfl, fun m hm => (by cases hm; omega), rfl⟩
    · rw [if_neg ho]
      exact .inl ⟨rfl, ⟨_, rfl⟩, fun q hq => by cases hq; exact fun h => ho ((openable_iff fs p).mpr h)⟩

/-! ## C27: the right file and only this one -/

/-- Saving changes at most the file the user named (or the one the object came from), also if it fails. -/
theorem C27_only_target (d : Doc) (env : Env) (fp : Option Path) (enc : Option Codec) (fs : FS) (q : Path) (hq : d.target fp ≠ some q) :
    ((d.toFile env fp enc fs).final fs).node q = fs.node q := by
  rcases d.toFile_shape env fp enc fs with ⟨h, -⟩ | ⟨p, hp, -, ⟨e, -, h⟩ | ⟨b, n, -, -, -, h⟩ | ⟨b, -, -, h⟩⟩
  · rw [Attempt.final, h]; rfl
  all_goals
    have hne : q ≠ p := fun h => hq (h ▸ hp)
    rw [h, Attempt.final]
  · exact (apply_truncate p [] fs).2.1 q hne
  · exact (apply_truncate p _ fs).2.1 q hne
  · exact (apply_truncate p _ fs).2.1 q hne

/-- Without any path saving raises an exception and changes nothing. -/
theorem C27_no_path (d : Doc) (env : Env) (enc : Option Codec) (fs : FS) (h : d.filePath = none) :
    d.toFile env none enc fs = ⟨[], .error .exception⟩ := by
  rw [Doc.toFile_eq, Doc.target, h]

/-- A save that succeeds leaves the complete text in the file. -/
theorem C27_content (d : Doc) (env : Env) (fp : Option Path) (enc : Option Codec) (fs : FS)
    (h : (d.toFile env fp enc fs).outcome = .ok ()) :
    ∃ p b, d.target fp = some p ∧ d.bytes env enc = some b ∧ ((d.toFile env fp enc fs).final fs).node p = some (.file b) := by
  rcases d.toFile_shape env fp enc fs with ⟨-, ⟨e, h'⟩, -⟩ | ⟨p, hp, -, ⟨e, -, h'⟩ | ⟨b, n, -, -, -, h'⟩ | ⟨b, hb, -, h'⟩⟩
  · rw [h] at h'; cases h'
  · rw [h'] at h; cases h
  · rw [h'] at h; cases h
  · refine ⟨p, b, hp, hb, ?_⟩
    rw [h', Attempt.final, (apply_truncate p _ fs).1, env.chunks_flatten]

/-- A save succeeds if there is a path that can be opened, the object can be written as text, the text can be encoded and there is
room on the device. -/
theorem C27_success (d : Doc) (env : Env) (fp : Option Path) (enc : Option Codec) (fs : FS) (p : Path) (b : Bytes)
    (hp : d.target fp = some p) (ho : Openable fs p) (hb : d.bytes env enc = some b) (hf : env.full = none) :
    (d.toFile env fp enc fs).outcome = .ok () := by
  rcases d.toFile_shape env fp enc fs with ⟨-, -, h'⟩ | ⟨p', hp', -, ⟨e, hb', h'⟩ | ⟨b', n, -, -, hn, h'⟩ | ⟨b', hb', -, h'⟩⟩
  · exact absurd ho (h' p hp)
  · rw [hb] at hb'; cases hb'
  · rw [hf] at hn; cases hn
  · rw [h']

theorem FileM.bind_ok {α β : Type} {m : FileM α} {f : α → FileM β} {fs fs' : FS} {b : β} (h : (m >>= f) fs = (.ok b, fs')) :
    ∃ a fs1, m fs = (.ok a, fs1) ∧ f a fs1 = (.ok b, fs') := by
  change (match m fs with | (.ok a, fs') => f a fs' | (.error e, fs') => (.error e, fs')) = _ at h
  cases hm : m fs with
  | mk r fs1 =>
    rw [hm] at h
    cases r with
    | ok a => exact ⟨a, fs1, rfl, h⟩
    | error e => cases h

/-- An object loaded from a file knows its path, and saving it without a path goes there. -/
theorem C27_LibTable_remembers (env : Env) (p : Path) (enc : Option Codec) (fs fs' : FS) (o : LibTable)
    (h : LibTable.fromFile env p enc fs = (.ok o, fs')) : o.filePath = some p ∧ (Doc.libTable o).target none = some p := by
  obtain ⟨text, fs1, -, h⟩ := FileM.bind_ok h
  obtain ⟨item, fs2, -, h⟩ := FileM.bind_ok h
  cases h
  exact ⟨rfl, rfl⟩

/-- An object loaded from a file knows its path, and saving it without a path goes there. -/
theorem C27_DesignRules_remembers (env : Env) (p : Path) (enc : Option Codec) (fs fs' : FS) (o : DesignRules)
    (h : DesignRules.fromFile env p enc fs = (.ok o, fs')) : o.filePath = some p ∧ (Doc.designRules o).target none = some p := by
  obtain ⟨text, fs1, -, h⟩ := FileM.bind_ok h
  obtain ⟨item, fs2, -, h⟩ := FileM.bind_ok h
  cases h
  exact ⟨rfl, rfl⟩

/-- An object loaded from a file knows its path, and saving it without a path goes there. -/
theorem C27_WorkSheet_remembers (env : Env) (p : Path) (enc : Option Codec) (fs fs' : FS) (o : WorkSheet)
    (h : WorkSheet.fromFile env p enc fs = (.ok o, fs')) : o.filePath = some p ∧ (Doc.workSheet o).target none = some p := by
  obtain ⟨text, fs1, -, h⟩ := FileM.bind_ok h
  obtain ⟨item, fs2, -, h⟩ := FileM.bind_ok h
  cases h
  exact ⟨rfl, rfl⟩

/-- An object loaded from a file knows its path, and saving it without a path goes there. -/
theorem C27_SymbolLib_remembers (env : Env) (p : Path) (enc : Option Codec) (fs fs' : FS) (o : SymbolLib)
    (h : SymbolLib.fromFile env p enc fs = (.ok o, fs')) : o.filePath = some p ∧ (Doc.symbolLib o).target none = some p := by
  obtain ⟨text, fs1, -, h⟩ := FileM.bind_ok h
  obtain ⟨item, fs2, -, h⟩ := FileM.bind_ok h
  cases h
  exact ⟨rfl, rfl⟩

/-- An object loaded from a file knows its path, and saving it without a path goes there. -/
theorem C27_Schematic_remembers (env : Env) (p : Path) (enc : Option Codec) (fs fs' : FS) (o : Schematic)
    (h : Schematic.fromFile env p enc fs = (.ok o, fs')) : o.filePath = some p ∧ (Doc.schematic o).target none = some p := by
  obtain ⟨text, fs1, -, h⟩ := FileM.bind_ok h
  obtain ⟨item, fs2, -, h⟩ := FileM.bind_ok h
  cases h
  exact ⟨rfl, rfl⟩

/-- An object loaded from a file knows its path, and saving it without a path goes there. -/
theorem C27_Board_remembers (env : Env) (tedit : Val) (p : Path) (enc : Option Codec) (fs fs' : FS) (o : Board)
    (h : Board.fromFile env tedit p enc fs = (.ok o, fs')) : o.filePath = some p ∧ (Doc.board o).target none = some p := by
  obtain ⟨text, fs1, -, h⟩ := FileM.bind_ok h
  obtain ⟨item, fs2, -, h⟩ := FileM.bind_ok h
  cases h
  exact ⟨rfl, rfl⟩

theorem Footprint.step_path (o : Footprint) (x : Val) (o' : Footprint) (hp : o.filePath = none) (hs : Footprint.step o x = .ok o') :
    o'.filePath = none := by
  suffices h : Post (Footprint.step o x) (fun o => o.filePath = none) from h o' hs
  unfold Footprint.step
  cases x <;> simp only
  all_goals post
  all_goals exact hp

theorem Footprint.fromSexpr_path (tedit v : Val) (o : Footprint) (h : Footprint.fromSexpr tedit v = .ok o) : o.filePath = none := by
  rw [Footprint.fromSexpr.eq_def] at h
  split at h
  · split at h
    · split at h
      · refine forM_inv (P := fun o => o.filePath = none) Footprint.step_path _ _ o ?_ h
        unfold Footprint.setLibId
        repeat' split
        all_goals rfl
      · cases h
    · cases h
  · cases h
  · cases h

/-- A footprint loaded from a file has forgotten where it came from: saving it without a path raises. -/
theorem C27_Footprint_violated (env env' : Env) (tedit : Val) (p : Path) (enc enc' : Option Codec) (fs fs' fs'' : FS) (o : Footprint)
    (h : Footprint.fromFile env tedit p enc fs = (.ok o, fs')) :
    o.filePath = none ∧ o.toFile env' none enc' fs'' = ⟨[], .error .exception⟩ := by
  obtain ⟨text, fs1, -, h⟩ := FileM.bind_ok h
  have hp : o.filePath = none := by
    have h : (parseSexp text >>= Footprint.fromSexpr tedit) = .ok o := by
      have := congrArg Prod.fst h
      exact this
    cases ht : parseSexp text with
    | error e => rw [ht] at h; cases h
    | ok v =>
      rw [ht, ok_bind] at h
      exact Footprint.fromSexpr_path tedit v o h
  exact ⟨hp, C27_no_path (.footprint o) env' enc' fs'' hp⟩

/-! ## C28: failing saves -/

/-- If the object cannot be written as text, the target is empty afterwards. -/
theorem C28_violated (d : Doc) (env : Env) (fp : Option Path) (enc : Option Codec) (fs : FS) (p : Path) (e : PyErr)
    (hp : d.target fp = some p) (ho : Openable fs p) (h : d.text = .error e) :
    (d.toFile env fp enc fs).outcome = .error e ∧ ((d.toFile env fp enc fs).final fs).node p = some (.file []) := by
  rw [Doc.toFile_eq, hp, h]
  have h : writeFile env p (d.passed enc) (.error e) fs = ⟨[.truncate p], .error e⟩ := if_pos ((openable_iff fs p).mpr ho)
  show (writeFile env p (d.passed enc) (.error e) fs).outcome = _ ∧ ((writeFile env p (d.passed enc) (.error e) fs).final fs).node p = _
  rw [h]
  exact ⟨rfl, set_node fs p _⟩

/-- The same if the text cannot be encoded. -/
theorem C28_encoding_violated (d : Doc) (env : Env) (fp : Option Path) (enc : Option Codec) (fs : FS) (p : Path)
    (hp : d.target fp = some p) (ho : Openable fs p) (h : d.bytes env enc = none) :
    (∃ e, (d.toFile env fp enc fs).outcome = .error e) ∧ ((d.toFile env fp enc fs).final fs).node p = some (.file []) := by
  rcases d.toFile_shape env fp enc fs with ⟨-, -, h'⟩ | ⟨p', hp', -, ⟨e, hb', h'⟩ | ⟨b', n, hb', -, hn, h'⟩ | ⟨b', hb', -, h'⟩⟩
  · exact absurd ho (h' p hp)
  · rw [hp] at hp'
    cases hp'
    rw [h']
    exact ⟨⟨e, rfl⟩, set_node fs p _⟩
  · rw [h] at hb'; cases hb'
  · rw [h] at hb'; cases hb'

/-- Saves that fail without an openable target change nothing. -/
theorem C28_partial (d : Doc) (env : Env) (fp : Option Path) (enc : Option Codec) (fs : FS)
    (h : ∀ p, d.target fp = some p → ¬ Openable fs p) :
    (∃ e, (d.toFile env fp enc fs).outcome = .error e) ∧ (d.toFile env fp enc fs).final fs = fs := by
  rcases d.toFile_shape env fp enc fs with ⟨hs, he, -⟩ | ⟨p, hp, ho, -⟩
  · exact ⟨he, by rw [Attempt.final, hs]; rfl⟩
  · exact absurd ho (h p hp)

/-- An environment with everything in one portion. -/
def Env.simple (c : Codec) (crlf : Bool) : Env := ⟨c, crlf, fun b => [b], by simp, none⟩
/-- A file system with two files, everything else absent. -/
def FS.two (p q : Path) (x y : Bytes) : FS :=
  ⟨fun r => if r = p then some (.file x) else if r = q then some (.file y) else none, fun _ => true, fun _ => true⟩

/-- A board with a zone without layers cannot be saved and destroys its file. -/
example : (((Doc.board { zones := [{ sampleZone with layers := [] }], filePath := some k!"a" }).toFile
    (Env.simple .utf8 false) none none (FS.two k!"a" k!"b" [1, 2] [3])).final (FS.two k!"a" k!"b" [1, 2] [3])).node k!"a" =
      some (.file []) :=
  (C28_violated _ _ _ _ _ k!"a" .exception rfl ⟨rfl, (by intro h; cases h)⟩ rfl).2

/-! ## C29: crash points -/

/-- The process may die between any two steps. Then no other file has changed, and the target has its old content, or (from the first
step on) a prefix of the complete file. -/
theorem C29_crash (d : Doc) (env : Env) (fp : Option Path) (enc : Option Codec) (fs : FS) (n : Nat) :
    let fs' := applySteps fs ((d.toFile env fp enc fs).steps.take n)
    (∀ q, d.target fp ≠ some q → fs'.node q = fs.node q) ∧
    ∀ p, d.target fp = some p → fs'.node p = fs.node p ∧ (n = 0 ∨ ¬ Openable fs p) ∨
      ∃ x, fs'.node p = some (.file x) ∧ (x = [] ∨ ∃ b, d.bytes env enc = some b ∧ x <+: b) := by
  intro fs'
  have key : ∀ (p : Path) (bs : List Bytes) (n : Nat), applySteps fs ((Step.truncate p :: bs.map (Step.append p)).take n) =
      if n = 0 then fs else applySteps fs (Step.truncate p :: (bs.take (n - 1)).map (Step.append p)) := by
    intro p bs n
    cases n with
    | zero => rfl
    | succ n => simp [List.map_take]
  have main : ∀ (p : Path) (bs : List Bytes) (n : Nat), d.target fp = some p →
      (bs = [] ∨ ∃ b, d.bytes env enc = some b ∧ bs.flatten <+: b) →
      (∀ q, d.target fp ≠ some q → (applySteps fs ((Step.truncate p :: bs.map (Step.append p)).take n)).node q = fs.node q) ∧
      ∀ p', d.target fp = some p' →
        (applySteps fs ((Step.truncate p :: bs.map (Step.append p)).take n)).node p' = fs.node p' ∧ (n = 0 ∨ ¬ Openable fs p') ∨
        ∃ x, (applySteps fs ((Step.truncate p :: bs.map (Step.append p)).take n)).node p' = some (.file x) ∧
          (x = [] ∨ ∃ b, d.bytes env enc = some b ∧ x <+: b) := by
    intro p bs n hp hb
    rw [key]
    by_cases hn : n = 0
    · rw [if_pos hn]
      exact ⟨fun _ _ => rfl, fun p' _ => .inl ⟨rfl, .inl hn⟩⟩
    · rw [if_neg hn]
      obtain ⟨h1, h2⟩ := apply_truncate p (bs.take (n - 1)) fs
      constructor
      · intro q hq
        exact h2.1 q fun h => hq (h ▸ hp)
      · intro p' hp'
        rw [hp] at hp'
        cases hp'
        refine .inr ⟨_, h1, ?_⟩
        rcases hb with rfl | ⟨b, hb, hpre⟩
        · left; simp
        · right
          refine ⟨b, hb, List.IsPrefix.trans ?_ hpre⟩
          conv => rhs; rw [← List.take_append_drop (n - 1) bs, List.flatten_append]
          exact List.prefix_append _ _
  rcases d.toFile_shape env fp enc fs with ⟨h, -, hno⟩ | ⟨p, hp, -, ⟨e, hb, h⟩ | ⟨b, m, hb, -, -, h⟩ | ⟨b, hb, -, h⟩⟩
  · have e : fs' = fs := by
      show applySteps fs ((d.toFile env fp enc fs).steps.take n) = fs
      rw [h]; simp [applySteps]
    rw [e]
    exact ⟨fun _ _ => rfl, fun p hp => .inl ⟨rfl, .inr (hno p hp)⟩⟩
  · have e : fs' = applySteps fs ((Step.truncate p :: [].map (Step.append p)).take n) := by
      show applySteps fs ((d.toFile env fp enc fs).steps.take n) = _
      rw [h]; rfl
    rw [e]
    exact main p [] n hp (.inl rfl)
  · have e : fs' = applySteps fs ((Step.truncate p :: ((env.chunks b).take m).map (Step.append p)).take n) := by
      show applySteps fs ((d.toFile env fp enc fs).steps.take n) = _
      rw [h]
    rw [e]
    refine main p _ n hp (.inr ⟨b, hb, ?_⟩)
    have := env.chunks_flatten b
    rw [← List.take_append_drop m (env.chunks b), List.flatten_append] at this
    exact ⟨_, this⟩
  · have e : fs' = applySteps fs ((Step.truncate p :: (env.chunks b).map (Step.append p)).take n) := by
      show applySteps fs ((d.toFile env fp enc fs).steps.take n) = _
      rw [h]
    rw [e]
    refine main p _ n hp (.inr ⟨b, hb, ?_⟩)
    rw [env.chunks_flatten]
    exact List.prefix_refl b

/-- Saving is not atomic: after the first step the old content is gone. -/
theorem C29_not_atomic (d : Doc) (env : Env) (fp : Option Path) (enc : Option Codec) (fs : FS) (p : Path)
    (hp : d.target fp = some p) (ho : Openable fs p) :
    (applySteps fs ((d.toFile env fp enc fs).steps.take 1)).node p = some (.file []) := by
  rcases d.toFile_shape env fp enc fs with ⟨-, -, hno⟩ | ⟨p', hp', -, ⟨e, hb, h⟩ | ⟨b, m, hb, -, -, h⟩ | ⟨b, hb, -, h⟩⟩
  · exact absurd ho (hno p hp)
  all_goals
    rw [hp] at hp'
    cases hp'
    rw [h]
    exact set_node fs p _

theorem FileM.bind_run {α β : Type} {m : FileM α} {f : α → FileM β} {fs fs' : FS} {a : α} (h : m fs = (.ok a, fs')) :
    (m >>= f) fs = f a fs' := by
  show (match m fs with | (.ok a, fs') => f a fs' | (.error e, fs') => (.error e, fs')) = _
  rw [h]

theorem FileM.bind_err {α β : Type} {m : FileM α} {f : α → FileM β} {fs fs' : FS} {e : PyErr} (h : m fs = (.error e, fs')) :
    (m >>= f) fs = (.error e, fs') := by
  show (match m fs with | (.ok a, fs') => f a fs' | (.error e, fs') => (.error e, fs')) = _
  rw [h]

/-! ## C30: save, then load -/

/-- What is encoded can be decoded. -/
def Codec.Lawful (c : Codec) : Prop := ∀ s b, c.encode s = some b → c.decode b = some s

theorem Codec.utf8_lawful : Codec.utf8.Lawful := by
  intro s b h
  cases h
  show (s.utf8Encode).utf8Decode?.map _ = _
  rw [List.utf8Decode?_utf8Encode]
  rfl

theorem Codec.latin1_lawful : Codec.latin1.Lawful := by
  intro s b h
  unfold Codec.latin1 at h ⊢
  simp only at h ⊢
  split at h
  · rename_i hall
    cases h
    rw [List.map_map]
    congr 1
    conv => rhs; rw [← List.map_id s]
    apply List.map_congr_left
    intro c hc
    have hlt := (List.all_eq_true.mp hall) c hc
    have hlt : c.toNat < 256 := by simpa using hlt
    show Char.ofNat (UInt8.ofNat c.toNat).toNat = c
    rw [UInt8.toNat_ofNat', Nat.mod_eq_of_lt hlt, Char.ofNat_toNat]
  · cases h

theorem universal_cons {c : Char} {r : Str} (h : c ≠ '\r') : universalNewlines (c :: r) = c :: universalNewlines r := by
  rw [universalNewlines]
  · intro _ h'; exact absurd h' h
  · intro h'; exact absurd h' h

/-- Line ends written on any platform are read back on any platform. -/
theorem universal_toLines (env : Env) (s : Str) (h : '\r' ∉ s) : universalNewlines (env.toLines s) = s := by
  unfold Env.toLines
  split
  · induction s with
    | nil => rfl
    | cons c r ih =>
      have hc : c ≠ '\r' := fun e => h (by simp [e])
      have hr : '\r' ∉ r := fun e => h (by simp [e])
      rw [List.flatMap_cons]
      by_cases hn : c = '\n'
      · subst hn
        rw [if_pos rfl]
        exact congrArg ('\n' :: ·) (ih hr)
      · rw [if_neg hn]
        exact (universal_cons hc).trans (congrArg (c :: ·) (ih hr))
  · induction s with
    | nil => rfl
    | cons c r ih =>
      have hc : c ≠ '\r' := fun e => h (by simp [e])
      have hr : '\r' ∉ r := fun e => h (by simp [e])
      rw [universal_cons hc, ih hr]

/-- The file that a save has left gives its text back. -/
theorem Doc.read_back (d : Doc) (env env' : Env) (p : Path) (enc enc' : Option Codec) (fs fs' : FS)
    (hok : (d.toFile env (some p) enc fs).outcome = .ok ())
    (hl : (d.codec env enc).Lawful) (hsame : env'.codec enc' = d.codec env enc)
    (hkeep : fs'.node p = ((d.toFile env (some p) enc fs).final fs).node p) (hr : fs'.canRead p = true)
    (hcr : ∀ s, d.text = .ok s → '\r' ∉ s) :
    ∃ s, d.text = .ok s ∧ readFile env' p enc' fs' = (.ok s, fs') := by
  obtain ⟨p', b, hp, hb, hn⟩ := C27_content d env (some p) enc fs hok
  cases hp
  rw [hn] at hkeep
  unfold bytes at hb
  cases hs : d.text with
  | error e => rw [hs] at hb; cases hb
  | ok s =>
    rw [hs] at hb
    have hd := hl _ _ hb
    refine ⟨s, rfl, ?_⟩
    unfold readFile
    rw [hkeep]
    simp only [hr, if_true, hsame, hd]
    have := universal_toLines env s (hcr s hs)
    unfold Env.toLines at this
    rw [this]

theorem LibTable.withPath {a b : LibTable} (h : PyEq.eq a b) (x : Option Path) :
    PyEq.eq { a with filePath := x } { b with filePath := x } :=
  ⟨h.1, h.2.1, by cases x <;> trivial, trivial⟩

theorem C30_LibTable [TextRule] (o : LibTable) (h : o.WF) (env env' : Env) (p : Path) (enc : Option Codec) (enc' : Option Codec) (fs fs' : FS)
    (hok : (o.toFile env (some p) enc fs).outcome = .ok ()) (hl : (env.codec enc).Lawful) (hsame : env'.codec enc' = (env.codec enc))
    (hkeep : fs'.node p = ((o.toFile env (some p) enc fs).final fs).node p) (hr : fs'.canRead p = true)
    (hcr : '\r' ∉ o.toSexpr) :
    ∃ o', LibTable.fromFile env' p enc' fs' = (.ok o', fs') ∧
      PyEq.eq { o with filePath := some p } o' := by
  obtain ⟨s, hs, hread⟩ := Doc.read_back (.libTable o) env env' p enc enc' fs fs' hok (by rw [Doc.codec_eq]; exact hl) (by rw [Doc.codec_eq]; exact hsame) hkeep hr (by rintro s ⟨⟩; exact hcr)
  obtain ⟨o', ho', he⟩ := C13_LibTable o h 0 true
  have hs : o.toSexpr = s := by cases hs; rfl
  rw [hs, ok_bind] at ho'
  refine ⟨{ o' with filePath := some p }, ?_, LibTable.withPath he _⟩
  exact (FileM.bind_run hread).trans ((FileM.bind_run (congrArg (·, fs') ho')).trans rfl)

theorem DesignRules.withPath {a b : DesignRules} (h : PyEq.eq a b) (x : Option Path) :
    PyEq.eq { a with filePath := x } { b with filePath := x } :=
  ⟨h.1, h.2.1, by cases x <;> trivial, trivial⟩

theorem C30_DesignRules [TextRule] (o : DesignRules) (h : o.WF) (env env' : Env) (p : Path) (enc : Option Codec) (enc' : Option Codec) (fs fs' : FS)
    (hok : (o.toFile env (some p) enc fs).outcome = .ok ()) (hl : (env.codec enc).Lawful) (hsame : env'.codec enc' = (env.codec enc))
    (hkeep : fs'.node p = ((o.toFile env (some p) enc fs).final fs).node p) (hr : fs'.canRead p = true)
    (hcr : ∀ s, o.toSexpr = .ok s → '\r' ∉ s) :
    ∃ o', DesignRules.fromFile env' p enc' fs' = (.ok o', fs') ∧
      PyEq.eq { o with filePath := some p } o' := by
  obtain ⟨s, hs, hread⟩ := Doc.read_back (.designRules o) env env' p enc enc' fs fs' hok (by rw [Doc.codec_eq]; exact hl) (by rw [Doc.codec_eq]; exact hsame) hkeep hr hcr
  obtain ⟨o', ho', he⟩ := C14_DesignRules o h 0 false
  have hs : o.toSexpr = .ok s := hs
  rw [hs, ok_bind] at ho'
  refine ⟨{ o' with filePath := some p }, ?_, DesignRules.withPath he _⟩
  exact (FileM.bind_run hread).trans ((FileM.bind_run (congrArg (·, fs') ho')).trans rfl)

theorem WorkSheet.withPath {a b : WorkSheet} (h : PyEq.eq a b) (x : Option Path) :
    PyEq.eq { a with filePath := x } { b with filePath := x } :=
  ⟨h.1, h.2.1, h.2.2.1, h.2.2.2.1, by cases x <;> trivial, trivial⟩

theorem C30_WorkSheet [TextRule] (o : WorkSheet) (h : o.WF) (env env' : Env) (p : Path) (enc' : Option Codec) (fs fs' : FS)
    (hok : (o.toFile env (some p) fs).outcome = .ok ()) (hl : env.locale.Lawful) (hsame : env'.codec enc' = env.locale)
    (hkeep : fs'.node p = ((o.toFile env (some p) fs).final fs).node p) (hr : fs'.canRead p = true)
    (hcr : ∀ s, o.toSexpr = .ok s → '\r' ∉ s) :
    ∃ o', WorkSheet.fromFile env' p enc' fs' = (.ok o', fs') ∧
      PyEq.eq { o with filePath := some p } o' := by
  obtain ⟨s, hs, hread⟩ := Doc.read_back (.workSheet o) env env' p none enc' fs fs' hok (by rw [Doc.codec_eq]; exact hl) (by rw [Doc.codec_eq]; exact hsame) hkeep hr hcr
  obtain ⟨o', ho', he⟩ := C15_WorkSheet o h 0 true
  have hs : o.toSexpr = .ok s := hs
  rw [hs, ok_bind] at ho'
  refine ⟨{ o' with filePath := some p }, ?_, WorkSheet.withPath he _⟩
  exact (FileM.bind_run hread).trans ((FileM.bind_run (congrArg (·, fs') ho')).trans rfl)

theorem SymbolLib.withPath {a b : SymbolLib} (h : PyEq.eq a b) (x : Option Path) :
    PyEq.eq { a with filePath := x } { b with filePath := x } :=
  ⟨h.1, h.2.1, h.2.2.1, by cases x <;> trivial, trivial⟩

theorem C30_SymbolLib [TextRule] (o : SymbolLib) (h : o.WF) (env env' : Env) (p : Path) (enc : Option Codec) (enc' : Option Codec) (fs fs' : FS)
    (hok : (o.toFile env (some p) enc fs).outcome = .ok ()) (hl : (env.codec enc).Lawful) (hsame : env'.codec enc' = (env.codec enc))
    (hkeep : fs'.node p = ((o.toFile env (some p) enc fs).final fs).node p) (hr : fs'.canRead p = true)
    (hcr : '\r' ∉ o.toSexpr) :
    ∃ o', SymbolLib.fromFile env' p enc' fs' = (.ok o', fs') ∧
      PyEq.eq { o with filePath := some p } o' := by
  obtain ⟨s, hs, hread⟩ := Doc.read_back (.symbolLib o) env env' p enc enc' fs fs' hok (by rw [Doc.codec_eq]; exact hl) (by rw [Doc.codec_eq]; exact hsame) hkeep hr (by rintro s ⟨⟩; exact hcr)
  obtain ⟨o', ho', he⟩ := C16_SymbolLib o h 0 true
  have hs : o.toSexpr = s := by cases hs; rfl
  rw [hs, ok_bind] at ho'
  refine ⟨{ o' with filePath := some p }, ?_, SymbolLib.withPath he _⟩
  exact (FileM.bind_run hread).trans ((FileM.bind_run (congrArg (·, fs') ho')).trans rfl)

theorem Schematic.withPath {a b : Schematic} (h : PyEq.eq a b) (x : Option Path) :
    PyEq.eq { a with filePath := x } { b with filePath := x } :=
  ⟨h.1, h.2.1, h.2.2.1, h.2.2.2.1, h.2.2.2.2.1, h.2.2.2.2.2.1, h.2.2.2.2.2.2.1, h.2.2.2.2.2.2.2.1, h.2.2.2.2.2.2.2.2.1, h.2.2.2.2.2.2.2.2.2.1, h.2.2.2.2.2.2.2.2.2.2.1, h.2.2.2.2.2.2.2.2.2.2.2.1, h.2.2.2.2.2.2.2.2.2.2.2.2.1, h.2.2.2.2.2.2.2.2.2.2.2.2.2.1, h.2.2.2.2.2.2.2.2.2.2.2.2.2.2.1, h.2.2.2.2.2.2.2.2.2.2.2.2.2.2.2.1, h.2.2.2.2.2.2.2.2.2.2.2.2.2.2.2.2.1, h.2.2.2.2.2.2.2.2.2.2.2.2.2.2.2.2.2.1, h.2.2.2.2.2.2.2.2.2.2.2.2.2.2.2.2.2.2.1, h.2.2.2.2.2.2.2.2.2.2.2.2.2.2.2.2.2.2.2.1, h.2.2.2.2.2.2.2.2.2.2.2.2.2.2.2.2.2.2.2.2.1, h.2.2.2.2.2.2.2.2.2.2.2.2.2.2.2.2.2.2.2.2.2.1, h.2.2.2.2.2.2.2.2.2.2.2.2.2.2.2.2.2.2.2.2.2.2.1, by cases x <;> trivial, trivial⟩

theorem C30_Schematic [TextRule] (o : Schematic) (h : o.WF) (env env' : Env) (p : Path) (enc : Option Codec) (enc' : Option Codec) (fs fs' : FS)
    (hok : (o.toFile env (some p) enc fs).outcome = .ok ()) (hl : (env.codec enc).Lawful) (hsame : env'.codec enc' = (env.codec enc))
    (hkeep : fs'.node p = ((o.toFile env (some p) enc fs).final fs).node p) (hr : fs'.canRead p = true)
    (hcr : ∀ s, o.toSexpr = .ok s → '\r' ∉ s) :
    ∃ o', Schematic.fromFile env' p enc' fs' = (.ok o', fs') ∧
      PyEq.eq { o with
        junctions := o.junctions.map fun j => { j with diameter := .int 0 }
        sheets := o.sheets.map fun s => { s with fill := { s.fill with precision := some 4 } }
        filePath := some p } o' := by
  obtain ⟨s, hs, hread⟩ := Doc.read_back (.schematic o) env env' p enc enc' fs fs' hok (by rw [Doc.codec_eq]; exact hl) (by rw [Doc.codec_eq]; exact hsame) hkeep hr hcr
  obtain ⟨o', ho', he⟩ := C17_Schematic o h 0 true
  have hs : o.toSexpr = .ok s := hs
  rw [hs, ok_bind] at ho'
  refine ⟨{ o' with filePath := some p }, ?_, Schematic.withPath he _⟩
  exact (FileM.bind_run hread).trans ((FileM.bind_run (congrArg (·, fs') ho')).trans rfl)

theorem C30_Footprint [TextRule] (o : Footprint) (h : o.WF) (env env' : Env) (tedit : Val) (p : Path) (enc : Option Codec) (enc' : Option Codec) (fs fs' : FS)
    (hok : (o.toFile env (some p) enc fs).outcome = .ok ()) (hl : (env.codec enc).Lawful) (hsame : env'.codec enc' = (env.codec enc))
    (hkeep : fs'.node p = ((o.toFile env (some p) enc fs).final fs).node p) (hr : fs'.canRead p = true)
    (hcr : ∀ s, o.toSexpr = .ok s → '\r' ∉ s) :
    ∃ o', Footprint.fromFile env' tedit p enc' fs' = (.ok o', fs') ∧
      PyEq.eq { o with filePath := none } o' := by
  obtain ⟨s, hs, hread⟩ := Doc.read_back (.footprint o) env env' p enc enc' fs fs' hok (by rw [Doc.codec_eq]; exact hl) (by rw [Doc.codec_eq]; exact hsame) hkeep hr hcr
  obtain ⟨o', ho', he⟩ := C18_Footprint o h tedit 0 true false
  have hs : o.toSexpr = .ok s := hs
  rw [hs, ok_bind] at ho'
  refine ⟨o', ?_, he⟩
  exact (FileM.bind_run hread).trans (congrArg (·, fs') ho')

theorem Board.withPath {a b : Board} (h : PyEq.eq a b) (x : Option Path) :
    PyEq.eq { a with filePath := x } { b with filePath := x } :=
  ⟨h.1, h.2.1, h.2.2.1, h.2.2.2.1, h.2.2.2.2.1, h.2.2.2.2.2.1, h.2.2.2.2.2.2.1, h.2.2.2.2.2.2.2.1, h.2.2.2.2.2.2.2.2.1, h.2.2.2.2.2.2.2.2.2.1, h.2.2.2.2.2.2.2.2.2.2.1, h.2.2.2.2.2.2.2.2.2.2.2.1, h.2.2.2.2.2.2.2.2.2.2.2.2.1, h.2.2.2.2.2.2.2.2.2.2.2.2.2.1, h.2.2.2.2.2.2.2.2.2.2.2.2.2.2.1, h.2.2.2.2.2.2.2.2.2.2.2.2.2.2.2.1, by cases x <;> trivial, trivial⟩

theorem C30_Board [TextRule] (o : Board) (h : o.WF) (env env' : Env) (tedit : Val) (p : Path) (enc : Option Codec) (enc' : Option Codec) (fs fs' : FS)
    (hok : (o.toFile env (some p) enc fs).outcome = .ok ()) (hl : (env.codec enc).Lawful) (hsame : env'.codec enc' = (env.codec enc))
    (hkeep : fs'.node p = ((o.toFile env (some p) enc fs).final fs).node p) (hr : fs'.canRead p = true)
    (hcr : ∀ s, o.toSexpr = .ok s → '\r' ∉ s) :
    ∃ o', Board.fromFile env' tedit p enc' fs' = (.ok o', fs') ∧
      PyEq.eq { o with
        setup := { o.setup with plotSettings := o.setup.plotSettings.map fun p => { p with useAuxOrigin := false } }
        footprints := o.footprints.map fun f => { f with filePath := none }
        filePath := some p } o' := by
  obtain ⟨s, hs, hread⟩ := Doc.read_back (.board o) env env' p enc enc' fs fs' hok (by rw [Doc.codec_eq]; exact hl) (by rw [Doc.codec_eq]; exact hsame) hkeep hr hcr
  obtain ⟨o', ho', he⟩ := C19_Board o h tedit 0 true
  have hs : o.toSexpr = .ok s := hs
  rw [hs, ok_bind] at ho'
  refine ⟨{ o' with filePath := some p }, ?_, Board.withPath he _⟩
  exact (FileM.bind_run hread).trans ((FileM.bind_run (congrArg (·, fs') ho')).trans rfl)

/-! The hypotheses are met: a worksheet in Latin-1 on Windows, loaded on another platform; the other classes have the same
hypotheses. -/

def noCR : PyM Str → Bool
  | .ok s => !s.contains '\r'
  | .error _ => true

theorem noCR_iff {m : PyM Str} (h : noCR m = true) : ∀ s, m = .ok s → '\r' ∉ s := by
  rintro s rfl
  simpa [noCR] using h

theorem save_ok (d : Doc) (env : Env) (p : Path) (enc : Option Codec) (fs : FS) (hf : env.full = none) (ho : Openable fs p)
    (hb : (d.bytes env enc).isSome = true) : (d.toFile env (some p) enc fs).outcome = .ok () := by
  obtain ⟨b, hb⟩ := Option.isSome_iff_exists.mp hb
  exact C27_success d env (some p) enc fs p b rfl ho hb hf

theorem save_canRead (d : Doc) (env : Env) (fp : Option Path) (enc : Option Codec) (fs : FS) (p : Path) (h : fs.canRead p = true) :
    ((d.toFile env fp enc fs).final fs).canRead p = true := by
  rcases d.toFile_shape env fp enc fs with ⟨h', -⟩ | ⟨p, -, -, ⟨e, -, h'⟩ | ⟨b, n, -, -, -, h'⟩ | ⟨b, -, -, h'⟩⟩
  · rw [Attempt.final, h']; exact h
  · rw [h']; exact h
  · rw [h', Attempt.final]; rw [(apply_truncate p _ fs).2.2.1]; exact h
  · rw [h', Attempt.final]; rw [(apply_truncate p _ fs).2.2.1]; exact h

theorem ok_zero : NumOk (fl k!"0" k!"0") :=
  ⟨false, k!"0", k!"0", by decide, by decide, by decide, by decide, by rfl, rfl⟩

def smallSchematic : Schematic :=
  { version := .int 20211014, generator := .str k!"5e1f-00", uuid := some (.str k!"word"), paper := samplePageSettings, junctions := [sampleJunction], noConnects := [sampleNoConnect], labels := [sampleLocalLabel], filePath := some k!"/a/b.kicad_sch" }
theorem smallSchematic_wf : smallSchematic.WF :=
  { version := (.inl (ok_int (by decide))),
    generator := (.inr (by tokOk)),
    uuid := (by optOk; exact by tokOk),
    paper := (samplePageSettings_wf),
    titleBlock := (by intro _ h; cases h),
    libSymbols := (by intro _ h; cases h),
    junctions := (by listOk; (· exact sampleJunction_wf)),
    noConnects := (by listOk; (· exact sampleNoConnect_wf)),
    busEntries := (by intro _ h; cases h),
    busAliases := (by intro _ h; cases h),
    graphicalItems := (by intro _ h; cases h),
    shapes := (by intro _ h; cases h),
    images := (by intro _ h; cases h),
    textBoxes := (by intro _ h; cases h),
    texts := (by intro _ h; cases h),
    labels := (by listOk; (· exact sampleLocalLabel_wf)),
    globalLabels := (by intro _ h; cases h),
    hierarchicalLabels := (by intro _ h; cases h),
    netclassFlags := (by intro _ h; cases h),
    schematicSymbols := (by intro _ h; cases h),
    sheets := (by intro _ h; cases h),
    sheetInstances := (by intro _ h; cases h),
    symbolInstances := (by intro _ h; cases h) }

def smallFootprint : Footprint :=
  { libraryNickname := none, entryName := some (.str k!"R_0603"), version := some (.str k!"5e1f-00"), layer := .str k!"a \"b\" (c)", tedit := .str k!"5f12ab34", tags := some (.str k!"a \"b\" (c)"), attributes := sampleAttributes, models := [sampleModel], properties := [(.str k!"a", .str k!"x"), (.str k!"b", .str k!"y \"z\"")] }
theorem smallFootprint_wf : smallFootprint.WF :=
  { id := (.plain k!"R_0603" (by decide) (by decide)),
    version := (by optOk; exact .inr (by tokOk)),
    generator := (by intro _ h; cases h),
    layer := (by textOk),
    tedit := (.inr (by tokOk)),
    tstamp := (by intro _ h; cases h),
    position := (by intro _ h; cases h),
    description := (by intro _ h; cases h),
    tags := (by optOk; exact by textOk),
    propertyNames := (by listOk <;> textOk),
    properties := (by listOk <;> textOk),
    distinct := (by pairOk),
    path := (by intro _ h; cases h),
    autoplaceCost90 := (by intro _ h; cases h),
    autoplaceCost180 := (by intro _ h; cases h),
    solderMaskMargin := (by intro _ h; cases h),
    solderPasteMargin := (by intro _ h; cases h),
    solderPasteRatio := (by intro _ h; cases h),
    clearance := (by intro _ h; cases h),
    zoneConnect := (by intro _ h; cases h),
    thermalWidth := (by intro _ h; cases h),
    thermalGap := (by intro _ h; cases h),
    attributes := (sampleAttributes_wf),
    privateLayers := (by intro _ h; cases h),
    netTiePadGroups := (by intro _ h; cases h),
    graphicItems := (by intro _ h; cases h),
    pads := (by intro _ h; cases h),
    zones := (by intro _ h; cases h),
    models := (by listOk; (· exact sampleModel_wf)),
    groups := (by intro _ h; cases h) }

def smallBoard : Board :=
  { version := .int 20211014, generator := .str k!"5e1f-00", general := sampleGeneralSettings, paper := samplePageSettings, layers := [sampleLayerToken], nets := [sampleNet], properties := [(.str k!"a", .str k!"x"), (.str k!"b", .str k!"y \"z\"")], traceItems := [.segment sampleSegment, .arc sampleTraceArc, .via sampleVia] }
theorem smallBoard_wf : smallBoard.WF :=
  { version := (.inl (ok_int (by decide))),
    generator := (.inr (by tokOk)),
    general := (sampleGeneralSettings_wf),
    paper := (samplePageSettings_wf),
    titleBlock := (by intro _ h; cases h),
    layers := (by listOk; (· exact sampleLayerToken_wf)),
    setup := (by constructor <;> first | (intro v hv; cases hv) | exact ok_zero),
    propertyNames := (by listOk <;> textOk),
    properties := (by listOk <;> textOk),
    distinct := (by pairOk),
    nets := (by listOk; (· exact sampleNet_wf)),
    footprints := (by intro _ h; cases h),
    graphicItems := (by intro _ h; cases h),
    dimensions := (by intro _ h; cases h),
    targets := (by intro _ h; cases h),
    traceItems := (by listOk; (· exact sampleSegment_wf); (· exact sampleTraceArc_wf); (· exact sampleVia_wf)),
    zones := (by intro _ h; cases h),
    groups := (by intro _ h; cases h) }

theorem two_openable (p q : Path) (x y : Bytes) : Openable (FS.two p q x y) p :=
  ⟨rfl, by simp [FS.two]⟩

set_option maxRecDepth 100000 in
example := C30_LibTable sampleLibTable sampleLibTable_wf (Env.simple .latin1 true) (Env.simple .latin1 false) k!"a" none none (FS.two k!"a" k!"b" [1] [2]) _
  (save_ok (.libTable sampleLibTable) _ k!"a" none _ rfl (two_openable _ _ _ _) (by decide +kernel)) Codec.latin1_lawful rfl rfl
  (save_canRead (.libTable sampleLibTable) _ _ _ _ _ rfl) (by decide +kernel)
set_option maxRecDepth 100000 in
example := C30_DesignRules sampleDesignRules sampleDesignRules_wf (Env.simple .latin1 true) (Env.simple .latin1 false) k!"a" none none (FS.two k!"a" k!"b" [1] [2]) _
  (save_ok (.designRules sampleDesignRules) _ k!"a" none _ rfl (two_openable _ _ _ _) (by decide +kernel)) Codec.latin1_lawful rfl rfl
  (save_canRead (.designRules sampleDesignRules) _ _ _ _ _ rfl) (noCR_iff (by decide +kernel))
set_option maxRecDepth 100000 in
example := C30_WorkSheet sampleWorkSheet sampleWorkSheet_wf (Env.simple .latin1 true) (Env.simple .latin1 false) k!"a"  none (FS.two k!"a" k!"b" [1] [2]) _
  (save_ok (.workSheet sampleWorkSheet) _ k!"a" none _ rfl (two_openable _ _ _ _) (by decide +kernel)) Codec.latin1_lawful rfl rfl
  (save_canRead (.workSheet sampleWorkSheet) _ _ none _ _ rfl) (noCR_iff (by decide +kernel))
set_option maxRecDepth 100000 in
example := C30_SymbolLib sampleSymbolLib sampleSymbolLib_wf (Env.simple .latin1 true) (Env.simple .latin1 false) k!"a" none none (FS.two k!"a" k!"b" [1] [2]) _
  (save_ok (.symbolLib sampleSymbolLib) _ k!"a" none _ rfl (two_openable _ _ _ _) (by decide +kernel)) Codec.latin1_lawful rfl rfl
  (save_canRead (.symbolLib sampleSymbolLib) _ _ _ _ _ rfl) (by decide +kernel)
set_option maxRecDepth 100000 in
example := C30_Schematic smallSchematic smallSchematic_wf (Env.simple .latin1 true) (Env.simple .latin1 false) k!"a" none none (FS.two k!"a" k!"b" [1] [2]) _
  (save_ok (.schematic smallSchematic) _ k!"a" none _ rfl (two_openable _ _ _ _) (by decide +kernel)) Codec.latin1_lawful rfl rfl
  (save_canRead (.schematic smallSchematic) _ _ _ _ _ rfl) (noCR_iff (by decide +kernel))
set_option maxRecDepth 100000 in
example := C30_Footprint smallFootprint smallFootprint_wf (Env.simple .latin1 true) (Env.simple .latin1 false) (.str k!"0") k!"a" none none (FS.two k!"a" k!"b" [1] [2]) _
  (save_ok (.footprint smallFootprint) _ k!"a" none _ rfl (two_openable _ _ _ _) (by decide +kernel)) Codec.latin1_lawful rfl rfl
  (save_canRead (.footprint smallFootprint) _ _ _ _ _ rfl) (noCR_iff (by decide +kernel))
set_option maxRecDepth 100000 in
example := C30_Board smallBoard smallBoard_wf (Env.simple .latin1 true) (Env.simple .latin1 false) (.str k!"0") k!"a" none none (FS.two k!"a" k!"b" [1] [2]) _
  (save_ok (.board smallBoard) _ k!"a" none _ rfl (two_openable _ _ _ _) (by decide +kernel)) Codec.latin1_lawful rfl rfl
  (save_canRead (.board smallBoard) _ _ _ _ _ rfl) (noCR_iff (by decide +kernel))

/-! Cases for C27–C29: a library table is saved on Windows in Latin-1 and opened again; and one with a letter that is not in Latin-1. -/

example : ((Doc.libTable sampleLibTable).toFile (Env.simple .latin1 true) (some k!"a") none (FS.two k!"a" k!"b" [1] [2]) |>.final
    (FS.two k!"a" k!"b" [1] [2])).node k!"b" = some (.file [2]) :=
  C27_only_target (.libTable sampleLibTable) (Env.simple .latin1 true) (some k!"a") none (FS.two k!"a" k!"b" [1] [2]) k!"b" (by decide)
example := C27_no_path (.libTable {}) (Env.simple .latin1 true) none (FS.two k!"a" k!"b" [1] [2]) rfl
set_option maxRecDepth 100000 in
example := C27_content (.libTable sampleLibTable) (Env.simple .latin1 true) (some k!"a") none (FS.two k!"a" k!"b" [1] [2])
  (save_ok (.libTable sampleLibTable) _ k!"a" none _ rfl (two_openable _ _ _ _) (by decide +kernel))
example (b : Bytes) (hb : (Doc.libTable sampleLibTable).bytes (Env.simple .latin1 true) none = some b) :=
  C27_success (.libTable sampleLibTable) (Env.simple .latin1 true) (some k!"a") none (FS.two k!"a" k!"b" [1] [2]) k!"a" b rfl (two_openable _ _ _ _) hb rfl
example := C28_encoding_violated (.libTable { libs := [{ description := .str k!"Ω" }] }) (Env.simple .latin1 true) (some k!"a") none
  (FS.two k!"a" k!"b" [1] [2]) k!"a" rfl (two_openable _ _ _ _) (by decide +kernel)
example := C29_not_atomic (.libTable sampleLibTable) (Env.simple .latin1 true) (some k!"a") none (FS.two k!"a" k!"b" [1] [2]) k!"a" rfl (two_openable _ _ _ _)
set_option maxRecDepth 100000 in
example : ∃ (env : Env) (p : Path) (enc : Option Codec) (fs fs' : FS) (o : LibTable), LibTable.fromFile env p enc fs = (.ok o, fs') :=
  Exists.elim (C30_LibTable sampleLibTable sampleLibTable_wf (Env.simple .latin1 true) (Env.simple .latin1 false) k!"a" none none (FS.two k!"a" k!"b" [1] [2]) _
  (save_ok (.libTable sampleLibTable) _ k!"a" none _ rfl (two_openable _ _ _ _) (by decide +kernel)) Codec.latin1_lawful rfl rfl
  (save_canRead (.libTable sampleLibTable) _ _ _ _ _ rfl) (by decide +kernel)) fun o h => ⟨_, _, _, _, _, o, h.1⟩
set_option maxRecDepth 100000 in
example : ∃ (env : Env) (p : Path) (enc : Option Codec) (fs fs' : FS) (o : DesignRules), DesignRules.fromFile env p enc fs = (.ok o, fs') :=
  Exists.elim (C30_DesignRules sampleDesignRules sampleDesignRules_wf (Env.simple .latin1 true) (Env.simple .latin1 false) k!"a" none none (FS.two k!"a" k!"b" [1] [2]) _
  (save_ok (.designRules sampleDesignRules) _ k!"a" none _ rfl (two_openable _ _ _ _) (by decide +kernel)) Codec.latin1_lawful rfl rfl
  (save_canRead (.designRules sampleDesignRules) _ _ _ _ _ rfl) (noCR_iff (by decide +kernel))) fun o h => ⟨_, _, _, _, _, o, h.1⟩
set_option maxRecDepth 100000 in
example : ∃ (env : Env) (p : Path) (enc : Option Codec) (fs fs' : FS) (o : WorkSheet), WorkSheet.fromFile env p enc fs = (.ok o, fs') :=
  Exists.elim (C30_WorkSheet sampleWorkSheet sampleWorkSheet_wf (Env.simple .latin1 true) (Env.simple .latin1 false) k!"a"  none (FS.two k!"a" k!"b" [1] [2]) _
  (save_ok (.workSheet sampleWorkSheet) _ k!"a" none _ rfl (two_openable _ _ _ _) (by decide +kernel)) Codec.latin1_lawful rfl rfl
  (save_canRead (.workSheet sampleWorkSheet) _ _ none _ _ rfl) (noCR_iff (by decide +kernel))) fun o h => ⟨_, _, _, _, _, o, h.1⟩
set_option maxRecDepth 100000 in
example : ∃ (env : Env) (p : Path) (enc : Option Codec) (fs fs' : FS) (o : SymbolLib), SymbolLib.fromFile env p enc fs = (.ok o, fs') :=
  Exists.elim (C30_SymbolLib sampleSymbolLib sampleSymbolLib_wf (Env.simple .latin1 true) (Env.simple .latin1 false) k!"a" none none (FS.two k!"a" k!"b" [1] [2]) _
  (save_ok (.symbolLib sampleSymbolLib) _ k!"a" none _ rfl (two_openable _ _ _ _) (by decide +kernel)) Codec.latin1_lawful rfl rfl
  (save_canRead (.symbolLib sampleSymbolLib) _ _ _ _ _ rfl) (by decide +kernel)) fun o h => ⟨_, _, _, _, _, o, h.1⟩
set_option maxRecDepth 100000 in
example : ∃ (env : Env) (p : Path) (enc : Option Codec) (fs fs' : FS) (o : Schematic), Schematic.fromFile env p enc fs = (.ok o, fs') :=
  Exists.elim (C30_Schematic smallSchematic smallSchematic_wf (Env.simple .latin1 true) (Env.simple .latin1 false) k!"a" none none (FS.two k!"a" k!"b" [1] [2]) _
  (save_ok (.schematic smallSchematic) _ k!"a" none _ rfl (two_openable _ _ _ _) (by decide +kernel)) Codec.latin1_lawful rfl rfl
  (save_canRead (.schematic smallSchematic) _ _ _ _ _ rfl) (noCR_iff (by decide +kernel))) fun o h => ⟨_, _, _, _, _, o, h.1⟩
set_option maxRecDepth 100000 in
example : ∃ (env : Env) (p : Path) (enc : Option Codec) (fs fs' : FS) (o : Board), Board.fromFile env (.str k!"0") p enc fs = (.ok o, fs') :=
  Exists.elim (C30_Board smallBoard smallBoard_wf (Env.simple .latin1 true) (Env.simple .latin1 false) (.str k!"0") k!"a" none none (FS.two k!"a" k!"b" [1] [2]) _
  (save_ok (.board smallBoard) _ k!"a" none _ rfl (two_openable _ _ _ _) (by decide +kernel)) Codec.latin1_lawful rfl rfl
  (save_canRead (.board smallBoard) _ _ _ _ _ rfl) (noCR_iff (by decide +kernel))) fun o h => ⟨_, _, _, _, _, o, h.1⟩
set_option maxRecDepth 100000 in
example : ∃ (env : Env) (p : Path) (enc : Option Codec) (fs fs' : FS) (o : Footprint), Footprint.fromFile env (.str k!"0") p enc fs = (.ok o, fs') :=
  Exists.elim (C30_Footprint smallFootprint smallFootprint_wf (Env.simple .latin1 true) (Env.simple .latin1 false) (.str k!"0") k!"a" none none (FS.two k!"a" k!"b" [1] [2]) _
  (save_ok (.footprint smallFootprint) _ k!"a" none _ rfl (two_openable _ _ _ _) (by decide +kernel)) Codec.latin1_lawful rfl rfl
  (save_canRead (.footprint smallFootprint) _ _ _ _ _ rfl) (noCR_iff (by decide +kernel))) fun o h => ⟨_, _, _, _, _, o, h.1⟩

/-- Carriage returns do not survive: what is loaded is the text with other line ends. -/
theorem C30_carriage_return (env env' : Env) (p : Path) (enc' : Option Codec) (fs : FS) (s : Str) (b : Bytes) (hlf : env.crlf = false)
    (hn : fs.node p = some (.file b)) (hr : fs.canRead p = true) (hb : (env'.codec enc').encode (env.toLines s) = some b)
    (hl : (env'.codec enc').Lawful) : readFile env' p enc' fs = (.ok (universalNewlines s), fs) := by
  have hd := hl _ _ hb
  unfold readFile
  rw [hn]
  simp only [hr, if_true, hd, Env.toLines, hlf]
  rfl
example : universalNewlines k!"a\rb\r\nc" = k!"a\nb\nc" := rfl

/-! ## C39: histories -/

/-- The file classes. -/
inductive Kind where
  | libTable | designRules | workSheet | symbolLib | schematic | footprint | board

/-- What a program does: it saves objects and loads files, each time in some environment. -/
inductive Op where
  | save (env : Env) (d : Doc) (filepath : Option Path) (encoding : Option Codec)
  | load (env : Env) (k : Kind) (tedit : Val) (filepath : Path) (encoding : Option Codec)

/-- The file system after an operation. -/
def Op.run (fs : FS) : Op → FS
  | .save env d fp enc => (d.toFile env fp enc fs).final fs
  | .load env k tedit p enc => match k with
    | .libTable => (LibTable.fromFile env p enc fs).2
    | .designRules => (DesignRules.fromFile env p enc fs).2
    | .workSheet => (WorkSheet.fromFile env p enc fs).2
    | .symbolLib => (SymbolLib.fromFile env p enc fs).2
    | .schematic => (Schematic.fromFile env p enc fs).2
    | .footprint => (Footprint.fromFile env tedit p enc fs).2
    | .board => (Board.fromFile env tedit p enc fs).2

/-- Specification: the file that an operation leaves, if it touches one. A save that cannot make its bytes leaves an empty file, one
that runs out of space the portions it could write. -/
def Op.leaves (fs : FS) : Op → Option (Path × Bytes)
  | .save env d fp enc => match d.target fp with
    | some p =>
      if fs.openable p then match d.bytes env enc with
        | some b => match env.full with
          | some n => some (p, ((env.chunks b).take n).flatten)
          | none => some (p, b)
        | none => some (p, [])
      else none
    | none => none
  | .load .. => none

theorem readFile_fs (env : Env) (p : Path) (enc : Option Codec) (fs : FS) : (readFile env p enc fs).2 = fs := by
  unfold readFile
  repeat' split
  all_goals rfl

theorem load_fs {α β : Type} (env : Env) (p : Path) (enc : Option Codec) (fs : FS) (f : Str → PyM α) (g : α → β) :
    ((readFile env p enc >>= fun text => FileM.lift (f text) >>= fun item => (pure (g item) : FileM β)) fs).2 = fs := by
  have h := readFile_fs env p enc fs
  cases hr : readFile env p enc fs with
  | mk r fs' =>
    rw [hr] at h
    have h : fs' = fs := h
    subst h
    cases r with
    | error e => rw [FileM.bind_err hr]
    | ok a =>
      rw [FileM.bind_run hr]
      have hl : FileM.lift (f a) fs' = (f a, fs') := rfl
      cases hf : f a with
      | error e => rw [hf] at hl; rw [FileM.bind_err hl]
      | ok x => rw [hf] at hl; rw [FileM.bind_run hl]; rfl

/-- Loading never changes the file system. -/
theorem C39_load (env : Env) (k : Kind) (tedit : Val) (p : Path) (enc : Option Codec) (fs : FS) :
    (Op.load env k tedit p enc).run fs = fs := by
  cases k
  case footprint =>
    have h := readFile_fs env p enc fs
    show (Footprint.fromFile env tedit p enc fs).2 = fs
    unfold Footprint.fromFile
    cases hr : readFile env p enc fs with
    | mk r fs' =>
      rw [hr] at h
      cases r with
      | error e => rw [FileM.bind_err hr]; exact h
      | ok a => rw [FileM.bind_run hr]; exact h
  all_goals exact load_fs env p enc fs _ _

/-- What an operation does to a path, for any starting point that has the same directories and permissions. -/
theorem Op.run_node (op : Op) (fs0 fs : FS) (hd : ∀ p, fs.openable p = fs0.openable p) (q : Path) :
    (op.run fs).node q = (match op.leaves fs0 with
      | some (p, x) => if p = q then some (.file x) else fs.node q
      | none => fs.node q) ∧ ∀ p, (op.run fs).openable p = fs0.openable p := by
  cases op with
  | load env k tedit p enc =>
    rw [C39_load]
    exact ⟨rfl, hd⟩
  | save env d fp enc =>
    show ((d.toFile env fp enc fs).final fs).node q = _ ∧ ∀ p, ((d.toFile env fp enc fs).final fs).openable p = _
    have aux : ∀ (p : Path) (bs : List Bytes), fs.openable p = true →
        (applySteps fs (.truncate p :: bs.map (Step.append p))).node q = (if p = q then some (.file bs.flatten) else fs.node q) ∧
        ∀ r, (applySteps fs (.truncate p :: bs.map (Step.append p))).openable r = fs0.openable r := by
      intro p bs hp
      obtain ⟨h1, h2⟩ := apply_truncate p bs fs
      constructor
      · by_cases h : p = q
        · subst h; rw [if_pos rfl, h1]
        · rw [if_neg h, h2.1 q fun e => h e.symm]
      · intro r
        rw [← hd]
        by_cases h : r = p
        · subst h
          rw [hp]
          unfold FS.openable at hp ⊢
          rw [h1, h2.2.2]
          simp only [Bool.and_eq_true] at hp
          rw [hp.1]; rfl
        · unfold FS.openable
          rw [h2.1 r h, h2.2.2]
    unfold leaves
    rcases d.toFile_shape env fp enc fs with ⟨h, -, hno⟩ | ⟨p, hp, ho, hh⟩
    · rw [Attempt.final, h]
      refine ⟨?_, hd⟩
      cases ht : d.target fp with
      | none => simp only [ht]; rfl
      | some p =>
        have : fs0.openable p = false := by
          rw [← hd]
          cases hx : fs.openable p with
          | false => rfl
          | true => exact absurd ((openable_iff fs p).mp hx) (hno p ht)
        simp only [ht, this]
        rfl
    · have ho' : fs.openable p = true := (openable_iff fs p).mpr ho
      have ho0 : fs0.openable p = true := by rw [← hd]; exact ho'
      simp only [hp, ho0, if_true]
      rcases hh with ⟨e, hb, h⟩ | ⟨b, m, hb, -, hf, h⟩ | ⟨b, hb, hf, h⟩
      · rw [h, hb]
        exact aux p [] ho'
      · rw [h, hb, hf]
        exact aux p _ ho'
      · rw [h, hb]
        cases hf' : env.full with
        | none =>
          have := aux p (env.chunks b) ho'
          rwa [env.chunks_flatten] at this
        | some n =>
          have := aux p (env.chunks b) ho'
          simp only [List.take_of_length_le (hf n hf')]
          exact this

/-- After any sequence of saves and loads every path holds what the last save to it has left, or its original content. -/
theorem C39_history (ops : List Op) (fs : FS) (q : Path) :
    (ops.foldl Op.run fs).node q = match (ops.filterMap (Op.leaves fs)).reverse.find? (fun w => decide (w.1 = q)) with
      | some (_, x) => some (.file x)
      | none => fs.node q := by
  suffices h : ∀ fs1, (∀ p, fs1.openable p = fs.openable p) → (ops.foldl Op.run fs1).node q =
      match (ops.filterMap (Op.leaves fs)).reverse.find? (fun w => decide (w.1 = q)) with
      | some (_, x) => some (.file x)
      | none => fs1.node q from h fs fun _ => rfl
  induction ops with
  | nil => intro fs1 _; rfl
  | cons op ops ih =>
    intro fs1 hd
    obtain ⟨h1, h2⟩ := op.run_node fs fs1 hd q
    rw [List.foldl_cons, ih _ h2, h1, List.filterMap_cons]
    cases hl : op.leaves fs with
    | none => rfl
    | some w =>
      obtain ⟨p, x⟩ := w
      simp only [List.reverse_cons, List.find?_append]
      cases hf : (ops.filterMap (Op.leaves fs)).reverse.find? (fun w => decide (w.1 = q)) with
      | some w' => rfl
      | none =>
        by_cases hpq : p = q
        · simp [hpq]
        · simp [hpq]

/-! ## C44: the encoding -/

/-- A worksheet is always saved in the encoding of the platform: there is no way to ask for another one. -/
theorem C44_WorkSheet_violated (o : WorkSheet) (env : Env) (fp : Option Path) (enc enc' : Option Codec) (fs : FS) :
    (Doc.workSheet o).toFile env fp enc fs = (Doc.workSheet o).toFile env fp enc' fs ∧
    (Doc.workSheet o).bytes env enc = (Doc.workSheet o).bytes env none := ⟨rfl, rfl⟩

/-- A worksheet with one text. -/
def textSheet (t : Str) : WorkSheet :=
  { version := .int 1, setup := sampleSetup, drawingObjects := [.tbtext { sampleTbText with text := .str t }] }

theorem textSheet_wf (t : Str) (h : TextOk (.str t)) : (textSheet t).WF :=
  { version := ok_int (by decide), generator := by tokOk, setup := sampleSetup_wf,
    drawingObjects := by listOk; (exact { sampleTbText_wf with text := h }) }

set_option maxRecDepth 100000 in
/-- So a worksheet that is loaded with an encoding other than that of the platform can come back with other texts: `é` becomes `Ã©`. -/
theorem C44_WorkSheet_garbled :
    ∃ env : Env, ∃ fs : FS, ∃ o', (textSheet k!"é").WF ∧ ((textSheet k!"é").toFile env (some k!"a") fs).outcome = .ok () ∧
      (WorkSheet.fromFile env k!"a" (some .latin1) (((textSheet k!"é").toFile env (some k!"a") fs).final fs)).1 = .ok o' ∧
      PyEq.eq { textSheet k!"Ã©" with filePath := some k!"a" } o' ∧ ¬ PyEq.eq { textSheet k!"é" with filePath := some k!"a" } o' := by
  let fs := FS.two k!"a" k!"b" [1] [2]
  let env := Env.simple .utf8 false
  have hok : ((Doc.workSheet (textSheet k!"é")).toFile env (some k!"a") none fs).outcome = .ok () :=
    save_ok _ _ _ none _ rfl (two_openable _ _ _ _) (by decide +kernel)
  obtain ⟨p, b, hp, hb, hn⟩ := C27_content _ _ _ _ _ hok
  cases hp
  cases ht : (textSheet k!"Ã©").toSexpr with
  | error e =>
    have : (match (textSheet k!"Ã©").toSexpr with | .ok _ => true | .error _ => false) = true := by decide +kernel
    rw [ht] at this; cases this
  | ok s =>
    have hbs : (some b).bind Codec.latin1.decode = some s := by
      rw [← hb]
      have : (match (textSheet k!"Ã©").toSexpr with
        | .ok s => decide (((Doc.workSheet (textSheet k!"é")).bytes env none).bind Codec.latin1.decode = some s)
        | .error _ => false) = true := by decide +kernel
      rw [ht] at this
      exact of_decide_eq_true this
    have hcr : '\r' ∉ s := noCR_iff (m := (textSheet k!"Ã©").toSexpr) (by decide +kernel) s ht
    obtain ⟨o', ho', he⟩ := C15_WorkSheet (textSheet k!"Ã©") (textSheet_wf _ (by textOk)) 0 true
    rw [ht, ok_bind] at ho'
    refine ⟨env, fs, { o' with filePath := some k!"a" }, textSheet_wf _ (by textOk), hok, ?_, WorkSheet.withPath he _, ?_⟩
    · have hread : readFile env k!"a" (some .latin1) (((Doc.workSheet (textSheet k!"é")).toFile env (some k!"a") none fs).final fs) =
          (.ok s, ((Doc.workSheet (textSheet k!"é")).toFile env (some k!"a") none fs).final fs) := by
        unfold readFile
        rw [hn]
        have hd : (env.codec (some .latin1)).decode b = some s := hbs
        have hu : universalNewlines s = s := universal_toLines (Env.simple .utf8 false) s hcr
        simp only [save_canRead (.workSheet (textSheet k!"é")) env (some k!"a") none fs k!"a" rfl, if_true, hd, hu]
      have hf : WorkSheet.fromFile env k!"a" (some .latin1) (((Doc.workSheet (textSheet k!"é")).toFile env (some k!"a") none fs).final fs) =
          (.ok { o' with filePath := some k!"a" }, ((Doc.workSheet (textSheet k!"é")).toFile env (some k!"a") none fs).final fs) :=
        (FileM.bind_run hread).trans ((FileM.bind_run (congrArg (·, _) ho')).trans rfl)
      exact congrArg Prod.fst hf
    · intro h
      obtain ⟨-, -, -, h, -⟩ := h
      obtain ⟨-, -, -, he, -⟩ := he
      have h : ListRel PyEq.eq [WksItem.tbtext { sampleTbText with text := .str k!"é" }] o'.drawingObjects := h
      have he : ListRel PyEq.eq [WksItem.tbtext { sampleTbText with text := .str k!"Ã©" }] o'.drawingObjects := he
      generalize o'.drawingObjects = l at h he
      cases h with
      | @cons _ b _ _ h _ =>
        cases he with
        | cons he _ =>
          cases b with
          | tbtext x =>
            have h := h.1
            have he := he.1
            simp only at h he
            generalize x.text = y at h he
            cases h
            cases he
          | _ => exact False.elim h

end Kiutils
