import Verif.Props.Shared
import Verif.Props.Conflict
import Verif.Proofs.Prefix
import Verif.Props.CreateNew
/-!
# C89: a file that is cut off

A full disk, a crash while saving or an interrupted copy leave the beginning of a file. It is rejected, or it is complete enough.
-/
namespace Kiutils

/-! ## Specification -/

/-- Bytes that are cut off are decoded as the beginning of the text, if at all. -/
def CutSafe (c : Codec) : Prop := ∀ b b' s s', b' <+: b → c.decode b = some s → c.decode b' = some s' → s' <+: s

/-- No text in the file contains a closing bracket. -/
def NoBracket (text : Str) : Prop := ∀ v, parseSexp text = .ok v → ∀ t ∈ texts v, ')' ∉ t

/-! ## Encodings -/

theorem cutSafe_latin1 : CutSafe .latin1 := by
  rintro b b' s s' ⟨r, rfl⟩ h1 h2
  simp only [Codec.latin1] at h1 h2
  cases h1
  cases h2
  rw [List.map_append]
  exact List.prefix_append _ _

theorem utf8_decoded {b : Bytes} {s : Str} (h : Codec.utf8.decode b = some s) : b = s.flatMap String.utf8EncodeChar := by
  simp only [Codec.utf8] at h
  cases hd : b.toByteArray.utf8Decode? with
  | none => rw [hd] at h; cases h
  | some a =>
    have hs : b.toByteArray.utf8Decode?.isSome := by rw [hd]; rfl
    obtain ⟨m, hm⟩ := ByteArray.isSome_utf8Decode?_iff.1 hs
    rw [hm, List.utf8Decode?_utf8Encode] at h
    have hx : m = s := by simpa using h
    subst hx
    have := congrArg (fun b : ByteArray => b.data.toList) hm
    simpa [List.utf8Encode] using this

theorem cutSafe_utf8 : CutSafe .utf8 := by
  rintro b b' s s' ⟨r, rfl⟩ h1 h2
  have e1 := utf8_decoded h1
  have e2 := utf8_decoded h2
  subst e2
  obtain ⟨y, rfl⟩ := utf8_prefix s' s r e1
  exact List.prefix_append _ _

/-! ## Lemmas -/

theorem universal_cr {s : Str} (h : ∀ r, s ≠ '\n' :: r) : universalNewlines ('\r' :: s) = '\n' :: universalNewlines s := by
  rw [universalNewlines]
  exact h

theorem universal_cut : ∀ (s r : Str), universalNewlines s <+: universalNewlines (s ++ r)
  | [], _ => List.nil_prefix
  | c :: s, r => by
    by_cases hc : c = '\r'
    · subst hc
      cases s with
      | nil =>
        rw [universal_cr (by intro _ h; cases h)]
        by_cases hr : ∃ r', r = '\n' :: r'
        · obtain ⟨r', rfl⟩ := hr
          exact List.cons_prefix_cons.2 ⟨rfl, List.nil_prefix⟩
        · rw [List.cons_append, List.nil_append, universal_cr fun r' h => hr ⟨r', h⟩]
          exact List.cons_prefix_cons.2 ⟨rfl, List.nil_prefix⟩
      | cons d s =>
        by_cases hd : d = '\n'
        · subst hd
          show '\n' :: universalNewlines s <+: '\n' :: universalNewlines (s ++ r)
          exact List.cons_prefix_cons.2 ⟨rfl, universal_cut s r⟩
        · rw [universal_cr (fun _ h => by cases h; exact hd rfl), List.cons_append, universal_cr (fun _ h => by cases h; exact hd rfl)]
          exact List.cons_prefix_cons.2 ⟨rfl, universal_cut (d :: s) r⟩
    · rw [List.cons_append, universal_cons hc, universal_cons hc]
      exact List.cons_prefix_cons.2 ⟨rfl, universal_cut s r⟩

theorem cut_loads {α : Type} {load : Env → Path → Option Codec → FileM α} {g : Val → PyM α} {k : Path → α → α}
    (hload : Faithful load fun p text => (parseSexp text >>= g).map (k p)) (hg : ∀ v : Val, v.isList = false → g v = .error .exception)
    {env : Env} {p : Path} {enc : Option Codec} (hc : CutSafe (used env enc)) {fs fs' : FS} {b b' : Bytes} (hb : HasContent fs p b)
    (hb' : HasContent fs' p b') (hcut : b' <+: b) (hn : ∀ text, Contains env fs p enc text → NoBracket text) {o o' : α}
    (h : (load env p enc fs).1 = .ok o) (h' : (load env p enc fs').1 = .ok o') : o' = o := by
  obtain ⟨text, hcon, hr⟩ := (hload.success ..).1 h
  obtain ⟨text', hcon', hr'⟩ := (hload.success ..).1 h'
  have hno := hn text hcon
  obtain ⟨b1, s1, h1, h2, h3, h4⟩ := hcon
  obtain ⟨b2, s2, k1, k2, k3, k4⟩ := hcon'
  cases hb.symm.trans h1
  cases hb'.symm.trans k1
  rw [used_decode] at h3 k3
  obtain ⟨r, rfl⟩ := hc _ _ _ _ hcut h3 k3
  have hpre : text' <+: text := by
    rw [h4.eq, k4.eq]
    exact universal_cut _ _
  cases hp : parseSexp text with
  | error e => rw [hp] at hr; cases hr
  | ok v =>
    cases hp' : parseSexp text' with
    | error e => rw [hp'] at hr'; cases hr'
    | ok w =>
      rw [hp] at hr
      rw [hp'] at hr'
      cases v with
      | list l =>
        cases parse_cut hp (hno _ hp) text' hpre w hp'
        exact Except.ok.inj (hr'.symm.trans hr)
      | _ =>
        have hr : (g _).map (k p) = .ok o := hr
        rw [hg _ rfl] at hr
        cases hr

/-- What is left when `to_file` stops after some steps. -/
theorem interrupted_content (d : Doc) (env : Env) (enc : Option Codec) (p : Path) (fs : FS) (hd : d.target (some p) = some p) (ho : Openable fs p)
    (b : Bytes) (hb : d.bytes env enc = some b) (n : Nat) (hn : 0 < n) :
    ∃ b', HasContent (applySteps fs ((d.toFile env (some p) enc fs).steps.take n)) p b' ∧ b' <+: b := by
  rcases (C29_crash d env (some p) enc fs n).2 p hd with ⟨-, h | h⟩ | ⟨x, h1, rfl | ⟨b', h2, h3⟩⟩
  · omega
  · exact absurd ho h
  · exact ⟨[], h1, List.nil_prefix⟩
  · cases hb.symm.trans h2
    exact ⟨x, h1, h3⟩

/-! ## The kinds of files

`C89_X_partial`: the file at `p` in `fs'` is the beginning of the file at `p` in `fs`. If it is loaded, the result is the same.
`C89_X_interrupted_partial`: the same for what is left when `to_file` stops (or fails, because the disk is full) after `n` steps.
-/

theorem C89_LibTable_partial (env : Env) (p : Path) (enc : Option Codec) (hc : CutSafe (used env enc)) (fs fs' : FS) (b b' : Bytes)
    (hb : HasContent fs p b) (hb' : HasContent fs' p b') (hcut : b' <+: b) (hn : ∀ text, Contains env fs p enc text → NoBracket text)
    (o o' : LibTable) (h : (LibTable.fromFile env p enc fs).1 = .ok o) (h' : (LibTable.fromFile env p enc fs').1 = .ok o') : o' = o :=
  cut_loads C58_LibTable C09_LibTable.notList hc hb hb' hcut hn h h'

theorem C89_LibTable_interrupted_partial (o : LibTable) (env env' : Env) (p : Path) (enc : Option Codec) (enc' : Option Codec)
    (hc : CutSafe (used env' enc')) (fs fs' : FS) (ho : Openable fs p) (b : Bytes) (hs : (Doc.libTable o).bytes env enc = some b)
    (hb : HasContent fs' p b) (hn : ∀ text, Contains env' fs' p enc' text → NoBracket text) (o₁ o₂ : LibTable)
    (h : (LibTable.fromFile env' p enc' fs').1 = .ok o₁) (n : Nat) (hpos : 0 < n)
    (h' : (LibTable.fromFile env' p enc' (applySteps fs ((o.toFile env (some p) enc fs).steps.take n))).1 = .ok o₂) : o₂ = o₁ := by
  obtain ⟨b', hb', hcut⟩ := interrupted_content (.libTable o) env enc p fs rfl ho b hs n hpos
  exact C89_LibTable_partial env' p enc' hc _ _ b b' hb hb' hcut hn o₁ o₂ h h'

theorem C89_WorkSheet_partial (env : Env) (p : Path) (enc : Option Codec) (hc : CutSafe (used env enc)) (fs fs' : FS) (b b' : Bytes)
    (hb : HasContent fs p b) (hb' : HasContent fs' p b') (hcut : b' <+: b) (hn : ∀ text, Contains env fs p enc text → NoBracket text)
    (o o' : WorkSheet) (h : (WorkSheet.fromFile env p enc fs).1 = .ok o) (h' : (WorkSheet.fromFile env p enc fs').1 = .ok o') : o' = o :=
  cut_loads C58_WorkSheet C09_WorkSheet.notList hc hb hb' hcut hn h h'

theorem C89_WorkSheet_interrupted_partial (o : WorkSheet) (env env' : Env) (p : Path) (enc' : Option Codec)
    (hc : CutSafe (used env' enc')) (fs fs' : FS) (ho : Openable fs p) (b : Bytes) (hs : (Doc.workSheet o).bytes env none = some b)
    (hb : HasContent fs' p b) (hn : ∀ text, Contains env' fs' p enc' text → NoBracket text) (o₁ o₂ : WorkSheet)
    (h : (WorkSheet.fromFile env' p enc' fs').1 = .ok o₁) (n : Nat) (hpos : 0 < n)
    (h' : (WorkSheet.fromFile env' p enc' (applySteps fs ((o.toFile env (some p) fs).steps.take n))).1 = .ok o₂) : o₂ = o₁ := by
  obtain ⟨b', hb', hcut⟩ := interrupted_content (.workSheet o) env none p fs rfl ho b hs n hpos
  exact C89_WorkSheet_partial env' p enc' hc _ _ b b' hb hb' hcut hn o₁ o₂ h h'

theorem C89_SymbolLib_partial (env : Env) (p : Path) (enc : Option Codec) (hc : CutSafe (used env enc)) (fs fs' : FS) (b b' : Bytes)
    (hb : HasContent fs p b) (hb' : HasContent fs' p b') (hcut : b' <+: b) (hn : ∀ text, Contains env fs p enc text → NoBracket text)
    (o o' : SymbolLib) (h : (SymbolLib.fromFile env p enc fs).1 = .ok o) (h' : (SymbolLib.fromFile env p enc fs').1 = .ok o') : o' = o :=
  cut_loads C58_SymbolLib C09_SymbolLib.notList hc hb hb' hcut hn h h'

theorem C89_SymbolLib_interrupted_partial (o : SymbolLib) (env env' : Env) (p : Path) (enc : Option Codec) (enc' : Option Codec)
    (hc : CutSafe (used env' enc')) (fs fs' : FS) (ho : Openable fs p) (b : Bytes) (hs : (Doc.symbolLib o).bytes env enc = some b)
    (hb : HasContent fs' p b) (hn : ∀ text, Contains env' fs' p enc' text → NoBracket text) (o₁ o₂ : SymbolLib)
    (h : (SymbolLib.fromFile env' p enc' fs').1 = .ok o₁) (n : Nat) (hpos : 0 < n)
    (h' : (SymbolLib.fromFile env' p enc' (applySteps fs ((o.toFile env (some p) enc fs).steps.take n))).1 = .ok o₂) : o₂ = o₁ := by
  obtain ⟨b', hb', hcut⟩ := interrupted_content (.symbolLib o) env enc p fs rfl ho b hs n hpos
  exact C89_SymbolLib_partial env' p enc' hc _ _ b b' hb hb' hcut hn o₁ o₂ h h'

theorem C89_Schematic_partial (env : Env) (p : Path) (enc : Option Codec) (hc : CutSafe (used env enc)) (fs fs' : FS) (b b' : Bytes)
    (hb : HasContent fs p b) (hb' : HasContent fs' p b') (hcut : b' <+: b) (hn : ∀ text, Contains env fs p enc text → NoBracket text)
    (o o' : Schematic) (h : (Schematic.fromFile env p enc fs).1 = .ok o) (h' : (Schematic.fromFile env p enc fs').1 = .ok o') : o' = o :=
  cut_loads C58_Schematic C09_Schematic.notList hc hb hb' hcut hn h h'

theorem C89_Schematic_interrupted_partial (o : Schematic) (env env' : Env) (p : Path) (enc : Option Codec) (enc' : Option Codec)
    (hc : CutSafe (used env' enc')) (fs fs' : FS) (ho : Openable fs p) (b : Bytes) (hs : (Doc.schematic o).bytes env enc = some b)
    (hb : HasContent fs' p b) (hn : ∀ text, Contains env' fs' p enc' text → NoBracket text) (o₁ o₂ : Schematic)
    (h : (Schematic.fromFile env' p enc' fs').1 = .ok o₁) (n : Nat) (hpos : 0 < n)
    (h' : (Schematic.fromFile env' p enc' (applySteps fs ((o.toFile env (some p) enc fs).steps.take n))).1 = .ok o₂) : o₂ = o₁ := by
  obtain ⟨b', hb', hcut⟩ := interrupted_content (.schematic o) env enc p fs rfl ho b hs n hpos
  exact C89_Schematic_partial env' p enc' hc _ _ b b' hb hb' hcut hn o₁ o₂ h h'

theorem C89_Footprint_partial (tedit : Val) (env : Env) (p : Path) (enc : Option Codec) (hc : CutSafe (used env enc)) (fs fs' : FS) (b b' : Bytes)
    (hb : HasContent fs p b) (hb' : HasContent fs' p b') (hcut : b' <+: b) (hn : ∀ text, Contains env fs p enc text → NoBracket text)
    (o o' : Footprint) (h : (Footprint.fromFile env tedit p enc fs).1 = .ok o) (h' : (Footprint.fromFile env tedit p enc fs').1 = .ok o') : o' = o :=
  cut_loads (g := Footprint.fromSexpr tedit) (k := fun _ o => o) (faithful_plain (C58_Footprint tedit)) (C09_Footprint tedit).notList hc hb hb' hcut hn h h'

theorem C89_Footprint_interrupted_partial (tedit : Val) (o : Footprint) (env env' : Env) (p : Path) (enc : Option Codec) (enc' : Option Codec)
    (hc : CutSafe (used env' enc')) (fs fs' : FS) (ho : Openable fs p) (b : Bytes) (hs : (Doc.footprint o).bytes env enc = some b)
    (hb : HasContent fs' p b) (hn : ∀ text, Contains env' fs' p enc' text → NoBracket text) (o₁ o₂ : Footprint)
    (h : (Footprint.fromFile env' tedit p enc' fs').1 = .ok o₁) (n : Nat) (hpos : 0 < n)
    (h' : (Footprint.fromFile env' tedit p enc' (applySteps fs ((o.toFile env (some p) enc fs).steps.take n))).1 = .ok o₂) : o₂ = o₁ := by
  obtain ⟨b', hb', hcut⟩ := interrupted_content (.footprint o) env enc p fs rfl ho b hs n hpos
  exact C89_Footprint_partial tedit env' p enc' hc _ _ b b' hb hb' hcut hn o₁ o₂ h h'

theorem C89_Board_partial (tedit : Val) (env : Env) (p : Path) (enc : Option Codec) (hc : CutSafe (used env enc)) (fs fs' : FS) (b b' : Bytes)
    (hb : HasContent fs p b) (hb' : HasContent fs' p b') (hcut : b' <+: b) (hn : ∀ text, Contains env fs p enc text → NoBracket text)
    (o o' : Board) (h : (Board.fromFile env tedit p enc fs).1 = .ok o) (h' : (Board.fromFile env tedit p enc fs').1 = .ok o') : o' = o :=
  cut_loads (C58_Board tedit) (C09_Board tedit).notList hc hb hb' hcut hn h h'

theorem C89_Board_interrupted_partial (tedit : Val) (o : Board) (env env' : Env) (p : Path) (enc : Option Codec) (enc' : Option Codec)
    (hc : CutSafe (used env' enc')) (fs fs' : FS) (ho : Openable fs p) (b : Bytes) (hs : (Doc.board o).bytes env enc = some b)
    (hb : HasContent fs' p b) (hn : ∀ text, Contains env' fs' p enc' text → NoBracket text) (o₁ o₂ : Board)
    (h : (Board.fromFile env' tedit p enc' fs').1 = .ok o₁) (n : Nat) (hpos : 0 < n)
    (h' : (Board.fromFile env' tedit p enc' (applySteps fs ((o.toFile env (some p) enc fs).steps.take n))).1 = .ok o₂) : o₂ = o₁ := by
  obtain ⟨b', hb', hcut⟩ := interrupted_content (.board o) env enc p fs rfl ho b hs n hpos
  exact C89_Board_partial tedit env' p enc' hc _ _ b b' hb hb' hcut hn o₁ o₂ h h'

/-! ## Where it is violated -/

/-- C89 is violated by design rules: the file with the rules `as` is the beginning of the file with the rules `as ++ bs`. If that is cut
off there, the rules `bs` are lost and nothing is noticed. -/
theorem C89_DesignRules_violated (v : Val) (as bs : List Rule) (hv : NumOk v) (ha : ∀ r ∈ as, r.WF) (hb : ∀ r ∈ bs, r.WF) (hne : as ≠ [])
    (env env' : Env) (hcr : ∀ s, DesignRules.toSexpr { version := v, rules := as } = .ok s → '\r' ∉ s) :
    ∃ b b', (Doc.designRules { version := v, rules := as ++ bs }).bytes env (some .utf8) = some b ∧ b' <+: b ∧
      ∀ p fs', HasContent fs' p b' → fs'.canRead p = true → ∃ o', DesignRules.fromFile env' p (some .utf8) fs' = (.ok o', fs') ∧
        PyEq.eq { version := v, rules := as, filePath := some p } o' := by
  obtain ⟨s, hs, e, he⟩ := rules_text v as bs hv ha hb
  have h1 := he as s hne hs
  have hx := (Doc.designRules { version := v, rules := as ++ bs }).bytes_utf8 env _ h1 rfl
  have hy := (Doc.designRules { version := v, rules := as }).bytes_utf8 env _ hs rfl
  refine ⟨_, utf8Bytes env s, hx, ?_, fun p fs' hn hr => ?_⟩
  · rw [utf8Bytes_append]
    exact List.prefix_append _ _
  · have hf : ∃ e : Env, e.full = none ∧ e.crlf = env.crlf := ⟨Env.simple .utf8 env.crlf, rfl, rfl⟩
    obtain ⟨env2, hf, hcl⟩ := hf
    have hlines : utf8Bytes env2 s = utf8Bytes env s := by unfold utf8Bytes Env.toLines; rw [hcl]
    have hy' := (Doc.designRules { version := v, rules := as }).bytes_utf8 env2 _ hs rfl
    have ok := C27_success (.designRules { version := v, rules := as }) env2 (some p) (some .utf8) (FS.two p p [] []) p _ rfl (two_openable _ _ _ _) hy' hf
    refine C30_DesignRules { version := v, rules := as } ⟨hv, ha⟩ env2 env' p (some .utf8) (some .utf8) (FS.two p p [] []) fs' ok
      Codec.utf8_lawful rfl ?_ hr hcr
    obtain ⟨p', b2, hp', hb2, hn2⟩ := C27_content _ env2 (some p) (some .utf8) _ ok
    cases Option.some.inj hp'
    cases hy'.symm.trans hb2
    rw [hlines] at hn2
    exact hn.trans hn2.symm

/-- A quotation mark that is not closed begins a word. -/
theorem lex_unclosed (w r : Str) (hw : ∀ c ∈ w, isBare c = true) (hq : '"' ∉ w) (hr : '"' ∉ r) (he : bareEnd r = true) :
    lex ('"' :: (w ++ r)) = .atom (.str ('"' :: w)) :: lex r := by
  have ht : tokenAt ('"' :: (w ++ r)) = some ('"' :: w, .atom (.str ('"' :: w)), r) := by
    have hm : matchSqBody '"' (w ++ r) = none := matchSqBody_none_of_noQuote (w ++ r) (by simp [hq, hr]) '"'
    have htd := takeWhile_append_stop (p := isBare) (w := '"' :: w) (r := r)
      (fun c hc => by rcases List.mem_cons.1 hc with rfl | h; exacts [by decide, hw c h]) (bareEnd_head he)
    rw [List.cons_append] at htd
    have hb : isBare '"' = true := by decide
    simp only [tokenAt, matchNum_quote, matchSq, hm, htd.1, htd.2, hb]
    rfl
  exact lex_tok (by decide) ht


/-- What is left of a table if the name of a library is cut off behind `)))`. -/
def cutTable (type : Val) (before : List Library) (w : Str) : Str := tableStart type before ++ (k!"  (lib (name \"" ++ (w ++ k!")))"))

theorem cutTable_parse (type : Val) (ht : type = .str k!"sym_lib_table" ∨ type = .str k!"fp_lib_table") (before : List Library)
    (hb : ∀ l ∈ before, l.WF) (w : Str) (hw : ∀ c ∈ w, isBare c = true) (hq : '"' ∉ w) :
    parseSexp (cutTable type before w) =
      .ok (.list (type.canon :: before.map Library.toVal ++ [.list [.str k!"lib", .list [.str k!"name", .str ('"' :: w)]]])) := by
  have h1 : ('"' :: (w ++ k!")))")) ⇛ [.atom (.str ('"' :: w)), .cl, .cl, .cl] := ⟨lex_unclosed w k!")))" hw hq (by decide) (by decide), trivial⟩
  have h2 : (k!"  (lib (name \"" ++ (w ++ k!")))")) ⇛ [.op, .atom (.str k!"lib"), .op, .atom (.str k!"name"), .atom (.str ('"' :: w)), .cl, .cl, .cl] :=
    lx_sp (lx_sp (lx_op (lx_kw (k := k!"lib") (by decide) rfl (lx_sp (lx_op (lx_kw (k := k!"name") (by decide) rfl (lx_sp h1)))))))
  have h3 : TokOk type := by
    rcases ht with h | h <;> rw [h] <;> exact ⟨by simp, by decide, TextRule.word_noQuote (by decide), by decide⟩
  have h4 := lx_op (lx_tok h3 rfl (lx_nl (lx_for (xs := before) (f := fun lib => lib.toSexpr) (g := Library.toVal) h2
    fun a ha s t hs => Library.lx (hb a ha) hs)))
  refine parse_of_lex ?_
  have h5 := h4.lex
  rw [cutTable, tableStart]
  simp only [toks_list, List.cons_append, toksL_cons, toksL_append, toksL_nil, toks_str]
  simpa using h5

theorem LibTable.from_append (h : Val) (r : List Val) (x : Val) (o : LibTable) (hr : LibTable.fromSexpr (.list (h :: r)) = .ok o) :
    LibTable.fromSexpr (.list (h :: r ++ [x])) = LibTable.step o x := by
  unfold LibTable.fromSexpr at hr ⊢
  rw [List.cons_append]
  simp only at hr ⊢
  split at hr
  · rename_i hh
    rw [if_pos hh, ← List.cons_append, forM_append, hr]
    show (LibTable.step o x >>= fun o' => forM LibTable.step o' []) = _
    cases LibTable.step o x <;> rfl
  · cases hr

theorem dequote_append (a b : Str) : dequote (a ++ b) = dequote a ++ dequote b := by
  induction a with
  | nil => rfl
  | cons c a ih =>
    by_cases h : c = '"'
    · subst h; rw [List.cons_append, dequote_cons_quote, dequote_cons_quote, ih]; rfl
    · rw [List.cons_append, dequote_cons_ne _ h, dequote_cons_ne _ h, ih]; rfl

theorem cutLibrary_from (w : Str) : Library.fromSexpr (.list [.str k!"lib", .list [.str k!"name", .str w]]) = .ok { name := .str w } := by
  unfold Library.fromSexpr
  rfl

/-- C89 is violated by library tables (and in the same way by other files) if a text contains brackets: if the file is cut off behind
the brackets `)))` in the name of a library, the rest of the library and all libraries behind it are lost, the name begins with a
quotation mark, and nothing is noticed. -/
theorem C89_LibTable_violated (type : Val) (ht : type = .str k!"sym_lib_table" ∨ type = .str k!"fp_lib_table") (before after : List Library)
    (hb : ∀ l ∈ before, l.WF) (x : Library) (w z : Str) (hx : x.name = .str (w ++ k!")))" ++ z))
    (hw : ∀ c ∈ w, c ≠ '(' ∧ c ≠ ')' ∧ c ≠ '^' ∧ c ≠ '"' ∧ isSpace c = false)
    (env env' : Env) (hcr : '\r' ∉ LibTable.toSexpr { type := type, libs := before ++ x :: after }) :
    ∃ b b', (Doc.libTable { type := type, libs := before ++ x :: after }).bytes env (some .utf8) = some b ∧ b' <+: b ∧
      ∀ p fs', HasContent fs' p b' → fs'.canRead p = true → ∃ o', LibTable.fromFile env' p (some .utf8) fs' = (.ok o', fs') ∧
        PyEq.eq { type := type, libs := before ++ [{ name := .str ('"' :: w) }], filePath := some p } o' := by
  have hbare : ∀ c ∈ w, isBare c = true := fun c hc => by
    have := hw c hc
    simp [isBare, this]
  have hq : '"' ∉ w := fun h => (hw _ h).2.2.2.1 rfl
  have hpre : cutTable type before w <+: LibTable.toSexpr { type := type, libs := before ++ x :: after } := by
    have hd : dq x.name = w ++ (k!")))" ++ dequote z) := by
      rw [hx, dq, Val.pyStr, dequote_append, dequote_append, dequote_noQuote w hq, List.append_assoc]
      rfl
    rw [table_text, cutTable]
    refine List.prefix_append_right_inj _ |>.2 ?_
    simp [tableEnd, forS, Library.toSexpr, hd, indents, kw, List.prefix_append_right_inj]
  refine ⟨_, utf8Bytes env (cutTable type before w), Doc.bytes_utf8 _ env _ rfl rfl, ?_, fun p fs' hn hr => ?_⟩
  · obtain ⟨e, he⟩ := hpre
    rw [← he, utf8Bytes_append]
    exact List.prefix_append _ _
  · have hcr' : '\r' ∉ cutTable type before w := fun h => hcr (hpre.subset h)
    have hfrom := LibTable.from_append _ _ (.list [.str k!"lib", .list [.str k!"name", .str ('"' :: w)]]) _
      (LibTable.from_toVal (o := { type := type, libs := before }) ⟨ht, hb⟩)
    have hread : (parseSexp (cutTable type before w) >>= LibTable.fromSexpr) =
        .ok (canon { type := type, libs := before ++ [{ name := .str ('"' :: w) }], filePath := none }) := by
      rw [cutTable_parse type ht before hb w hbare hq, ok_bind]
      refine hfrom.trans ?_
      show (Library.fromSexpr (.list [.str k!"lib", .list [.str k!"name", .str ('"' :: w)]]) >>= fun l => Except.ok _) = _
      rw [cutLibrary_from, ok_bind]
      simp only [canon, List.map_append]
      rfl
    have hcon : Contains env' fs' p (some .utf8) (cutTable type before w) := by
      refine ⟨_, env.toLines (cutTable type before w), hn, hr, Codec.utf8_lawful _ _ rfl, ?_⟩
      have := textMode_universal (env.toLines (cutTable type before w))
      rwa [universal_toLines env _ hcr'] at this
    refine ⟨_, Prod.ext ((C58_LibTable.success ..).2 ⟨_, hcon, congrArg (Except.map _) hread⟩) (C58_LibTable.keeps ..), ?_⟩
    exact LibTable.withPath (canonEq { type := type, libs := before ++ [{ name := .str ('"' :: w) }], filePath := none }) (some p)

/-! ## Examples

Each kind of file: what is saved contains no brackets, and the file that is left when `to_file` stops is loaded. -/

/-- The saved file has no text with a closing bracket. -/
theorem saved_noBracket (d : Doc) {v : Val} (hv : Lexes d.text [v]) (hs : (v.strings.all fun t => !t.contains ')') = true) {env env' : Env}
    {enc enc' : Option Codec} {p : Path} {fs : FS} (hok : (d.toFile env (some p) enc fs).outcome = .ok ())
    (hl : (d.codec env enc).Lawful) (hu : used env' enc' = d.codec env enc) (hcr : ∀ s, d.text = .ok s → '\r' ∉ s) :
    ∀ text, Contains env' ((d.toFile env (some p) enc fs).final fs) p enc' text → NoBracket text := by
  rintro text ⟨b, s, h1, -, h3, h4⟩
  obtain ⟨p', b', hp', hb', hn⟩ := C27_content d env (some p) enc fs hok
  obtain ⟨x, hx⟩ : ∃ x, d.text = .ok x := ⟨_, hv.choose_spec.1⟩
  have hpp : p = p' := by
    cases d <;> exact Option.some.inj hp'
  subst hpp
  cases h1.symm.trans hn
  have henc : (d.codec env enc).encode (env.toLines x) = some b := by
    unfold Doc.bytes at hb'
    rw [hx] at hb'
    exact hb'
  rw [used_decode, hu, hl _ _ henc] at h3
  cases h3
  rw [h4.eq, universal_toLines env x (hcr x hx)]
  rw [hx] at hv
  have hp : parseSexp x = .ok v := hv.parse
  intro w hw t ht
  cases hp.symm.trans hw
  have := List.all_eq_true.1 hs t ht
  simpa using this

def cutLibTable : LibTable := raceTable k!"a"
theorem cutLibTable_wf : cutLibTable.WF := raceTable_wf _ (by decide)
def cutWorkSheet : WorkSheet := { WorkSheet.createNew with version := .int 20211014 }
theorem cutWorkSheet_wf : cutWorkSheet.WF := WorkSheet.createNew_wf
def cutSymbolLib : SymbolLib := { sampleSymbolLib with symbols := [] }
theorem cutSymbolLib_wf : cutSymbolLib.WF := { sampleSymbolLib_wf with symbols := by listOk }
def cutSchematic : Schematic := { Schematic.createNew with version := .int 20211014 }
theorem cutSchematic_wf : cutSchematic.WF := Schematic.createNew_wf
def cutFootprint : Footprint := { smallFootprint with layer := .str k!"F.Cu", tags := some (.str k!"some tags"), models := [] }
theorem cutFootprint_wf : cutFootprint.WF := { smallFootprint_wf with layer := by textOk, tags := (by optOk; exact by textOk), models := by listOk }
def cutBoard : Board := { Board.createNew with version := .int 20211014 }
theorem cutBoard_wf : cutBoard.WF := Board.createNew_wf

set_option maxRecDepth 100000 in
example : ∃ b o₁, (Doc.libTable cutLibTable).bytes (Env.simple .latin1 true) none = some b ∧
    (LibTable.fromFile (Env.simple .latin1 true) k!"a" none ((cutLibTable.toFile (Env.simple .latin1 true) (some k!"a") none (FS.two k!"a" k!"b" [1] [2])).final (FS.two k!"a" k!"b" [1] [2]))).1 = .ok o₁ ∧
    ∀ n, 0 < n → ∀ o₂, (LibTable.fromFile (Env.simple .latin1 true) k!"a" none (applySteps (FS.two k!"a" k!"b" [1] [2])
      ((cutLibTable.toFile (Env.simple .latin1 true) (some k!"a") none (FS.two k!"a" k!"b" [1] [2])).steps.take n))).1 = .ok o₂ → o₂ = o₁ := by
  have ok := save_ok (.libTable cutLibTable) (Env.simple .latin1 true) k!"a" none (FS.two k!"a" k!"b" [1] [2]) rfl (two_openable _ _ _ _) (by decide +kernel)
  obtain ⟨p', b, hp', hb, hn⟩ := C27_content (.libTable cutLibTable) (Env.simple .latin1 true) (some k!"a") none (FS.two k!"a" k!"b" [1] [2]) ok
  cases Option.some.inj hp'
  obtain ⟨o₁, h1, -⟩ := C30_LibTable cutLibTable cutLibTable_wf (Env.simple .latin1 true) (Env.simple .latin1 true) k!"a" none none (FS.two k!"a" k!"b" [1] [2]) _ ok Codec.latin1_lawful rfl rfl
    (save_canRead (.libTable cutLibTable) _ _ none _ _ rfl) (by decide +kernel)
  refine ⟨b, o₁, hb, congrArg Prod.fst h1, fun n hpos o₂ h2 => C89_LibTable_interrupted_partial cutLibTable (Env.simple .latin1 true) (Env.simple .latin1 true) k!"a" none none cutSafe_latin1
    (FS.two k!"a" k!"b" [1] [2]) _ (two_openable _ _ _ _) b hb hn ?_ o₁ o₂ (congrArg Prod.fst h1) n hpos h2⟩
  exact saved_noBracket (.libTable cutLibTable) (Lexes.one fun _ _ hs => LibTable.lx (cutLibTable_wf) hs) (by decide +kernel) ok Codec.latin1_lawful rfl (fun s hs => by cases Except.ok.inj hs; decide +kernel)

set_option maxRecDepth 100000 in
example : ∃ b o₁, (Doc.workSheet cutWorkSheet).bytes (Env.simple .latin1 true) none = some b ∧
    (WorkSheet.fromFile (Env.simple .latin1 true) k!"a" none ((cutWorkSheet.toFile (Env.simple .latin1 true) (some k!"a") (FS.two k!"a" k!"b" [1] [2])).final (FS.two k!"a" k!"b" [1] [2]))).1 = .ok o₁ ∧
    ∀ n, 0 < n → ∀ o₂, (WorkSheet.fromFile (Env.simple .latin1 true) k!"a" none (applySteps (FS.two k!"a" k!"b" [1] [2])
      ((cutWorkSheet.toFile (Env.simple .latin1 true) (some k!"a") (FS.two k!"a" k!"b" [1] [2])).steps.take n))).1 = .ok o₂ → o₂ = o₁ := by
  have ok := save_ok (.workSheet cutWorkSheet) (Env.simple .latin1 true) k!"a" none (FS.two k!"a" k!"b" [1] [2]) rfl (two_openable _ _ _ _) (by decide +kernel)
  obtain ⟨p', b, hp', hb, hn⟩ := C27_content (.workSheet cutWorkSheet) (Env.simple .latin1 true) (some k!"a") none (FS.two k!"a" k!"b" [1] [2]) ok
  cases Option.some.inj hp'
  obtain ⟨o₁, h1, -⟩ := C30_WorkSheet cutWorkSheet cutWorkSheet_wf (Env.simple .latin1 true) (Env.simple .latin1 true) k!"a" none (FS.two k!"a" k!"b" [1] [2]) _ ok Codec.latin1_lawful rfl rfl
    (save_canRead (.workSheet cutWorkSheet) _ _ none _ _ rfl) (noCR_iff (by decide +kernel))
  refine ⟨b, o₁, hb, congrArg Prod.fst h1, fun n hpos o₂ h2 => C89_WorkSheet_interrupted_partial cutWorkSheet (Env.simple .latin1 true) (Env.simple .latin1 true) k!"a" none cutSafe_latin1
    (FS.two k!"a" k!"b" [1] [2]) _ (two_openable _ _ _ _) b hb hn ?_ o₁ o₂ (congrArg Prod.fst h1) n hpos h2⟩
  exact saved_noBracket (.workSheet cutWorkSheet) (WorkSheet.lx (cutWorkSheet_wf) 0 _) (by decide +kernel) ok Codec.latin1_lawful rfl (noCR_iff (by decide +kernel))

set_option maxRecDepth 100000 in
example : ∃ b o₁, (Doc.symbolLib cutSymbolLib).bytes (Env.simple .latin1 true) none = some b ∧
    (SymbolLib.fromFile (Env.simple .latin1 true) k!"a" none ((cutSymbolLib.toFile (Env.simple .latin1 true) (some k!"a") none (FS.two k!"a" k!"b" [1] [2])).final (FS.two k!"a" k!"b" [1] [2]))).1 = .ok o₁ ∧
    ∀ n, 0 < n → ∀ o₂, (SymbolLib.fromFile (Env.simple .latin1 true) k!"a" none (applySteps (FS.two k!"a" k!"b" [1] [2])
      ((cutSymbolLib.toFile (Env.simple .latin1 true) (some k!"a") none (FS.two k!"a" k!"b" [1] [2])).steps.take n))).1 = .ok o₂ → o₂ = o₁ := by
  have ok := save_ok (.symbolLib cutSymbolLib) (Env.simple .latin1 true) k!"a" none (FS.two k!"a" k!"b" [1] [2]) rfl (two_openable _ _ _ _) (by decide +kernel)
  obtain ⟨p', b, hp', hb, hn⟩ := C27_content (.symbolLib cutSymbolLib) (Env.simple .latin1 true) (some k!"a") none (FS.two k!"a" k!"b" [1] [2]) ok
  cases Option.some.inj hp'
  obtain ⟨o₁, h1, -⟩ := C30_SymbolLib cutSymbolLib cutSymbolLib_wf (Env.simple .latin1 true) (Env.simple .latin1 true) k!"a" none none (FS.two k!"a" k!"b" [1] [2]) _ ok Codec.latin1_lawful rfl rfl
    (save_canRead (.symbolLib cutSymbolLib) _ _ none _ _ rfl) (by decide +kernel)
  refine ⟨b, o₁, hb, congrArg Prod.fst h1, fun n hpos o₂ h2 => C89_SymbolLib_interrupted_partial cutSymbolLib (Env.simple .latin1 true) (Env.simple .latin1 true) k!"a" none none cutSafe_latin1
    (FS.two k!"a" k!"b" [1] [2]) _ (two_openable _ _ _ _) b hb hn ?_ o₁ o₂ (congrArg Prod.fst h1) n hpos h2⟩
  exact saved_noBracket (.symbolLib cutSymbolLib) (Lexes.one fun _ _ hs => SymbolLib.lx (cutSymbolLib_wf) hs) (by decide +kernel) ok Codec.latin1_lawful rfl (fun s hs => by cases Except.ok.inj hs; decide +kernel)

set_option maxRecDepth 100000 in
example : ∃ b o₁, (Doc.schematic cutSchematic).bytes (Env.simple .latin1 true) none = some b ∧
    (Schematic.fromFile (Env.simple .latin1 true) k!"a" none ((cutSchematic.toFile (Env.simple .latin1 true) (some k!"a") none (FS.two k!"a" k!"b" [1] [2])).final (FS.two k!"a" k!"b" [1] [2]))).1 = .ok o₁ ∧
    ∀ n, 0 < n → ∀ o₂, (Schematic.fromFile (Env.simple .latin1 true) k!"a" none (applySteps (FS.two k!"a" k!"b" [1] [2])
      ((cutSchematic.toFile (Env.simple .latin1 true) (some k!"a") none (FS.two k!"a" k!"b" [1] [2])).steps.take n))).1 = .ok o₂ → o₂ = o₁ := by
  have ok := save_ok (.schematic cutSchematic) (Env.simple .latin1 true) k!"a" none (FS.two k!"a" k!"b" [1] [2]) rfl (two_openable _ _ _ _) (by decide +kernel)
  obtain ⟨p', b, hp', hb, hn⟩ := C27_content (.schematic cutSchematic) (Env.simple .latin1 true) (some k!"a") none (FS.two k!"a" k!"b" [1] [2]) ok
  cases Option.some.inj hp'
  obtain ⟨o₁, h1, -⟩ := C30_Schematic cutSchematic cutSchematic_wf (Env.simple .latin1 true) (Env.simple .latin1 true) k!"a" none none (FS.two k!"a" k!"b" [1] [2]) _ ok Codec.latin1_lawful rfl rfl
    (save_canRead (.schematic cutSchematic) _ _ none _ _ rfl) (noCR_iff (by decide +kernel))
  refine ⟨b, o₁, hb, congrArg Prod.fst h1, fun n hpos o₂ h2 => C89_Schematic_interrupted_partial cutSchematic (Env.simple .latin1 true) (Env.simple .latin1 true) k!"a" none none cutSafe_latin1
    (FS.two k!"a" k!"b" [1] [2]) _ (two_openable _ _ _ _) b hb hn ?_ o₁ o₂ (congrArg Prod.fst h1) n hpos h2⟩
  exact saved_noBracket (.schematic cutSchematic) (Schematic.lexes (cutSchematic_wf) 0 _) (by decide +kernel) ok Codec.latin1_lawful rfl (noCR_iff (by decide +kernel))

set_option maxRecDepth 100000 in
example : ∃ b o₁, (Doc.footprint cutFootprint).bytes (Env.simple .latin1 true) none = some b ∧
    (Footprint.fromFile (Env.simple .latin1 true) (.str k!"0") k!"a" none ((cutFootprint.toFile (Env.simple .latin1 true) (some k!"a") none (FS.two k!"a" k!"b" [1] [2])).final (FS.two k!"a" k!"b" [1] [2]))).1 = .ok o₁ ∧
    ∀ n, 0 < n → ∀ o₂, (Footprint.fromFile (Env.simple .latin1 true) (.str k!"0") k!"a" none (applySteps (FS.two k!"a" k!"b" [1] [2])
      ((cutFootprint.toFile (Env.simple .latin1 true) (some k!"a") none (FS.two k!"a" k!"b" [1] [2])).steps.take n))).1 = .ok o₂ → o₂ = o₁ := by
  have ok := save_ok (.footprint cutFootprint) (Env.simple .latin1 true) k!"a" none (FS.two k!"a" k!"b" [1] [2]) rfl (two_openable _ _ _ _) (by decide +kernel)
  obtain ⟨p', b, hp', hb, hn⟩ := C27_content (.footprint cutFootprint) (Env.simple .latin1 true) (some k!"a") none (FS.two k!"a" k!"b" [1] [2]) ok
  cases Option.some.inj hp'
  obtain ⟨o₁, h1, -⟩ := C30_Footprint cutFootprint cutFootprint_wf (Env.simple .latin1 true) (Env.simple .latin1 true) (.str k!"0") k!"a" none none (FS.two k!"a" k!"b" [1] [2]) _ ok Codec.latin1_lawful rfl rfl
    (save_canRead (.footprint cutFootprint) _ _ none _ _ rfl) (noCR_iff (by decide +kernel))
  refine ⟨b, o₁, hb, congrArg Prod.fst h1, fun n hpos o₂ h2 => C89_Footprint_interrupted_partial (.str k!"0") cutFootprint (Env.simple .latin1 true) (Env.simple .latin1 true) k!"a" none none cutSafe_latin1
    (FS.two k!"a" k!"b" [1] [2]) _ (two_openable _ _ _ _) b hb hn ?_ o₁ o₂ (congrArg Prod.fst h1) n hpos h2⟩
  exact saved_noBracket (.footprint cutFootprint) (Footprint.lexes (cutFootprint_wf) 0 _ _) (by decide +kernel) ok Codec.latin1_lawful rfl (noCR_iff (by decide +kernel))

set_option maxRecDepth 100000 in
example : ∃ b o₁, (Doc.board cutBoard).bytes (Env.simple .latin1 true) none = some b ∧
    (Board.fromFile (Env.simple .latin1 true) (.str k!"0") k!"a" none ((cutBoard.toFile (Env.simple .latin1 true) (some k!"a") none (FS.two k!"a" k!"b" [1] [2])).final (FS.two k!"a" k!"b" [1] [2]))).1 = .ok o₁ ∧
    ∀ n, 0 < n → ∀ o₂, (Board.fromFile (Env.simple .latin1 true) (.str k!"0") k!"a" none (applySteps (FS.two k!"a" k!"b" [1] [2])
      ((cutBoard.toFile (Env.simple .latin1 true) (some k!"a") none (FS.two k!"a" k!"b" [1] [2])).steps.take n))).1 = .ok o₂ → o₂ = o₁ := by
  have ok := save_ok (.board cutBoard) (Env.simple .latin1 true) k!"a" none (FS.two k!"a" k!"b" [1] [2]) rfl (two_openable _ _ _ _) (by decide +kernel)
  obtain ⟨p', b, hp', hb, hn⟩ := C27_content (.board cutBoard) (Env.simple .latin1 true) (some k!"a") none (FS.two k!"a" k!"b" [1] [2]) ok
  cases Option.some.inj hp'
  obtain ⟨o₁, h1, -⟩ := C30_Board cutBoard cutBoard_wf (Env.simple .latin1 true) (Env.simple .latin1 true) (.str k!"0") k!"a" none none (FS.two k!"a" k!"b" [1] [2]) _ ok Codec.latin1_lawful rfl rfl
    (save_canRead (.board cutBoard) _ _ none _ _ rfl) (noCR_iff (by decide +kernel))
  refine ⟨b, o₁, hb, congrArg Prod.fst h1, fun n hpos o₂ h2 => C89_Board_interrupted_partial (.str k!"0") cutBoard (Env.simple .latin1 true) (Env.simple .latin1 true) k!"a" none none cutSafe_latin1
    (FS.two k!"a" k!"b" [1] [2]) _ (two_openable _ _ _ _) b hb hn ?_ o₁ o₂ (congrArg Prod.fst h1) n hpos h2⟩
  exact saved_noBracket (.board cutBoard) (Board.lexes (cutBoard_wf) 0 _) (by decide +kernel) ok Codec.latin1_lawful rfl (noCR_iff (by decide +kernel))

set_option maxRecDepth 100000 in
example := C89_DesignRules_violated (.int 1) [raceRule k!"a"] [raceRule k!"b"] (ok_int (by decide))
  (fun r h => by cases List.mem_singleton.1 h; exact raceRule_wf _ (by decide)) (fun r h => by cases List.mem_singleton.1 h; exact raceRule_wf _ (by decide))
  (by simp) (Env.simple .utf8 false) (Env.simple .utf8 false) (noCR_iff (by decide +kernel))

set_option maxRecDepth 100000 in
/-- A library named `Parts)))`, between two others. -/
example := C89_LibTable_violated (.str k!"sym_lib_table") (.inl rfl) (raceTable k!"a").libs (raceTable k!"b").libs (raceTable_wf k!"a" (by decide)).libs
  { name := .str k!"Parts)))", uri := .str k!"u" } k!"Parts" [] rfl (by decide) (Env.simple .utf8 true) (Env.simple .latin1 false) (by decide +kernel)

set_option maxRecDepth 100000 in
/-- A cut that is not noticed and does no harm: the line feed at the end is missing. -/
example : ∃ s : Str, sampleLibTable.toSexpr = s ++ ['\n'] ∧ parseSexp s = parseSexp sampleLibTable.toSexpr := by
  refine ⟨sampleLibTable.toSexpr 0 false, by decide +kernel, ?_⟩
  have h1 : Lexes (.ok (sampleLibTable.toSexpr 0 false)) [_] := Lexes.one fun _ _ hs => LibTable.lx sampleLibTable_wf hs
  have h2 : Lexes (.ok sampleLibTable.toSexpr) [_] := Lexes.one fun _ _ hs => LibTable.lx sampleLibTable_wf hs
  exact h1.parse.trans h2.parse.symm

end Kiutils
