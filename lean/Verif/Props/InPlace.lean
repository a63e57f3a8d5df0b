import Verif.Props.SameEncoding
import Verif.Props.Keeps
import Verif.Props.Spell
/-!
# C65, C66: opening a file and saving it in place

A file whose text is in the documented format (`Verif/Format/*.lean`; any layout) is opened and saved under the same name. C65: this
succeeds, no other file changes, and the file says the same as before. C66: doing it again does not change a single byte.
-/
namespace Kiutils

/-! ## Specification -/

/-- The attempt to save succeeds, no file but `p` changes, and `p` then contains the text `t`. -/
structure SavedAs (a : Attempt) (fs : FS) (p : Path) (env : Env) (enc : Option Codec) (t : Str) : Prop where
  success : a.outcome = .ok ()
  only : OnlyAt p fs (a.final fs)
  content : Contains env (a.final fs) p enc t

/-- The attempt to save succeeds and changes no file, not even the one that is written. -/
structure SavedUnchanged (a : Attempt) (fs : FS) : Prop where
  success : a.outcome = .ok ()
  unchanged : ∀ q, (a.final fs).node q = fs.node q

/-- Both texts are read as the same tree of lists, words and numbers. -/
def SameTree (s t : Str) : Prop := ∃ v, parseSexp s = .ok v ∧ parseSexp t = .ok v

/-! ## Lemmas -/

/-- No carriage return, and in the encoding. -/
def NoCR (has : Char → Prop) (c : Char) : Prop := has c ∧ c ≠ '\r'

theorem noCR_base {e : Codec} {has : Char → Prop} (h : CharWise e has) : Base (NoCR has) :=
  ⟨fun c hc => ⟨h.base.plain c hc, by rintro rfl; revert hc; decide⟩⟩

theorem textMode_noCR {s t : Str} (h : TextMode s t) : '\r' ∉ t := by
  induction h with
  | nil => exact List.not_mem_nil
  | crlf _ ih => exact fun hm => (List.mem_cons.1 hm).elim (fun e => nomatch e) ih
  | cr _ _ ih => exact fun hm => (List.mem_cons.1 hm).elim (fun e => nomatch e) ih
  | other hc _ ih => exact fun hm => (List.mem_cons.1 hm).elim (fun e => hc e.symm) ih

theorem contains_noCR {has : Char → Prop} {env : Env} {fs : FS} {p : Path} {enc : Option Codec} {text : Str}
    (he : CharWise (used env enc) has) (h : Contains env fs p enc text) : Chars (NoCR has) text := fun c hc =>
  ⟨contains_chars he h c hc, by rintro rfl; obtain ⟨_, _, -, -, -, hm⟩ := h; exact textMode_noCR hm hc⟩

theorem used_decode (env : Env) (enc : Option Codec) (b : Bytes) : decoded env enc b = (used env enc).decode b := by
  cases enc <;> rfl

theorem saved_as (d : Doc) {has : Char → Prop} {env : Env} {fp : Option Path} {p : Path} {enc enc' : Option Codec} {fs : FS} {t : Str}
    (he : CharWise (used env enc') has) (hl : (used env enc').Lawful) (hu : d.codec env enc = used env enc') (hp : d.target fp = some p)
    (ht : d.text = .ok t) (hc : Chars (NoCR has) t) (hf : env.full = none) (ho : Openable fs p) (hr : fs.canRead p = true) :
    SavedAs (d.toFile env fp enc fs) fs p env enc' t := by
  obtain ⟨b, hb⟩ : ∃ b, d.bytes env enc = some b := by
    have h := save_encodes d he hu ht (fun c h => (hc c h).1) hf ho
    obtain ⟨_, b, -, hb, -⟩ := C27_content d env (some p) enc fs h
    exact ⟨b, hb⟩
  have hok := C27_success d env fp enc fs p b hp ho hb hf
  refine ⟨hok, ⟨fun q hq => C27_only_target d env fp enc fs q fun e => hq (Option.some.inj (e.symm.trans hp)), ?_⟩, ?_⟩
  · rcases d.toFile_shape env fp enc fs with ⟨h', -⟩ | ⟨p, -, -, ⟨e, -, h'⟩ | ⟨b, n, -, -, -, h'⟩ | ⟨b, -, -, h'⟩⟩
    · rw [Attempt.final, h']; exact ⟨rfl, rfl⟩
    · rw [h']; exact ⟨rfl, rfl⟩
    · rw [h', Attempt.final]; exact (apply_truncate p _ fs).2.2
    · rw [h', Attempt.final]; exact (apply_truncate p _ fs).2.2
  · obtain ⟨p', b', hp', hb', hn⟩ := C27_content d env fp enc fs hok
    cases hp.symm.trans hp'
    cases hb.symm.trans hb'
    refine ⟨b, env.toLines t, hn, save_canRead d env fp enc fs p hr, ?_, ?_⟩
    · rw [used_decode]
      refine hl _ _ ?_
      unfold Doc.bytes at hb
      rw [ht, hu] at hb
      exact hb
    · have := textMode_universal (env.toLines t)
      rwa [universal_toLines env t fun h => (hc _ h).2 rfl] at this

theorem unchanged_of (d : Doc) {env : Env} {fp : Option Path} {p : Path} {enc enc' : Option Codec} {fs : FS} {t : Str}
    (hp : d.target fp = some p) (h1 : SavedAs (d.toFile env fp enc fs) fs p env enc' t)
    (h2 : SavedAs (d.toFile env fp enc ((d.toFile env fp enc fs).final fs)) ((d.toFile env fp enc fs).final fs) p env enc' t) :
    SavedUnchanged (d.toFile env fp enc ((d.toFile env fp enc fs).final fs)) ((d.toFile env fp enc fs).final fs) := by
  refine ⟨h2.success, fun q => ?_⟩
  by_cases hq : q = p
  · subst hq
    obtain ⟨q1, b, hq1, hb, hn⟩ := C27_content d env fp enc fs h1.success
    obtain ⟨q2, b', hq2, hb', hn'⟩ := C27_content d env fp enc _ h2.success
    cases hp.symm.trans hq1
    cases hp.symm.trans hq2
    cases hb.symm.trans hb'
    rw [hn', hn]
  · exact h2.only.1 q hq

theorem openable_after {fs fs' : FS} {p : Path} {env : Env} {enc : Option Codec} {t : Str} (h : OnlyAt p fs fs') (ho : Openable fs p)
    (hc : Contains env fs' p enc t) : Openable fs' p := by
  obtain ⟨b, _, hb, -⟩ := hc
  exact ⟨by rw [h.2.2]; exact ho.1, by rw [hb]; exact fun e => nomatch e⟩

/-- An object that is loaded from a text of `v`, saved, and loaded again. -/
theorem settle_of [TextRule] {α : Type} [Canon α] {s : Str} {v u w : Val} {load : Val → PyM α} {save : α → PyM Str} {e : α} (hs : TextOf v s)
    (hl : load v = .ok (canon e)) (hw : (save (canon e) >>= parseSexp) = .ok u) (h2 : load u = .ok (canon e)) (hu : u = w) :
    ∃ o t, (parseSexp s >>= load) = .ok o ∧ save o = .ok t ∧ parseSexp t = .ok w ∧ (parseSexp t >>= load) = .ok o := by
  obtain ⟨l, rfl, h⟩ := hs
  cases ht : save (canon e) with
  | error x => rw [ht] at hw; cases hw
  | ok t =>
    rw [ht] at hw
    replace hw : parseSexp t = .ok u := hw
    refine ⟨canon e, t, ?_, ht, hu ▸ hw, ?_⟩
    · rw [C06_tree_round_trip l s h]; exact hl
    · rw [hw]; exact h2

theorem textOf_parse [TextRule] {v : Val} {s : Str} (hs : TextOf v s) : parseSexp s = .ok v := by
  obtain ⟨l, rfl, h⟩ := hs
  exact C06_tree_round_trip l s h

/-- Loading, saving and loading again, for one class. -/
structure Session {α : Type} (read : Path → Str → PyM α) (mk : α → Doc) (p : Path) (text t : Str) (o : α) : Prop where
  first : read p text = .ok o
  save : (mk o).text = .ok t
  second : read p t = .ok o

theorem Session.load {α : Type} {load : Env → Path → Option Codec → FileM α} {read : Path → Str → PyM α} (hF : Faithful load read)
    {env : Env} {fs : FS} {p : Path} {enc : Option Codec} {text : Str} {o : α} (hc : Contains env fs p enc text) (h : read p text = .ok o) :
    load env p enc fs = (.ok o, fs) :=
  Prod.ext ((hF.success ..).2 ⟨_, hc, h⟩) (hF.keeps ..)

theorem contains_canRead {env : Env} {fs : FS} {p : Path} {enc : Option Codec} {text : Str} (h : Contains env fs p enc text) :
    fs.canRead p = true := let ⟨_, _, _, hr, _⟩ := h; hr

theorem contains_inj {env : Env} {fs : FS} {p : Path} {enc : Option Codec} {s t : Str} (hs : Contains env fs p enc s)
    (ht : Contains env fs p enc t) : s = t := by
  obtain ⟨b, x, h1, -, h2, h3⟩ := hs
  obtain ⟨b', x', h1', -, h2', h3'⟩ := ht
  cases h1.symm.trans h1'
  cases h2.symm.trans h2'
  rw [h3.eq, h3'.eq]

/-- C66 from a session. -/
theorem Session.again {α : Type} {load : Env → Path → Option Codec → FileM α} {read : Path → Str → PyM α} (hF : Faithful load read)
    {mk : α → Doc} {p : Path} {text t : Str} {o : α} (hS : Session read mk p text t o) {has : Char → Prop} {env : Env} {fp : Option Path}
    {enc enc' : Option Codec} {fs : FS} (he : CharWise (used env enc') has) (hl : (used env enc').Lawful)
    (hu : (mk o).codec env enc = used env enc') (hp : (mk o).target fp = some p) (hc : Chars (NoCR has) t) (hf : env.full = none)
    (ho : Openable fs p) (hr : fs.canRead p = true) :
    load env p enc' (((mk o).toFile env fp enc fs).final fs) = (.ok o, ((mk o).toFile env fp enc fs).final fs) ∧
    SavedUnchanged ((mk o).toFile env fp enc (((mk o).toFile env fp enc fs).final fs)) (((mk o).toFile env fp enc fs).final fs) := by
  have h1 := saved_as (mk o) he hl hu hp hS.save hc hf ho hr
  exact ⟨Session.load hF h1.content hS.second, unchanged_of (mk o) hp h1
    (saved_as (mk o) he hl hu hp hS.save hc hf (openable_after h1.only ho h1.content) (contains_canRead h1.content))⟩

/-! ## Files for the examples -/

/-- Latin-1 bytes. -/
def latin (s : Str) : Bytes := s.map fun c => UInt8.ofNat c.toNat

/-- A file system with two files, one of which contains the tree. -/
def FS.spelled [TextRule] [DecidablePred TextRule.text] (v : Val) : FS := FS.two k!"a" k!"b" (latin (Kiutils.spelled v)) [2]

theorem latin_contains {s : Str} (h : ∀ c ∈ s, c.toNat < 256 ∧ c ≠ '\r') (crlf : Bool) :
    Contains (Env.simple .latin1 crlf) (FS.two k!"a" k!"b" (latin s) [2]) k!"a" none s := by
  refine ⟨latin s, s, rfl, rfl, Codec.latin1_lawful s _ ?_, ?_⟩
  · have : s.all (fun c => c.toNat < 256) = true := List.all_eq_true.2 fun c hc => decide_eq_true (h c hc).1
    simp only [Codec.latin1, this, if_true]
    rfl
  · have := textMode_universal s
    rwa [show universalNewlines s = s from universal_toLines (Env.simple .latin1 false) s fun hm => (h _ hm).2 rfl] at this

theorem spelled_contains [TextRule] [DecidablePred TextRule.text] {v : Val} (h : spellable v = true) (crlf : Bool) :
    Contains (Env.simple .latin1 crlf) (FS.spelled v) k!"a" none (Kiutils.spelled v) := latin_contains (spelled_chars h) crlf

/-! ## The classes -/

theorem LibTable.settle [TextRule] (o : LibTable) (h : o.WF) (text : Str) (hs : TextOf o.toVal text) :
    ∃ o' t, (parseSexp text >>= LibTable.fromSexpr) = .ok o' ∧ (fun o : LibTable => (.ok o.toSexpr : PyM Str)) o' = .ok t ∧ parseSexp t = .ok (o.toVal) ∧
      (parseSexp t >>= LibTable.fromSexpr) = .ok o' := by
  have h0 : LibTable.WF ({ o with filePath := none } : LibTable) := (show LibTable.WF { o with filePath := none } from { h with })
  have h' := Stable.keep h0
  exact settle_of (save := (fun o : LibTable => (.ok o.toSexpr : PyM Str))) hs (LibTable.from_toVal h) (Lexes.one fun _ _ hs => LibTable.lx h' hs).parse
    ((LibTable.from_toVal h').trans (congrArg Except.ok ((show canon { canon ({ o with filePath := none } : LibTable) with filePath := none } = _ from idem ({ o with filePath := none } : LibTable)))))
    (LibTable.toVal_canon ({ o with filePath := none } : LibTable))

theorem LibTable.loaded_chars {has : Char → Prop} [Base has] {text : Str} (hc : Chars has text) {o : LibTable}
    (hr : (parseSexp text >>= LibTable.fromSexpr) = .ok o) : Chars has o.toSexpr := by
  obtain ⟨v, hv, ho⟩ := bind_ok_split hr
  have hs : Only (Chars has) v := fun s hs => stands_chars (parse_stands hv s hs) (hc)
  have hl : Only (Chars has) o := fun s h => orig_chars (LibTable.fromSexpr_only hs o ho s h)
  exact LibTable.toSexpr_chars hl

theorem C65_LibTable [TextRule] (o : LibTable) (h : o.WF) (env env' : Env) (enc enc' : Option Codec) (hu : used env' enc' = used env enc) (p : Path) (fs : FS)
    (text : Str) (hc : Contains env fs p enc text) (hs : TextOf o.toVal text) (has : Char → Prop) (he : CharWise (used env enc) has)
    (hl : (used env enc).Lawful) (hw : Openable fs p) (hf : env'.full = none) :
    ∃ o' t, LibTable.fromFile env p enc fs = (.ok o', fs) ∧ SavedAs (o'.toFile env' none enc' fs) fs p env' enc' t ∧ SameTree text t := by
  have hb := noCR_base he
  obtain ⟨o', t, h1, h2, hst, h3⟩ := LibTable.settle o h text hs
  have hch : Chars (NoCR has) t := (by cases h2; exact LibTable.loaded_chars (contains_noCR he hc) h1)
  have hS : Session (fun p text => (parseSexp text >>= LibTable.fromSexpr).map fun o => { o with filePath := some p }) Doc.libTable p text t ({ o' with filePath := some p }) := ⟨congrArg (Except.map fun o => { o with filePath := some p }) h1, h2, congrArg (Except.map fun o => { o with filePath := some p }) h3⟩
  rw [← hu] at he hl
  exact ⟨{ o' with filePath := some p }, t, Session.load C58_LibTable hc hS.first, saved_as (.libTable { o' with filePath := some p }) (enc := enc') he hl (by cases enc' <;> rfl) rfl h2 hch hf hw (contains_canRead hc), ⟨_, textOf_parse hs, hst⟩⟩

theorem C66_LibTable [TextRule] (o : LibTable) (h : o.WF) (env env' : Env) (enc enc' : Option Codec) (hu : used env' enc' = used env enc) (p : Path) (fs : FS)
    (text : Str) (hc : Contains env fs p enc text) (hs : TextOf o.toVal text) (has : Char → Prop) (he : CharWise (used env enc) has)
    (hl : (used env enc).Lawful) (hw : Openable fs p) (hf : env'.full = none) :
    ∃ o' fs', LibTable.fromFile env p enc fs = (.ok o', fs) ∧ (o'.toFile env' none enc' fs).final fs = fs' ∧
      LibTable.fromFile env' p enc' fs' = (.ok o', fs') ∧ SavedUnchanged (o'.toFile env' none enc' fs') fs' := by
  have hb := noCR_base he
  obtain ⟨o', t, h1, h2, hst, h3⟩ := LibTable.settle o h text hs
  have hch : Chars (NoCR has) t := (by cases h2; exact LibTable.loaded_chars (contains_noCR he hc) h1)
  have hS : Session (fun p text => (parseSexp text >>= LibTable.fromSexpr).map fun o => { o with filePath := some p }) Doc.libTable p text t ({ o' with filePath := some p }) := ⟨congrArg (Except.map fun o => { o with filePath := some p }) h1, h2, congrArg (Except.map fun o => { o with filePath := some p }) h3⟩
  rw [← hu] at he hl
  exact ⟨{ o' with filePath := some p }, _, Session.load C58_LibTable hc hS.first, rfl, Session.again C58_LibTable hS (fp := none) (enc := enc') he hl (by cases enc' <;> rfl) rfl hch hf hw (contains_canRead hc)⟩

set_option maxRecDepth 100000 in
example := C65_LibTable sampleLibTable sampleLibTable_wf (Env.simple .latin1 false) (Env.simple .latin1 true) none none rfl k!"a" (FS.spelled sampleLibTable.toVal) _
  (spelled_contains (by decide +kernel) false) (spelled_textOf (by decide +kernel)) _ charWise_latin1 Codec.latin1_lawful (two_openable ..) rfl
set_option maxRecDepth 100000 in
example := C66_LibTable sampleLibTable sampleLibTable_wf (Env.simple .latin1 false) (Env.simple .latin1 true) none none rfl k!"a" (FS.spelled sampleLibTable.toVal) _
  (spelled_contains (by decide +kernel) false) (spelled_textOf (by decide +kernel)) _ charWise_latin1 Codec.latin1_lawful (two_openable ..) rfl

theorem DesignRules.settle [TextRule] (o : DesignRules) (h : o.WF) (text : Str) (hs : PrintsSeq o.toVals text) :
    ∃ o' t, DesignRules.parseText text = .ok o' ∧ o'.toSexpr = .ok t ∧ SameTree ('(' :: (text ++ [')'])) ('(' :: (t ++ [')'])) ∧
      DesignRules.parseText t = .ok o' := by
  have hp : parseSexp ('(' :: (text ++ [')'])) = .ok (.list o.toVals) :=
    C06_tree_round_trip _ _ ⟨[], text, fun _ h => absurd h List.not_mem_nil, hs, rfl⟩
  have h' := Stable.keep (show DesignRules.WF { o with filePath := none } from { h with })
  have hd := C48_DesignRules _ h' 0 false
  have hg := DesignRules.parse h' 0 false
  have ht : (canon ({ o with filePath := none } : DesignRules)).toVals = o.toVals := DesignRules.toVals_canon { o with filePath := none }
  rw [ht] at hd
  unfold Denotes at hd
  cases hx : (canon ({ o with filePath := none } : DesignRules)).toSexpr with
  | error e => rw [hx] at hd; cases hd
  | ok t =>
    rw [hx] at hd hg
    refine ⟨_, t, ?_, hx, ⟨_, hp, hd⟩, hg.trans (congrArg Except.ok (idem ({ o with filePath := none } : DesignRules)))⟩
    rw [DesignRules.parseText, hp]
    exact DesignRules.from_toVals h

theorem DesignRules.loaded_chars {has : Char → Prop} [Base has] {text : Str} (hc : Chars has text) {o : DesignRules}
    (hr : DesignRules.parseText text = .ok o) (t : Str) (ht : o.toSexpr = .ok t) : Chars has t := by
  obtain ⟨v, hv, ho⟩ := bind_ok_split hr
  have hs : Only (Chars has) v := fun s hs => stands_chars (parse_stands hv s hs) (.cons (by decide) (.append hc (.cons (by decide) .nil)))
  have hl : Only (Chars has) o := fun s h => orig_chars (DesignRules.fromSexpr_only hs o ho s h)
  exact DesignRules.toSexpr_chars hl t ht

theorem C65_DesignRules [TextRule] (o : DesignRules) (h : o.WF) (env env' : Env) (enc enc' : Option Codec) (hu : used env' enc' = used env enc) (p : Path) (fs : FS)
    (text : Str) (hc : Contains env fs p enc text) (hs : PrintsSeq o.toVals text) (has : Char → Prop) (he : CharWise (used env enc) has)
    (hl : (used env enc).Lawful) (hw : Openable fs p) (hf : env'.full = none) :
    ∃ o' t, DesignRules.fromFile env p enc fs = (.ok o', fs) ∧ SavedAs (o'.toFile env' none enc' fs) fs p env' enc' t ∧ SameTree ('(' :: (text ++ [')'])) ('(' :: (t ++ [')'])) := by
  have hb := noCR_base he
  obtain ⟨o', t, h1, h2, hst, h3⟩ := DesignRules.settle o h text hs
  have hch : Chars (NoCR has) t := DesignRules.loaded_chars (contains_noCR he hc) h1 t h2
  have hS : Session (fun p text => (parseSexp ('(' :: (text ++ [')'])) >>= DesignRules.fromSexpr).map fun o => { o with filePath := some p }) Doc.designRules p text t ({ o' with filePath := some p }) := ⟨congrArg (Except.map fun o => { o with filePath := some p }) h1, h2, congrArg (Except.map fun o => { o with filePath := some p }) h3⟩
  rw [← hu] at he hl
  exact ⟨{ o' with filePath := some p }, t, Session.load C58_DesignRules hc hS.first, saved_as (.designRules { o' with filePath := some p }) (enc := enc') he hl (by cases enc' <;> rfl) rfl h2 hch hf hw (contains_canRead hc), hst⟩

theorem C66_DesignRules [TextRule] (o : DesignRules) (h : o.WF) (env env' : Env) (enc enc' : Option Codec) (hu : used env' enc' = used env enc) (p : Path) (fs : FS)
    (text : Str) (hc : Contains env fs p enc text) (hs : PrintsSeq o.toVals text) (has : Char → Prop) (he : CharWise (used env enc) has)
    (hl : (used env enc).Lawful) (hw : Openable fs p) (hf : env'.full = none) :
    ∃ o' fs', DesignRules.fromFile env p enc fs = (.ok o', fs) ∧ (o'.toFile env' none enc' fs).final fs = fs' ∧
      DesignRules.fromFile env' p enc' fs' = (.ok o', fs') ∧ SavedUnchanged (o'.toFile env' none enc' fs') fs' := by
  have hb := noCR_base he
  obtain ⟨o', t, h1, h2, hst, h3⟩ := DesignRules.settle o h text hs
  have hch : Chars (NoCR has) t := DesignRules.loaded_chars (contains_noCR he hc) h1 t h2
  have hS : Session (fun p text => (parseSexp ('(' :: (text ++ [')'])) >>= DesignRules.fromSexpr).map fun o => { o with filePath := some p }) Doc.designRules p text t ({ o' with filePath := some p }) := ⟨congrArg (Except.map fun o => { o with filePath := some p }) h1, h2, congrArg (Except.map fun o => { o with filePath := some p }) h3⟩
  rw [← hu] at he hl
  exact ⟨{ o' with filePath := some p }, _, Session.load C58_DesignRules hc hS.first, rfl, Session.again C58_DesignRules hS (fp := none) (enc := enc') he hl (by cases enc' <;> rfl) rfl hch hf hw (contains_canRead hc)⟩

/-- A text of the sample. -/
def spelledRules : Str := (spellSeq sampleDesignRules.toVals).getD []
theorem spelledRules_ok : PrintsSeq sampleDesignRules.toVals spelledRules :=
  spellSeq_prints _ _ (Option.some_get (by decide +kernel : (spellSeq sampleDesignRules.toVals).isSome)).symm
set_option maxRecDepth 100000 in
example := C65_DesignRules sampleDesignRules sampleDesignRules_wf (Env.simple .latin1 false) (Env.simple .latin1 true) none none rfl k!"a"
  (FS.two k!"a" k!"b" (latin spelledRules) [2]) _ (latin_contains (by decide +kernel) false) spelledRules_ok _ charWise_latin1 Codec.latin1_lawful (two_openable ..) rfl
set_option maxRecDepth 100000 in
example := C66_DesignRules sampleDesignRules sampleDesignRules_wf (Env.simple .latin1 false) (Env.simple .latin1 true) none none rfl k!"a"
  (FS.two k!"a" k!"b" (latin spelledRules) [2]) _ (latin_contains (by decide +kernel) false) spelledRules_ok _ charWise_latin1 Codec.latin1_lawful (two_openable ..) rfl

theorem WorkSheet.settle [TextRule] (o : WorkSheet) (h : o.WF) (text : Str) (hs : TextOf o.toVal text) :
    ∃ o' t, (parseSexp text >>= WorkSheet.fromSexpr) = .ok o' ∧ (fun o : WorkSheet => o.toSexpr) o' = .ok t ∧ parseSexp t = .ok (o.toVal) ∧
      (parseSexp t >>= WorkSheet.fromSexpr) = .ok o' := by
  have h0 : WorkSheet.WF ({ o with filePath := none } : WorkSheet) := (show WorkSheet.WF { o with filePath := none } from { h with })
  have h' := Stable.keep h0
  exact settle_of (save := (fun o : WorkSheet => o.toSexpr)) hs (WorkSheet.from_toVal h) (WorkSheet.lx h' 0 true).parse
    ((WorkSheet.from_toVal h').trans (congrArg Except.ok ((show canon { canon ({ o with filePath := none } : WorkSheet) with filePath := none } = _ from idem ({ o with filePath := none } : WorkSheet)))))
    (WorkSheet.toVal_canon ({ o with filePath := none } : WorkSheet))

theorem WorkSheet.loaded_chars {has : Char → Prop} [Base has] {text : Str} (hc : Chars has text) {o : WorkSheet}
    (hr : (parseSexp text >>= WorkSheet.fromSexpr) = .ok o) (t : Str) (ht : o.toSexpr = .ok t) : Chars has t := by
  obtain ⟨v, hv, ho⟩ := bind_ok_split hr
  have hs : Only (Chars has) v := fun s hs => stands_chars (parse_stands hv s hs) (hc)
  have hl : Only (Chars has) o := fun s h => orig_chars (WorkSheet.fromSexpr_only hs o ho s h)
  exact WorkSheet.toSexpr_chars hl t ht

/-- There is no argument for the encoding: it has to be that of the platform (C44). -/
theorem C65_WorkSheet [TextRule] (o : WorkSheet) (h : o.WF) (env env' : Env) (enc : Option Codec) (hu : env'.locale = used env enc) (p : Path) (fs : FS)
    (text : Str) (hc : Contains env fs p enc text) (hs : TextOf o.toVal text) (has : Char → Prop) (he : CharWise (used env enc) has)
    (hl : (used env enc).Lawful) (hw : Openable fs p) (hf : env'.full = none) :
    ∃ o' t, WorkSheet.fromFile env p enc fs = (.ok o', fs) ∧ SavedAs (o'.toFile env' none fs) fs p env' none t ∧ SameTree text t := by
  have hb := noCR_base he
  obtain ⟨o', t, h1, h2, hst, h3⟩ := WorkSheet.settle o h text hs
  have hch : Chars (NoCR has) t := WorkSheet.loaded_chars (contains_noCR he hc) h1 t h2
  have hS : Session (fun p text => (parseSexp text >>= WorkSheet.fromSexpr).map fun o => { o with filePath := some p }) Doc.workSheet p text t ({ o' with filePath := some p }) := ⟨congrArg (Except.map fun o => { o with filePath := some p }) h1, h2, congrArg (Except.map fun o => { o with filePath := some p }) h3⟩
  rw [← hu] at he hl
  exact ⟨{ o' with filePath := some p }, t, Session.load C58_WorkSheet hc hS.first, saved_as (.workSheet { o' with filePath := some p }) (enc := none) he hl rfl rfl h2 hch hf hw (contains_canRead hc), ⟨_, textOf_parse hs, hst⟩⟩

theorem C66_WorkSheet [TextRule] (o : WorkSheet) (h : o.WF) (env env' : Env) (enc : Option Codec) (hu : env'.locale = used env enc) (p : Path) (fs : FS)
    (text : Str) (hc : Contains env fs p enc text) (hs : TextOf o.toVal text) (has : Char → Prop) (he : CharWise (used env enc) has)
    (hl : (used env enc).Lawful) (hw : Openable fs p) (hf : env'.full = none) :
    ∃ o' fs', WorkSheet.fromFile env p enc fs = (.ok o', fs) ∧ (o'.toFile env' none fs).final fs = fs' ∧
      WorkSheet.fromFile env' p none fs' = (.ok o', fs') ∧ SavedUnchanged (o'.toFile env' none fs') fs' := by
  have hb := noCR_base he
  obtain ⟨o', t, h1, h2, hst, h3⟩ := WorkSheet.settle o h text hs
  have hch : Chars (NoCR has) t := WorkSheet.loaded_chars (contains_noCR he hc) h1 t h2
  have hS : Session (fun p text => (parseSexp text >>= WorkSheet.fromSexpr).map fun o => { o with filePath := some p }) Doc.workSheet p text t ({ o' with filePath := some p }) := ⟨congrArg (Except.map fun o => { o with filePath := some p }) h1, h2, congrArg (Except.map fun o => { o with filePath := some p }) h3⟩
  rw [← hu] at he hl
  exact ⟨{ o' with filePath := some p }, _, Session.load C58_WorkSheet hc hS.first, rfl, Session.again C58_WorkSheet hS (fp := none) (enc := none) he hl rfl rfl hch hf hw (contains_canRead hc)⟩

set_option maxRecDepth 100000 in
example := C65_WorkSheet sampleWorkSheet sampleWorkSheet_wf (Env.simple .latin1 false) (Env.simple .latin1 true) none rfl k!"a" (FS.spelled sampleWorkSheet.toVal) _
  (spelled_contains (by decide +kernel) false) (spelled_textOf (by decide +kernel)) _ charWise_latin1 Codec.latin1_lawful (two_openable ..) rfl
set_option maxRecDepth 100000 in
example := C66_WorkSheet sampleWorkSheet sampleWorkSheet_wf (Env.simple .latin1 false) (Env.simple .latin1 true) none rfl k!"a" (FS.spelled sampleWorkSheet.toVal) _
  (spelled_contains (by decide +kernel) false) (spelled_textOf (by decide +kernel)) _ charWise_latin1 Codec.latin1_lawful (two_openable ..) rfl

theorem SymbolLib.settle [TextRule] (o : SymbolLib) (h : o.WF) (text : Str) (hs : TextOf o.toVal text) :
    ∃ o' t, (parseSexp text >>= SymbolLib.fromSexpr) = .ok o' ∧ (fun o : SymbolLib => (.ok o.toSexpr : PyM Str)) o' = .ok t ∧ parseSexp t = .ok (o.toVal) ∧
      (parseSexp t >>= SymbolLib.fromSexpr) = .ok o' := by
  have h0 : SymbolLib.WF ({ o with filePath := none } : SymbolLib) := (show SymbolLib.WF { o with filePath := none } from { h with })
  have h' := Stable.keep h0
  exact settle_of (save := (fun o : SymbolLib => (.ok o.toSexpr : PyM Str))) hs (SymbolLib.from_toVal h) (Lexes.one fun _ _ hs => SymbolLib.lx h' hs).parse
    ((SymbolLib.from_toVal h').trans (congrArg Except.ok ((show canon { canon ({ o with filePath := none } : SymbolLib) with filePath := none } = _ from idem ({ o with filePath := none } : SymbolLib)))))
    (SymbolLib.toVal_canon ({ o with filePath := none } : SymbolLib) h0)

theorem SymbolLib.loaded_chars {has : Char → Prop} [Base has] {text : Str} (hc : Chars has text) {o : SymbolLib}
    (hr : (parseSexp text >>= SymbolLib.fromSexpr) = .ok o) : Chars has o.toSexpr := by
  obtain ⟨v, hv, ho⟩ := bind_ok_split hr
  have hs : Only (Chars has) v := fun s hs => stands_chars (parse_stands hv s hs) (hc)
  have hl : Only (Chars has) o := fun s h => orig_chars (SymbolLib.fromSexpr_only hs o ho s h)
  exact SymbolLib.toSexpr_chars hl

theorem C65_SymbolLib [TextRule] (o : SymbolLib) (h : o.WF) (env env' : Env) (enc enc' : Option Codec) (hu : used env' enc' = used env enc) (p : Path) (fs : FS)
    (text : Str) (hc : Contains env fs p enc text) (hs : TextOf o.toVal text) (has : Char → Prop) (he : CharWise (used env enc) has)
    (hl : (used env enc).Lawful) (hw : Openable fs p) (hf : env'.full = none) :
    ∃ o' t, SymbolLib.fromFile env p enc fs = (.ok o', fs) ∧ SavedAs (o'.toFile env' none enc' fs) fs p env' enc' t ∧ SameTree text t := by
  have hb := noCR_base he
  obtain ⟨o', t, h1, h2, hst, h3⟩ := SymbolLib.settle o h text hs
  have hch : Chars (NoCR has) t := (by cases h2; exact SymbolLib.loaded_chars (contains_noCR he hc) h1)
  have hS : Session (fun p text => (parseSexp text >>= SymbolLib.fromSexpr).map fun o => { o with filePath := some p }) Doc.symbolLib p text t ({ o' with filePath := some p }) := ⟨congrArg (Except.map fun o => { o with filePath := some p }) h1, h2, congrArg (Except.map fun o => { o with filePath := some p }) h3⟩
  rw [← hu] at he hl
  exact ⟨{ o' with filePath := some p }, t, Session.load C58_SymbolLib hc hS.first, saved_as (.symbolLib { o' with filePath := some p }) (enc := enc') he hl (by cases enc' <;> rfl) rfl h2 hch hf hw (contains_canRead hc), ⟨_, textOf_parse hs, hst⟩⟩

theorem C66_SymbolLib [TextRule] (o : SymbolLib) (h : o.WF) (env env' : Env) (enc enc' : Option Codec) (hu : used env' enc' = used env enc) (p : Path) (fs : FS)
    (text : Str) (hc : Contains env fs p enc text) (hs : TextOf o.toVal text) (has : Char → Prop) (he : CharWise (used env enc) has)
    (hl : (used env enc).Lawful) (hw : Openable fs p) (hf : env'.full = none) :
    ∃ o' fs', SymbolLib.fromFile env p enc fs = (.ok o', fs) ∧ (o'.toFile env' none enc' fs).final fs = fs' ∧
      SymbolLib.fromFile env' p enc' fs' = (.ok o', fs') ∧ SavedUnchanged (o'.toFile env' none enc' fs') fs' := by
  have hb := noCR_base he
  obtain ⟨o', t, h1, h2, hst, h3⟩ := SymbolLib.settle o h text hs
  have hch : Chars (NoCR has) t := (by cases h2; exact SymbolLib.loaded_chars (contains_noCR he hc) h1)
  have hS : Session (fun p text => (parseSexp text >>= SymbolLib.fromSexpr).map fun o => { o with filePath := some p }) Doc.symbolLib p text t ({ o' with filePath := some p }) := ⟨congrArg (Except.map fun o => { o with filePath := some p }) h1, h2, congrArg (Except.map fun o => { o with filePath := some p }) h3⟩
  rw [← hu] at he hl
  exact ⟨{ o' with filePath := some p }, _, Session.load C58_SymbolLib hc hS.first, rfl, Session.again C58_SymbolLib hS (fp := none) (enc := enc') he hl (by cases enc' <;> rfl) rfl hch hf hw (contains_canRead hc)⟩

set_option maxRecDepth 100000 in
example := C65_SymbolLib sampleSymbolLib sampleSymbolLib_wf (Env.simple .latin1 false) (Env.simple .latin1 true) none none rfl k!"a" (FS.spelled sampleSymbolLib.toVal) _
  (spelled_contains (by decide +kernel) false) (spelled_textOf (by decide +kernel)) _ charWise_latin1 Codec.latin1_lawful (two_openable ..) rfl
set_option maxRecDepth 100000 in
example := C66_SymbolLib sampleSymbolLib sampleSymbolLib_wf (Env.simple .latin1 false) (Env.simple .latin1 true) none none rfl k!"a" (FS.spelled sampleSymbolLib.toVal) _
  (spelled_contains (by decide +kernel) false) (spelled_textOf (by decide +kernel)) _ charWise_latin1 Codec.latin1_lawful (two_openable ..) rfl

theorem Schematic.settle [TextRule] (o : Schematic) (h : o.WF) (hprec : ∀ v ∈ o.sheets, FixOk 4 v.fill.A) (text : Str) (hs : TextOf o.toVal text) :
    ∃ o' t, (parseSexp text >>= Schematic.fromSexpr) = .ok o' ∧ (fun o : Schematic => o.toSexpr) o' = .ok t ∧ parseSexp t = .ok (Schematic.toVal { o with junctions := o.junctions.map fun j => { j with diameter := .int 0 } }) ∧
      (parseSexp t >>= Schematic.fromSexpr) = .ok o' := by
  have h0 : Schematic.WF o.asRead := Schematic.WF.asRead h hprec
  have h' := Stable.keep h0
  exact settle_of (save := (fun o : Schematic => o.toSexpr)) hs (Schematic.from_toVal h) (Schematic.lexes h' 0 true).parse
    ((Schematic.from_toVal h').trans (congrArg Except.ok (Schematic.asRead_idem o)))
    ((Schematic.toVal_canon o.asRead h0).trans (by simp only [Schematic.asRead, Schematic.toVal, Schematic.asRead_sheets]; rfl))

theorem Schematic.loaded_chars {has : Char → Prop} [Base has] {text : Str} (hc : Chars has text) {o : Schematic}
    (hr : (parseSexp text >>= Schematic.fromSexpr) = .ok o) (t : Str) (ht : o.toSexpr = .ok t) : Chars has t := by
  obtain ⟨v, hv, ho⟩ := bind_ok_split hr
  have hs : Only (Chars has) v := fun s hs => stands_chars (parse_stands hv s hs) (hc)
  have hl : Only (Chars has) o := fun s h => orig_chars (Schematic.fromSexpr_only hs o ho s h)
  exact Schematic.toSexpr_chars hl t ht

/-- Junctions lose their diameter (C22); nothing else changes. -/
theorem C65_Schematic [TextRule] (o : Schematic) (h : o.WF) (hprec : ∀ v ∈ o.sheets, FixOk 4 v.fill.A) (env env' : Env) (enc enc' : Option Codec) (hu : used env' enc' = used env enc) (p : Path) (fs : FS)
    (text : Str) (hc : Contains env fs p enc text) (hs : TextOf o.toVal text) (has : Char → Prop) (he : CharWise (used env enc) has)
    (hl : (used env enc).Lawful) (hw : Openable fs p) (hf : env'.full = none) :
    ∃ o' t, Schematic.fromFile env p enc fs = (.ok o', fs) ∧ SavedAs (o'.toFile env' none enc' fs) fs p env' enc' t ∧ parseSexp t = .ok (Schematic.toVal { o with junctions := o.junctions.map fun j => { j with diameter := .int 0 } }) := by
  have hb := noCR_base he
  obtain ⟨o', t, h1, h2, hst, h3⟩ := Schematic.settle o h hprec text hs
  have hch : Chars (NoCR has) t := Schematic.loaded_chars (contains_noCR he hc) h1 t h2
  have hS : Session (fun p text => (parseSexp text >>= Schematic.fromSexpr).map fun o => { o with filePath := some p }) Doc.schematic p text t ({ o' with filePath := some p }) := ⟨congrArg (Except.map fun o => { o with filePath := some p }) h1, h2, congrArg (Except.map fun o => { o with filePath := some p }) h3⟩
  rw [← hu] at he hl
  exact ⟨{ o' with filePath := some p }, t, Session.load C58_Schematic hc hS.first, saved_as (.schematic { o' with filePath := some p }) (enc := enc') he hl (by cases enc' <;> rfl) rfl h2 hch hf hw (contains_canRead hc), hst⟩

theorem C66_Schematic [TextRule] (o : Schematic) (h : o.WF) (hprec : ∀ v ∈ o.sheets, FixOk 4 v.fill.A) (env env' : Env) (enc enc' : Option Codec) (hu : used env' enc' = used env enc) (p : Path) (fs : FS)
    (text : Str) (hc : Contains env fs p enc text) (hs : TextOf o.toVal text) (has : Char → Prop) (he : CharWise (used env enc) has)
    (hl : (used env enc).Lawful) (hw : Openable fs p) (hf : env'.full = none) :
    ∃ o' fs', Schematic.fromFile env p enc fs = (.ok o', fs) ∧ (o'.toFile env' none enc' fs).final fs = fs' ∧
      Schematic.fromFile env' p enc' fs' = (.ok o', fs') ∧ SavedUnchanged (o'.toFile env' none enc' fs') fs' := by
  have hb := noCR_base he
  obtain ⟨o', t, h1, h2, hst, h3⟩ := Schematic.settle o h hprec text hs
  have hch : Chars (NoCR has) t := Schematic.loaded_chars (contains_noCR he hc) h1 t h2
  have hS : Session (fun p text => (parseSexp text >>= Schematic.fromSexpr).map fun o => { o with filePath := some p }) Doc.schematic p text t ({ o' with filePath := some p }) := ⟨congrArg (Except.map fun o => { o with filePath := some p }) h1, h2, congrArg (Except.map fun o => { o with filePath := some p }) h3⟩
  rw [← hu] at he hl
  exact ⟨{ o' with filePath := some p }, _, Session.load C58_Schematic hc hS.first, rfl, Session.again C58_Schematic hS (fp := none) (enc := enc') he hl (by cases enc' <;> rfl) rfl hch hf hw (contains_canRead hc)⟩

set_option maxRecDepth 100000 in
example := C65_Schematic smallSchematic smallSchematic_wf (fun _ h => nomatch h) (Env.simple .latin1 false) (Env.simple .latin1 true) none none rfl k!"a" (FS.spelled smallSchematic.toVal) _
  (spelled_contains (by decide +kernel) false) (spelled_textOf (by decide +kernel)) _ charWise_latin1 Codec.latin1_lawful (two_openable ..) rfl
set_option maxRecDepth 100000 in
example := C66_Schematic smallSchematic smallSchematic_wf (fun _ h => nomatch h) (Env.simple .latin1 false) (Env.simple .latin1 true) none none rfl k!"a" (FS.spelled smallSchematic.toVal) _
  (spelled_contains (by decide +kernel) false) (spelled_textOf (by decide +kernel)) _ charWise_latin1 Codec.latin1_lawful (two_openable ..) rfl

theorem Footprint.settle [TextRule] (o : Footprint) (h : o.WF) (tedit : Val) (text : Str) (hs : TextOf o.toVal text) :
    ∃ o' t, (parseSexp text >>= (Footprint.fromSexpr tedit)) = .ok o' ∧ (fun o : Footprint => o.toSexpr) o' = .ok t ∧ parseSexp t = .ok (o.toVal) ∧
      (parseSexp t >>= (Footprint.fromSexpr tedit)) = .ok o' := by
  have h0 : Footprint.WF ({ o with filePath := none } : Footprint) := (show Footprint.WF { o with filePath := none } from { h with })
  have h' := Stable.keep h0
  exact settle_of (save := (fun o : Footprint => o.toSexpr)) hs (Footprint.from_toVal h tedit) (Footprint.lexes h' 0 true false).parse
    ((Footprint.from_toVal h' tedit).trans (congrArg Except.ok ((show canon { canon ({ o with filePath := none } : Footprint) with filePath := none } = _ from idem ({ o with filePath := none } : Footprint)))))
    (Footprint.toVal_canon ({ o with filePath := none } : Footprint) h0)

theorem Footprint.loaded_chars (tedit : Val) (hclock : PlainClock tedit) {has : Char → Prop} [Base has] {text : Str} (hc : Chars has text) {o : Footprint}
    (hr : (parseSexp text >>= (Footprint.fromSexpr tedit)) = .ok o) (t : Str) (ht : o.toSexpr = .ok t) : Chars has t := by
  obtain ⟨v, hv, ho⟩ := bind_ok_split hr
  have hs : Only (Chars has) v := fun s hs => stands_chars (parse_stands hv s hs) (hc)
  have hl : Only (Chars has) o := fun s h => orig_chars (Footprint.fromSexpr_only (clock_chars hclock) hs (listName_chars hs) o ho s h)
  exact Footprint.toSexpr_chars hl t ht

/-- The path has to be given, as it is not stored (C27). -/
theorem C65_Footprint [TextRule] (o : Footprint) (h : o.WF) (env env' : Env) (enc enc' : Option Codec) (hu : used env' enc' = used env enc) (tedit : Val) (hclock : PlainClock tedit) (p : Path) (fs : FS)
    (text : Str) (hc : Contains env fs p enc text) (hs : TextOf o.toVal text) (has : Char → Prop) (he : CharWise (used env enc) has)
    (hl : (used env enc).Lawful) (hw : Openable fs p) (hf : env'.full = none) :
    ∃ o' t, Footprint.fromFile env tedit p enc fs = (.ok o', fs) ∧ SavedAs (o'.toFile env' (some p) enc' fs) fs p env' enc' t ∧ SameTree text t := by
  have hb := noCR_base he
  obtain ⟨o', t, h1, h2, hst, h3⟩ := Footprint.settle o h tedit text hs
  have hch : Chars (NoCR has) t := Footprint.loaded_chars tedit hclock (contains_noCR he hc) h1 t h2
  have hS : Session (fun _ text => parseSexp text >>= (Footprint.fromSexpr tedit)) Doc.footprint p text t (o') := ⟨h1, h2, h3⟩
  rw [← hu] at he hl
  exact ⟨o', t, Session.load (C58_Footprint tedit) hc hS.first, saved_as (.footprint o') (enc := enc') he hl (by cases enc' <;> rfl) rfl h2 hch hf hw (contains_canRead hc), ⟨_, textOf_parse hs, hst⟩⟩

theorem C66_Footprint [TextRule] (o : Footprint) (h : o.WF) (env env' : Env) (enc enc' : Option Codec) (hu : used env' enc' = used env enc) (tedit : Val) (hclock : PlainClock tedit) (p : Path) (fs : FS)
    (text : Str) (hc : Contains env fs p enc text) (hs : TextOf o.toVal text) (has : Char → Prop) (he : CharWise (used env enc) has)
    (hl : (used env enc).Lawful) (hw : Openable fs p) (hf : env'.full = none) :
    ∃ o' fs', Footprint.fromFile env tedit p enc fs = (.ok o', fs) ∧ (o'.toFile env' (some p) enc' fs).final fs = fs' ∧
      Footprint.fromFile env' tedit p enc' fs' = (.ok o', fs') ∧ SavedUnchanged (o'.toFile env' (some p) enc' fs') fs' := by
  have hb := noCR_base he
  obtain ⟨o', t, h1, h2, hst, h3⟩ := Footprint.settle o h tedit text hs
  have hch : Chars (NoCR has) t := Footprint.loaded_chars tedit hclock (contains_noCR he hc) h1 t h2
  have hS : Session (fun _ text => parseSexp text >>= (Footprint.fromSexpr tedit)) Doc.footprint p text t (o') := ⟨h1, h2, h3⟩
  rw [← hu] at he hl
  exact ⟨o', _, Session.load (C58_Footprint tedit) hc hS.first, rfl, Session.again (C58_Footprint tedit) hS (fp := (some p)) (enc := enc') he hl (by cases enc' <;> rfl) rfl hch hf hw (contains_canRead hc)⟩

set_option maxRecDepth 100000 in
example := C65_Footprint smallFootprint smallFootprint_wf (Env.simple .latin1 false) (Env.simple .latin1 true) none none rfl (.str k!"0") (by unfold PlainClock; decide) k!"a" (FS.spelled smallFootprint.toVal) _
  (spelled_contains (by decide +kernel) false) (spelled_textOf (by decide +kernel)) _ charWise_latin1 Codec.latin1_lawful (two_openable ..) rfl
set_option maxRecDepth 100000 in
example := C66_Footprint smallFootprint smallFootprint_wf (Env.simple .latin1 false) (Env.simple .latin1 true) none none rfl (.str k!"0") (by unfold PlainClock; decide) k!"a" (FS.spelled smallFootprint.toVal) _
  (spelled_contains (by decide +kernel) false) (spelled_textOf (by decide +kernel)) _ charWise_latin1 Codec.latin1_lawful (two_openable ..) rfl

theorem Board.settle [TextRule] (o : Board) (h : o.WF) (tedit : Val) (text : Str) (hs : TextOf o.toVal text) :
    ∃ o' t, (parseSexp text >>= (Board.fromSexpr tedit)) = .ok o' ∧ (fun o : Board => o.toSexpr) o' = .ok t ∧ parseSexp t = .ok (Board.toVal { o with setup := { o.setup with plotSettings := o.setup.plotSettings.map fun p => { p with useAuxOrigin := false } } }) ∧
      (parseSexp t >>= (Board.fromSexpr tedit)) = .ok o' := by
  have h0 : Board.WF o.asRead := Board.WF.asRead h
  have h' := Stable.keep h0
  exact settle_of (save := (fun o : Board => o.toSexpr)) hs (Board.from_toVal h tedit) (Board.lexes h' 0 true).parse
    ((Board.from_toVal h' tedit).trans (congrArg Except.ok (Board.asRead_idem o)))
    ((Board.toVal_canon o.asRead h0).trans (by simp only [Board.asRead, Board.toVal, Board.asRead_footprints]; rfl))

theorem Board.loaded_chars (tedit : Val) (hclock : PlainClock tedit) {has : Char → Prop} [Base has] {text : Str} (hc : Chars has text) {o : Board}
    (hr : (parseSexp text >>= (Board.fromSexpr tedit)) = .ok o) (t : Str) (ht : o.toSexpr = .ok t) : Chars has t := by
  obtain ⟨v, hv, ho⟩ := bind_ok_split hr
  have hs : Only (Chars has) v := fun s hs => stands_chars (parse_stands hv s hs) (hc)
  have hl : Only (Chars has) o := fun s h => orig_chars (Board.fromSexpr_only (clock_chars hclock) hs (fun l e x hx => listName_chars (Only.mem (by subst e; exact hs.list) hx)) o ho s h)
  exact Board.toSexpr_chars hl t ht

/-- The plot settings lose `useauxorigin` (C40); nothing else changes. -/
theorem C65_Board [TextRule] (o : Board) (h : o.WF) (env env' : Env) (enc enc' : Option Codec) (hu : used env' enc' = used env enc) (tedit : Val) (hclock : PlainClock tedit) (p : Path) (fs : FS)
    (text : Str) (hc : Contains env fs p enc text) (hs : TextOf o.toVal text) (has : Char → Prop) (he : CharWise (used env enc) has)
    (hl : (used env enc).Lawful) (hw : Openable fs p) (hf : env'.full = none) :
    ∃ o' t, Board.fromFile env tedit p enc fs = (.ok o', fs) ∧ SavedAs (o'.toFile env' none enc' fs) fs p env' enc' t ∧ parseSexp t = .ok (Board.toVal { o with setup := { o.setup with plotSettings := o.setup.plotSettings.map fun p => { p with useAuxOrigin := false } } }) := by
  have hb := noCR_base he
  obtain ⟨o', t, h1, h2, hst, h3⟩ := Board.settle o h tedit text hs
  have hch : Chars (NoCR has) t := Board.loaded_chars tedit hclock (contains_noCR he hc) h1 t h2
  have hS : Session (fun p text => (parseSexp text >>= (Board.fromSexpr tedit)).map fun o => { o with filePath := some p }) Doc.board p text t ({ o' with filePath := some p }) := ⟨congrArg (Except.map fun o => { o with filePath := some p }) h1, h2, congrArg (Except.map fun o => { o with filePath := some p }) h3⟩
  rw [← hu] at he hl
  exact ⟨{ o' with filePath := some p }, t, Session.load (C58_Board tedit) hc hS.first, saved_as (.board { o' with filePath := some p }) (enc := enc') he hl (by cases enc' <;> rfl) rfl h2 hch hf hw (contains_canRead hc), hst⟩

theorem C66_Board [TextRule] (o : Board) (h : o.WF) (env env' : Env) (enc enc' : Option Codec) (hu : used env' enc' = used env enc) (tedit : Val) (hclock : PlainClock tedit) (p : Path) (fs : FS)
    (text : Str) (hc : Contains env fs p enc text) (hs : TextOf o.toVal text) (has : Char → Prop) (he : CharWise (used env enc) has)
    (hl : (used env enc).Lawful) (hw : Openable fs p) (hf : env'.full = none) :
    ∃ o' fs', Board.fromFile env tedit p enc fs = (.ok o', fs) ∧ (o'.toFile env' none enc' fs).final fs = fs' ∧
      Board.fromFile env' tedit p enc' fs' = (.ok o', fs') ∧ SavedUnchanged (o'.toFile env' none enc' fs') fs' := by
  have hb := noCR_base he
  obtain ⟨o', t, h1, h2, hst, h3⟩ := Board.settle o h tedit text hs
  have hch : Chars (NoCR has) t := Board.loaded_chars tedit hclock (contains_noCR he hc) h1 t h2
  have hS : Session (fun p text => (parseSexp text >>= (Board.fromSexpr tedit)).map fun o => { o with filePath := some p }) Doc.board p text t ({ o' with filePath := some p }) := ⟨congrArg (Except.map fun o => { o with filePath := some p }) h1, h2, congrArg (Except.map fun o => { o with filePath := some p }) h3⟩
  rw [← hu] at he hl
  exact ⟨{ o' with filePath := some p }, _, Session.load (C58_Board tedit) hc hS.first, rfl, Session.again (C58_Board tedit) hS (fp := none) (enc := enc') he hl (by cases enc' <;> rfl) rfl hch hf hw (contains_canRead hc)⟩

set_option maxRecDepth 100000 in
example := C65_Board smallBoard smallBoard_wf (Env.simple .latin1 false) (Env.simple .latin1 true) none none rfl (.str k!"0") (by unfold PlainClock; decide) k!"a" (FS.spelled smallBoard.toVal) _
  (spelled_contains (by decide +kernel) false) (spelled_textOf (by decide +kernel)) _ charWise_latin1 Codec.latin1_lawful (two_openable ..) rfl
set_option maxRecDepth 100000 in
example := C66_Board smallBoard smallBoard_wf (Env.simple .latin1 false) (Env.simple .latin1 true) none none rfl (.str k!"0") (by unfold PlainClock; decide) k!"a" (FS.spelled smallBoard.toVal) _
  (spelled_contains (by decide +kernel) false) (spelled_textOf (by decide +kernel)) _ charWise_latin1 Codec.latin1_lawful (two_openable ..) rfl

end Kiutils
