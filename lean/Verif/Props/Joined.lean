import Verif.Props.CutRules
/-!
# C90: files that are put one behind the other

`cat a.kicad_dru b.kicad_dru` gives a file with the rules of both. For the other kinds of files, the second file is ignored.
-/
namespace Kiutils

/-! ## Specification -/

/-- Two pieces of bytes, one behind the other, are decoded as the two texts, one behind the other. -/
def JoinSafe (c : Codec) : Prop := ∀ b b' s s', c.decode b = some s → c.decode b' = some s' → c.decode (b ++ b') = some (s ++ s')

/-! ## Encodings -/

theorem joinSafe_latin1 : JoinSafe .latin1 := by
  intro b b' s s' h h'
  simp only [Codec.latin1] at h h' ⊢
  cases h
  cases h'
  rw [List.map_append]

theorem joinSafe_utf8 : JoinSafe .utf8 := by
  intro b b' s s' h h'
  rw [utf8_decoded h, utf8_decoded h', ← List.flatMap_append]
  exact Codec.utf8_lawful _ _ rfl

/-! ## Lemmas -/

theorem universal_join (env : Env) (x s : Str) (h : '\r' ∉ x) : universalNewlines (env.toLines x ++ s) = x ++ universalNewlines s := by
  unfold Env.toLines
  split
  · induction x with
    | nil => rfl
    | cons c x ih =>
      have hc : c ≠ '\r' := fun e => h (by simp [e])
      have ih := ih fun hm => h (List.mem_cons_of_mem _ hm)
      rw [List.flatMap_cons, List.append_assoc]
      by_cases hn : c = '\n'
      · subst hn
        show universalNewlines ('\r' :: '\n' :: (_ ++ s)) = _
        rw [universalNewlines, ih]
        rfl
      · rw [if_neg (by simpa using hn), List.cons_append, List.nil_append, universal_cons hc, ih]
        rfl
  · induction x with
    | nil => rfl
    | cons c x ih =>
      have hc : c ≠ '\r' := fun e => h (by simp [e])
      rw [List.cons_append, universal_cons hc, ih fun hm => h (List.mem_cons_of_mem _ hm)]
      rfl

/-- The text of the joined file. -/
theorem joined_text (d : Doc) {env env' : Env} {enc enc' : Option Codec} {x : Str} (hx : d.text = .ok x) (hcr : '\r' ∉ x)
    (hl : (d.codec env enc).Lawful) (hu : used env' enc' = d.codec env enc) (hj : JoinSafe (used env' enc')) {b b₂ : Bytes}
    (hs : d.bytes env enc = some b) {fs fs₂ : FS} {p p₂ : Path} (hb₂ : HasContent fs₂ p₂ b₂) {t : Str} (ht : Contains env' fs₂ p₂ enc' t)
    (hb : HasContent fs p (b ++ b₂)) (hr : fs.canRead p = true) : Contains env' fs p enc' (x ++ t) := by
  obtain ⟨b', s, h1, -, h3, h4⟩ := ht
  cases hb₂.symm.trans h1
  have henc : (d.codec env enc).encode (env.toLines x) = some b := by
    unfold Doc.bytes at hs
    rw [hx] at hs
    exact hs
  rw [used_decode] at h3
  refine ⟨b ++ b₂, env.toLines x ++ s, hb, hr, ?_, ?_⟩
  · rw [used_decode]
    exact hj _ _ _ _ (by rw [hu]; exact hl _ _ henc) h3
  · rw [h4.eq, ← universal_join env x s hcr]
    exact textMode_universal _

theorem first_text (d : Doc) {env env' : Env} {enc enc' : Option Codec} {x : Str} (hx : d.text = .ok x) (hcr : '\r' ∉ x)
    (hl : (d.codec env enc).Lawful) (hu : used env' enc' = d.codec env enc) {b : Bytes}
    (hs : d.bytes env enc = some b) {fs : FS} {p : Path} (hb : HasContent fs p b) {t : Str} (ht : Contains env' fs p enc' t) : t = x := by
  obtain ⟨b', s, h1, -, h3, h4⟩ := ht
  cases hb.symm.trans h1
  have henc : (d.codec env enc).encode (env.toLines x) = some b := by
    unfold Doc.bytes at hs
    rw [hx] at hs
    exact hs
  rw [used_decode, hu, hl _ _ henc] at h3
  cases h3
  rw [h4.eq, universal_toLines env x hcr]

/-- A text behind the text of an object is ignored if its brackets balance; otherwise it is noticed. -/
theorem parse_joined {x : Str} {v : Val} (h : Lexes (.ok x) [v]) (t : Str) :
    (parseSexp t ≠ .error .assertionError → parseSexp (x ++ t) = .ok v) ∧
    (parseSexp t = .error .assertionError → parseSexp (x ++ t) = .error .assertionError) := by
  obtain ⟨x', e, hx⟩ := h
  cases Except.ok.inj e
  have h1 := (hx t (lex t) ⟨rfl, trivial⟩).lex
  rw [toksL_cons, toksL_nil, List.append_nil] at h1
  have e : parseSexp (x ++ t) = run [] [v] (lex t) := by rw [parseSexp, h1, depthOk_toks_run]
  rw [e]
  constructor
  · intro ht
    refine run_done _ [] _ v (by simp) ?_
    cases hb : depthOk 0 (lex t) with
    | true => rfl
    | false => exact absurd ((C01_reader_outcomes t).2.1.2 hb) ht
  · intro ht
    exact run_bad _ [] _ (by simpa using (C01_reader_outcomes t).2.1.1 ht)

theorem joined_any {α : Type} {load : Env → Path → Option Codec → FileM α} {g : Val → PyM α} {k : Path → α → α}
    (hload : Faithful load fun p text => (parseSexp text >>= g).map (k p)) (d : Doc) {v : Val} (hv : Lexes d.text [v]) {env env' : Env}
    {enc enc' : Option Codec} (hcr : ∀ x, d.text = .ok x → '' ∉ x) (hl : (d.codec env enc).Lawful) (hu : used env' enc' = d.codec env enc)
    (hj : JoinSafe (used env' enc')) {b b₂ : Bytes} (hs : d.bytes env enc = some b) {fs₁ fs₂ fs : FS} {p p₂ : Path}
    (hb₁ : HasContent fs₁ p b) (hb₂ : HasContent fs₂ p₂ b₂) (hb : HasContent fs p (b ++ b₂)) (hr : fs.canRead p = true) {o₁ : α}
    (h₁ : (load env' p enc' fs₁).1 = .ok o₁) {t : Str} (ht : Contains env' fs₂ p₂ enc' t) :
    (parseSexp t ≠ .error .assertionError → (load env' p enc' fs).1 = .ok o₁) ∧
    (parseSexp t = .error .assertionError → (load env' p enc' fs).1 = .error .assertionError) := by
  obtain ⟨x, hx⟩ : ∃ x, d.text = .ok x := ⟨_, hv.choose_spec.1⟩
  obtain ⟨t₁, hc₁, r₁⟩ := (hload.success ..).1 h₁
  cases first_text d hx (hcr x hx) hl hu hs hb₁ hc₁
  rw [hx] at hv
  have hp₁ : parseSexp x = .ok v := hv.parse
  rw [hp₁] at r₁
  have hc := joined_text d hx (hcr x hx) hl hu hj hs hb₂ ht hb hr
  constructor
  · intro hp
    refine (hload.success ..).2 ⟨_, hc, ?_⟩
    rw [(parse_joined hv t).1 hp]
    exact r₁
  · intro hp
    refine hload.malformed _ _ _ _ _ _ hc ?_
    rw [(parse_joined hv t).2 hp]
    rfl

theorem joined_loads {α : Type} {load : Env → Path → Option Codec → FileM α} {g : Val → PyM α} {k : Path → α → α}
    (hload : Faithful load fun p text => (parseSexp text >>= g).map (k p)) (d : Doc) {v : Val} (hv : Lexes d.text [v]) {env env' : Env}
    {enc enc' : Option Codec} (hcr : ∀ x, d.text = .ok x → '' ∉ x) (hl : (d.codec env enc).Lawful) (hu : used env' enc' = d.codec env enc)
    (hj : JoinSafe (used env' enc')) {b b₂ : Bytes} (hs : d.bytes env enc = some b) {fs₁ fs₂ fs : FS} {p p₂ : Path}
    (hb₁ : HasContent fs₁ p b) (hb₂ : HasContent fs₂ p₂ b₂) (hb : HasContent fs p (b ++ b₂)) (hr : fs.canRead p = true) {o₁ o₂ : α}
    (h₁ : (load env' p enc' fs₁).1 = .ok o₁) (h₂ : (load env' p₂ enc' fs₂).1 = .ok o₂) : (load env' p enc' fs).1 = .ok o₁ := by
  obtain ⟨t₂, hc₂, r₂⟩ := (hload.success ..).1 h₂
  refine (joined_any hload d hv hcr hl hu hj hs hb₁ hb₂ hb hr h₁ hc₂).1 fun e => ?_
  rw [e] at r₂
  cases r₂

/-! ### Design rules -/

theorem DesignRules.step_behind {r : List Rule} {a b : DesignRules} {x : Val} (h : a.step x = .ok b) :
    DesignRules.step { a with rules := r ++ a.rules } x = .ok { b with rules := r ++ b.rules } := by
  unfold DesignRules.step at h ⊢
  obtain ⟨k, hk, h⟩ := bind_ok_split h
  rw [hk, ok_bind]
  dsimp only
  split at h
  · rename_i c
    rw [if_pos c]
    obtain ⟨v, hv, h⟩ := bind_ok_split h
    cases Except.ok.inj h
    rw [hv]
    rfl
  · rename_i c
    rw [if_neg c]
    split at h
    · rename_i c
      rw [if_pos c]
      obtain ⟨v, hv, h⟩ := bind_ok_split h
      cases Except.ok.inj h
      rw [hv, ok_bind]
      dsimp only
      rw [← List.append_assoc]
      rfl
    · rename_i c
      rw [if_neg c]
      cases Except.ok.inj h
      rfl

theorem DesignRules.steps_behind {r : List Rule} (l : List Val) {a b : DesignRules} (h : forM DesignRules.step a l = .ok b) :
    forM DesignRules.step { a with rules := r ++ a.rules } l = .ok { b with rules := r ++ b.rules } := by
  induction l generalizing a with
  | nil => cases Except.ok.inj h; rfl
  | cons x l ih =>
    obtain ⟨c, h1, h2⟩ := bind_ok_split h
    rw [forM, DesignRules.step_behind h1, ok_bind]
    exact ih h2

theorem DesignRules.step_version {o : DesignRules} {h : Val} {r : List Val} (hh : h.is k!"version" = true) :
    o.step (.list (h :: r)) = (Val.list (h :: r)).idx 1 >>= fun v => .ok { o with version := v } := by
  unfold DesignRules.step
  rw [show (Val.list (h :: r)).idx 0 = .ok h from rfl, ok_bind, if_pos hh]
  rfl

/-- The rules of two lists of expressions, one behind the other. -/
theorem DesignRules.fromSexpr_joined {l m : List Val} {a b : DesignRules} (h : DesignRules.fromSexpr (.list l) = .ok a)
    (h' : DesignRules.fromSexpr (.list m) = .ok b) :
    DesignRules.fromSexpr (.list (l ++ m)) = .ok { version := b.version, rules := a.rules ++ b.rules, filePath := a.filePath } := by
  have fp : ∀ (l : List Val) (c d : DesignRules), forM DesignRules.step c l = .ok d → d.filePath = c.filePath := by
    intro l
    induction l with
    | nil => intro c d h; cases Except.ok.inj h; rfl
    | cons x l ih =>
      intro c d h
      obtain ⟨e, h1, h2⟩ := bind_ok_split h
      rw [ih e d h2]
      unfold DesignRules.step at h1
      obtain ⟨k, -, h1⟩ := bind_ok_split h1
      split at h1
      · obtain ⟨v, -, h1⟩ := bind_ok_split h1
        cases Except.ok.inj h1; rfl
      · split at h1
        · obtain ⟨v, -, h1⟩ := bind_ok_split h1
          cases Except.ok.inj h1; rfl
        · cases Except.ok.inj h1; rfl
  have hl := DesignRules.fromSexpr_steps h
  have hm := DesignRules.fromSexpr_steps h'
  have all : forM DesignRules.step {} (l ++ m) = .ok { version := b.version, rules := a.rules ++ b.rules, filePath := a.filePath } := by
    rw [forM_append, hl, ok_bind]
    match m, h', hm with
    | [], h', _ => cases h'
    | .int _ :: _, h', _ => cases h'
    | .flt _ :: _, h', _ => cases h'
    | .str _ :: _, h', _ => cases h'
    | .list [] :: _, h', _ => cases h'
    | .list (y :: r) :: m, h', hm =>
      have hy : y.is k!"version" = true := by
        unfold DesignRules.fromSexpr at h'
        dsimp only at h'
        split at h'
        · assumption
        · cases h'
      rw [forM, DesignRules.step_version hy] at hm ⊢
      obtain ⟨c, h1, h2⟩ := bind_ok_split hm
      obtain ⟨v, hv, h3⟩ := bind_ok_split h1
      cases Except.ok.inj h3
      rw [hv, ok_bind, ok_bind]
      have := DesignRules.steps_behind (r := a.rules) m h2
      have hfa := fp _ _ _ hl
      have hfb := fp _ _ _ h2
      dsimp only at hfa hfb
      rw [hfa]
      rw [List.append_nil] at this
      rw [this, hfb]
  match l, h, all with
  | [], h, _ => cases h
  | .int _ :: _, h, _ => cases h
  | .flt _ :: _, h, _ => cases h
  | .str _ :: _, h, _ => cases h
  | .list [] :: _, h, _ => cases h
  | .list (y :: r) :: l, h, all =>
    unfold DesignRules.fromSexpr at h ⊢
    dsimp only [List.cons_append] at h ⊢
    split at h
    · rename_i c
      rw [if_pos c]
      exact all
    · cases h

/-! ## The property -/

/-- C90 for design rules: all rules of both files are loaded, those of the first one first; the version is that of the second. -/
theorem C90_DesignRules (o : DesignRules) (h : o.WF) (env env' : Env) (p p₂ : Path) (enc enc' : Option Codec) (hl : (env.codec enc).Lawful)
    (hu : env'.codec enc' = env.codec enc) (hj : JoinSafe (env.codec enc)) (fs₁ fs₂ fs : FS) (b b₂ : Bytes)
    (hs : (Doc.designRules o).bytes env enc = some b) (hcr : ∀ s, o.toSexpr = .ok s → '\r' ∉ s) (hb₁ : HasContent fs₁ p b)
    (hb₂ : HasContent fs₂ p₂ b₂) (hb : HasContent fs p (b ++ b₂)) (hr : fs.canRead p = true) (o₁ o₂ : DesignRules)
    (h₁ : (DesignRules.fromFile env' p enc' fs₁).1 = .ok o₁) (h₂ : (DesignRules.fromFile env' p₂ enc' fs₂).1 = .ok o₂) :
    (DesignRules.fromFile env' p enc' fs).1 = .ok { version := o₂.version, rules := o₁.rules ++ o₂.rules, filePath := some p } := by
  have hcd : (Doc.designRules o).codec env enc = env.codec enc := Doc.codec_eq ..
  have hud : used env' enc' = (Doc.designRules o).codec env enc := by rw [hcd, ← hu, codec_used]
  obtain ⟨x, hx, hx'⟩ := DesignRules.lx h 0 false
  have hx0 : (Doc.designRules o).text = .ok x := hx
  obtain ⟨t₁, hc₁, r₁⟩ := (C58_DesignRules.success ..).1 h₁
  obtain ⟨t₂, hc₂, r₂⟩ := (C58_DesignRules.success ..).1 h₂
  cases first_text _ hx0 (hcr x hx) (hcd ▸ hl) hud hs hb₁ hc₁
  have hp₁ : parseSexp ('(' :: (x ++ [')'])) = .ok (.list o.toVals) := by
    apply parse_of_lex
    rw [toks_list]
    exact (lx_op (hx' _ _ (lx_cl lx_nil))).lex
  cases hp₂ : parseSexp ('(' :: (t₂ ++ [')'])) with
  | error e => rw [hp₂] at r₂; cases r₂
  | ok w =>
    rw [hp₁, ok_bind] at r₁
    rw [hp₂, ok_bind] at r₂
    cases hq₁ : DesignRules.fromSexpr (.list o.toVals) with
    | error e => rw [hq₁] at r₁; cases r₁
    | ok a =>
      cases hq₂ : DesignRules.fromSexpr w with
      | error e => rw [hq₂] at r₂; cases r₂
      | ok c =>
        rw [hq₁] at r₁
        rw [hq₂] at r₂
        cases Except.ok.inj r₁
        cases Except.ok.inj r₂
        obtain ⟨m, rfl⟩ : ∃ m, w = .list m := by
          cases w with
          | list m => exact ⟨m, rfl⟩
          | _ => cases hq₂
        refine (C58_DesignRules.success ..).2 ⟨_, joined_text _ hx0 (hcr x hx) (hcd ▸ hl) hud (by rw [hud, hcd]; exact hj) hs hb₂ hc₂ hb hr, ?_⟩
        have hp : parseSexp ('(' :: (x ++ t₂ ++ [')'])) = .ok (.list (o.toVals ++ m)) := by
          obtain ⟨rest, e, hd⟩ := parse_first_list hp₂
          rw [lex_op, toks, List.cons_append] at e
          injection e with _ e
          have h1 := (hx' (t₂ ++ [')']) _ ⟨e, trivial⟩).lex
          rw [parseSexp, lex_op, List.append_assoc, h1]
          have : Tok.op :: (toksL o.toVals ++ (toksL m ++ [Tok.cl] ++ rest)) = toks (.list (o.toVals ++ m)) ++ rest := by
            rw [toks, toksL_append]
            simp
          rw [this, depthOk_toks_run]
          exact run_done _ [] _ _ (by simp) hd
        rw [hp, ok_bind, DesignRules.fromSexpr_joined hq₁ hq₂]
        rfl

/-- A file of design rules: what was saved, its bytes, and what is loaded from it where it is alone. -/
structure RulesPart where
  saved : DesignRules
  bytes : Bytes
  alone : FS
  loaded : DesignRules

/-- C90 for any number of files of design rules before another one: all rules are loaded, in the order of the files. -/
theorem C90_DesignRules_many (env env' : Env) (p p₂ : Path) (enc enc' : Option Codec) (hl : (env.codec enc).Lawful)
    (hu : env'.codec enc' = env.codec enc) (hj : JoinSafe (env.codec enc)) (parts : List RulesPart)
    (hparts : ∀ x ∈ parts, x.saved.WF ∧ (Doc.designRules x.saved).bytes env enc = some x.bytes ∧
      (∀ s, x.saved.toSexpr = .ok s → '' ∉ s) ∧ HasContent x.alone p x.bytes ∧ (DesignRules.fromFile env' p enc' x.alone).1 = .ok x.loaded)
    (fs₂ fs : FS) (b₂ : Bytes) (hb₂ : HasContent fs₂ p₂ b₂) (o₂ : DesignRules) (h₂ : (DesignRules.fromFile env' p₂ enc' fs₂).1 = .ok o₂)
    (hb : HasContent fs p (parts.flatMap (fun x => x.bytes) ++ b₂)) (hr : fs.canRead p = true) :
    (DesignRules.fromFile env' p enc' fs).1 =
      .ok { version := o₂.version, rules := parts.flatMap (fun x => x.loaded.rules) ++ o₂.rules, filePath := some p } := by
  induction parts generalizing fs with
  | nil =>
    obtain ⟨t, ⟨b, s, h1, h2, h3, h4⟩, r⟩ := (C58_DesignRules.success ..).1 h₂
    cases hb₂.symm.trans h1
    refine (C58_DesignRules.success ..).2 ⟨t, ⟨b₂, s, hb, hr, h3, h4⟩, ?_⟩
    cases hq : parseSexp ('(' :: (t ++ [')'])) >>= DesignRules.fromSexpr with
    | error e => rw [hq] at r; cases r
    | ok c =>
      rw [hq] at r
      cases Except.ok.inj r
      rfl
  | cons x parts ih =>
    obtain ⟨w, e1, e2, e3, e4⟩ := hparts x List.mem_cons_self
    have hc : HasContent (FS.two p p (parts.flatMap (fun x => x.bytes) ++ b₂) []) p (parts.flatMap (fun x => x.bytes) ++ b₂) := by
      simp [HasContent, FS.two]
    have h := ih (fun y hy => hparts y (List.mem_cons_of_mem _ hy)) _ hc rfl
    have hb' : HasContent fs p (x.bytes ++ (parts.flatMap (fun x => x.bytes) ++ b₂)) := by
      rw [List.flatMap_cons, List.append_assoc] at hb
      exact hb
    rw [C90_DesignRules x.saved w env env' p p enc enc' hl hu hj x.alone _ fs x.bytes _ e1 e2 e3 hc hb' hr x.loaded _ e4 h,
      List.flatMap_cons, List.append_assoc]

/-! C90 for the other kinds of files: the result is the same as for the first file alone. -/

theorem C90_LibTable (o : LibTable) (h : o.WF) (env env' : Env) (p p₂ : Path) (enc enc' : Option Codec) (hl : (env.codec enc).Lawful)
    (hu : env'.codec enc' = (env.codec enc)) (hj : JoinSafe (env.codec enc)) (fs₁ fs₂ fs : FS) (b b₂ : Bytes)
    (hs : (Doc.libTable o).bytes env enc = some b) (hcr : '\r' ∉ o.toSexpr) (hb₁ : HasContent fs₁ p b) (hb₂ : HasContent fs₂ p₂ b₂)
    (hb : HasContent fs p (b ++ b₂)) (hr : fs.canRead p = true) (o₁ o₂ : LibTable) (h₁ : (LibTable.fromFile env' p enc' fs₁).1 = .ok o₁)
    (h₂ : (LibTable.fromFile env' p₂ enc' fs₂).1 = .ok o₂) : (LibTable.fromFile env' p enc' fs).1 = .ok o₁ := by
  have hcd : (Doc.libTable o).codec env enc = (env.codec enc) := Doc.codec_eq ..
  have hud : used env' enc' = (Doc.libTable o).codec env enc := by rw [hcd, ← hu, codec_used]
  exact joined_loads C58_LibTable (.libTable o) (Lexes.one fun _ _ hs => LibTable.lx h hs) (by rintro s ⟨⟩; exact hcr) (hcd ▸ hl) hud (by rw [hud, hcd]; exact hj) hs hb₁ hb₂ hb hr h₁ h₂

/-- Behind any text: ignored if `parse_sexp` does not find wrong brackets in it, `AssertionError` otherwise. -/
theorem C90_LibTable_any (o : LibTable) (h : o.WF) (env env' : Env) (p p₂ : Path) (enc enc' : Option Codec) (hl : (env.codec enc).Lawful)
    (hu : env'.codec enc' = (env.codec enc)) (hj : JoinSafe (env.codec enc)) (fs₁ fs₂ fs : FS) (b b₂ : Bytes)
    (hs : (Doc.libTable o).bytes env enc = some b) (hcr : '\r' ∉ o.toSexpr) (hb₁ : HasContent fs₁ p b) (hb₂ : HasContent fs₂ p₂ b₂)
    (hb : HasContent fs p (b ++ b₂)) (hr : fs.canRead p = true) (o₁ : LibTable) (h₁ : (LibTable.fromFile env' p enc' fs₁).1 = .ok o₁)
    (t : Str) (ht : Contains env' fs₂ p₂ enc' t) :
    (parseSexp t ≠ .error .assertionError → (LibTable.fromFile env' p enc' fs).1 = .ok o₁) ∧
    (parseSexp t = .error .assertionError → (LibTable.fromFile env' p enc' fs).1 = .error .assertionError) := by
  have hcd : (Doc.libTable o).codec env enc = (env.codec enc) := Doc.codec_eq ..
  have hud : used env' enc' = (Doc.libTable o).codec env enc := by rw [hcd, ← hu, codec_used]
  exact joined_any C58_LibTable (.libTable o) (Lexes.one fun _ _ hs => LibTable.lx h hs) (by rintro s ⟨⟩; exact hcr) (hcd ▸ hl) hud (by rw [hud, hcd]; exact hj) hs hb₁ hb₂ hb hr h₁ ht

theorem C90_WorkSheet (o : WorkSheet) (h : o.WF) (env env' : Env) (p p₂ : Path) (enc' : Option Codec) (hl : env.locale.Lawful)
    (hu : env'.codec enc' = env.locale) (hj : JoinSafe env.locale) (fs₁ fs₂ fs : FS) (b b₂ : Bytes)
    (hs : (Doc.workSheet o).bytes env none = some b) (hcr : ∀ s, o.toSexpr = .ok s → '\r' ∉ s) (hb₁ : HasContent fs₁ p b) (hb₂ : HasContent fs₂ p₂ b₂)
    (hb : HasContent fs p (b ++ b₂)) (hr : fs.canRead p = true) (o₁ o₂ : WorkSheet) (h₁ : (WorkSheet.fromFile env' p enc' fs₁).1 = .ok o₁)
    (h₂ : (WorkSheet.fromFile env' p₂ enc' fs₂).1 = .ok o₂) : (WorkSheet.fromFile env' p enc' fs).1 = .ok o₁ := by
  have hcd : (Doc.workSheet o).codec env none = env.locale := Doc.codec_eq ..
  have hud : used env' enc' = (Doc.workSheet o).codec env none := by rw [hcd, ← hu, codec_used]
  exact joined_loads C58_WorkSheet (.workSheet o) (WorkSheet.lx h 0 _) hcr (hcd ▸ hl) hud (by rw [hud, hcd]; exact hj) hs hb₁ hb₂ hb hr h₁ h₂

/-- Behind any text: ignored if `parse_sexp` does not find wrong brackets in it, `AssertionError` otherwise. -/
theorem C90_WorkSheet_any (o : WorkSheet) (h : o.WF) (env env' : Env) (p p₂ : Path) (enc' : Option Codec) (hl : env.locale.Lawful)
    (hu : env'.codec enc' = env.locale) (hj : JoinSafe env.locale) (fs₁ fs₂ fs : FS) (b b₂ : Bytes)
    (hs : (Doc.workSheet o).bytes env none = some b) (hcr : ∀ s, o.toSexpr = .ok s → '\r' ∉ s) (hb₁ : HasContent fs₁ p b) (hb₂ : HasContent fs₂ p₂ b₂)
    (hb : HasContent fs p (b ++ b₂)) (hr : fs.canRead p = true) (o₁ : WorkSheet) (h₁ : (WorkSheet.fromFile env' p enc' fs₁).1 = .ok o₁)
    (t : Str) (ht : Contains env' fs₂ p₂ enc' t) :
    (parseSexp t ≠ .error .assertionError → (WorkSheet.fromFile env' p enc' fs).1 = .ok o₁) ∧
    (parseSexp t = .error .assertionError → (WorkSheet.fromFile env' p enc' fs).1 = .error .assertionError) := by
  have hcd : (Doc.workSheet o).codec env none = env.locale := Doc.codec_eq ..
  have hud : used env' enc' = (Doc.workSheet o).codec env none := by rw [hcd, ← hu, codec_used]
  exact joined_any C58_WorkSheet (.workSheet o) (WorkSheet.lx h 0 _) hcr (hcd ▸ hl) hud (by rw [hud, hcd]; exact hj) hs hb₁ hb₂ hb hr h₁ ht

theorem C90_SymbolLib (o : SymbolLib) (h : o.WF) (env env' : Env) (p p₂ : Path) (enc enc' : Option Codec) (hl : (env.codec enc).Lawful)
    (hu : env'.codec enc' = (env.codec enc)) (hj : JoinSafe (env.codec enc)) (fs₁ fs₂ fs : FS) (b b₂ : Bytes)
    (hs : (Doc.symbolLib o).bytes env enc = some b) (hcr : '\r' ∉ o.toSexpr) (hb₁ : HasContent fs₁ p b) (hb₂ : HasContent fs₂ p₂ b₂)
    (hb : HasContent fs p (b ++ b₂)) (hr : fs.canRead p = true) (o₁ o₂ : SymbolLib) (h₁ : (SymbolLib.fromFile env' p enc' fs₁).1 = .ok o₁)
    (h₂ : (SymbolLib.fromFile env' p₂ enc' fs₂).1 = .ok o₂) : (SymbolLib.fromFile env' p enc' fs).1 = .ok o₁ := by
  have hcd : (Doc.symbolLib o).codec env enc = (env.codec enc) := Doc.codec_eq ..
  have hud : used env' enc' = (Doc.symbolLib o).codec env enc := by rw [hcd, ← hu, codec_used]
  exact joined_loads C58_SymbolLib (.symbolLib o) (Lexes.one fun _ _ hs => SymbolLib.lx h hs) (by rintro s ⟨⟩; exact hcr) (hcd ▸ hl) hud (by rw [hud, hcd]; exact hj) hs hb₁ hb₂ hb hr h₁ h₂

/-- Behind any text: ignored if `parse_sexp` does not find wrong brackets in it, `AssertionError` otherwise. -/
theorem C90_SymbolLib_any (o : SymbolLib) (h : o.WF) (env env' : Env) (p p₂ : Path) (enc enc' : Option Codec) (hl : (env.codec enc).Lawful)
    (hu : env'.codec enc' = (env.codec enc)) (hj : JoinSafe (env.codec enc)) (fs₁ fs₂ fs : FS) (b b₂ : Bytes)
    (hs : (Doc.symbolLib o).bytes env enc = some b) (hcr : '\r' ∉ o.toSexpr) (hb₁ : HasContent fs₁ p b) (hb₂ : HasContent fs₂ p₂ b₂)
    (hb : HasContent fs p (b ++ b₂)) (hr : fs.canRead p = true) (o₁ : SymbolLib) (h₁ : (SymbolLib.fromFile env' p enc' fs₁).1 = .ok o₁)
    (t : Str) (ht : Contains env' fs₂ p₂ enc' t) :
    (parseSexp t ≠ .error .assertionError → (SymbolLib.fromFile env' p enc' fs).1 = .ok o₁) ∧
    (parseSexp t = .error .assertionError → (SymbolLib.fromFile env' p enc' fs).1 = .error .assertionError) := by
  have hcd : (Doc.symbolLib o).codec env enc = (env.codec enc) := Doc.codec_eq ..
  have hud : used env' enc' = (Doc.symbolLib o).codec env enc := by rw [hcd, ← hu, codec_used]
  exact joined_any C58_SymbolLib (.symbolLib o) (Lexes.one fun _ _ hs => SymbolLib.lx h hs) (by rintro s ⟨⟩; exact hcr) (hcd ▸ hl) hud (by rw [hud, hcd]; exact hj) hs hb₁ hb₂ hb hr h₁ ht

theorem C90_Schematic (o : Schematic) (h : o.WF) (env env' : Env) (p p₂ : Path) (enc enc' : Option Codec) (hl : (env.codec enc).Lawful)
    (hu : env'.codec enc' = (env.codec enc)) (hj : JoinSafe (env.codec enc)) (fs₁ fs₂ fs : FS) (b b₂ : Bytes)
    (hs : (Doc.schematic o).bytes env enc = some b) (hcr : ∀ s, o.toSexpr = .ok s → '\r' ∉ s) (hb₁ : HasContent fs₁ p b) (hb₂ : HasContent fs₂ p₂ b₂)
    (hb : HasContent fs p (b ++ b₂)) (hr : fs.canRead p = true) (o₁ o₂ : Schematic) (h₁ : (Schematic.fromFile env' p enc' fs₁).1 = .ok o₁)
    (h₂ : (Schematic.fromFile env' p₂ enc' fs₂).1 = .ok o₂) : (Schematic.fromFile env' p enc' fs).1 = .ok o₁ := by
  have hcd : (Doc.schematic o).codec env enc = (env.codec enc) := Doc.codec_eq ..
  have hud : used env' enc' = (Doc.schematic o).codec env enc := by rw [hcd, ← hu, codec_used]
  exact joined_loads C58_Schematic (.schematic o) (Schematic.lexes h 0 _) hcr (hcd ▸ hl) hud (by rw [hud, hcd]; exact hj) hs hb₁ hb₂ hb hr h₁ h₂

/-- Behind any text: ignored if `parse_sexp` does not find wrong brackets in it, `AssertionError` otherwise. -/
theorem C90_Schematic_any (o : Schematic) (h : o.WF) (env env' : Env) (p p₂ : Path) (enc enc' : Option Codec) (hl : (env.codec enc).Lawful)
    (hu : env'.codec enc' = (env.codec enc)) (hj : JoinSafe (env.codec enc)) (fs₁ fs₂ fs : FS) (b b₂ : Bytes)
    (hs : (Doc.schematic o).bytes env enc = some b) (hcr : ∀ s, o.toSexpr = .ok s → '\r' ∉ s) (hb₁ : HasContent fs₁ p b) (hb₂ : HasContent fs₂ p₂ b₂)
    (hb : HasContent fs p (b ++ b₂)) (hr : fs.canRead p = true) (o₁ : Schematic) (h₁ : (Schematic.fromFile env' p enc' fs₁).1 = .ok o₁)
    (t : Str) (ht : Contains env' fs₂ p₂ enc' t) :
    (parseSexp t ≠ .error .assertionError → (Schematic.fromFile env' p enc' fs).1 = .ok o₁) ∧
    (parseSexp t = .error .assertionError → (Schematic.fromFile env' p enc' fs).1 = .error .assertionError) := by
  have hcd : (Doc.schematic o).codec env enc = (env.codec enc) := Doc.codec_eq ..
  have hud : used env' enc' = (Doc.schematic o).codec env enc := by rw [hcd, ← hu, codec_used]
  exact joined_any C58_Schematic (.schematic o) (Schematic.lexes h 0 _) hcr (hcd ▸ hl) hud (by rw [hud, hcd]; exact hj) hs hb₁ hb₂ hb hr h₁ ht

theorem footprint_faithful (tedit : Val) : Faithful (fun env p enc => Footprint.fromFile env tedit p enc)
    (fun _ text => (parseSexp text >>= Footprint.fromSexpr tedit).map fun o => o) := by
  have h := C58_Footprint tedit
  have e : (fun (_ : Path) (text : Str) => (parseSexp text >>= Footprint.fromSexpr tedit).map fun o => o) =
      fun _ text => parseSexp text >>= Footprint.fromSexpr tedit := by
    funext _ text
    cases parseSexp text >>= Footprint.fromSexpr tedit <;> rfl
  rw [e]
  exact h

theorem C90_Footprint (tedit : Val) (o : Footprint) (h : o.WF) (env env' : Env) (p p₂ : Path) (enc enc' : Option Codec) (hl : (env.codec enc).Lawful)
    (hu : env'.codec enc' = (env.codec enc)) (hj : JoinSafe (env.codec enc)) (fs₁ fs₂ fs : FS) (b b₂ : Bytes)
    (hs : (Doc.footprint o).bytes env enc = some b) (hcr : ∀ s, o.toSexpr = .ok s → '\r' ∉ s) (hb₁ : HasContent fs₁ p b) (hb₂ : HasContent fs₂ p₂ b₂)
    (hb : HasContent fs p (b ++ b₂)) (hr : fs.canRead p = true) (o₁ o₂ : Footprint) (h₁ : (Footprint.fromFile env' tedit p enc' fs₁).1 = .ok o₁)
    (h₂ : (Footprint.fromFile env' tedit p₂ enc' fs₂).1 = .ok o₂) : (Footprint.fromFile env' tedit p enc' fs).1 = .ok o₁ := by
  have hcd : (Doc.footprint o).codec env enc = (env.codec enc) := Doc.codec_eq ..
  have hud : used env' enc' = (Doc.footprint o).codec env enc := by rw [hcd, ← hu, codec_used]
  exact joined_loads (k := fun _ o => o) (footprint_faithful tedit) (.footprint o) (Footprint.lexes h 0 _ _) hcr (hcd ▸ hl) hud (by rw [hud, hcd]; exact hj) hs hb₁ hb₂ hb hr h₁ h₂

/-- Behind any text: ignored if `parse_sexp` does not find wrong brackets in it, `AssertionError` otherwise. -/
theorem C90_Footprint_any (tedit : Val) (o : Footprint) (h : o.WF) (env env' : Env) (p p₂ : Path) (enc enc' : Option Codec) (hl : (env.codec enc).Lawful)
    (hu : env'.codec enc' = (env.codec enc)) (hj : JoinSafe (env.codec enc)) (fs₁ fs₂ fs : FS) (b b₂ : Bytes)
    (hs : (Doc.footprint o).bytes env enc = some b) (hcr : ∀ s, o.toSexpr = .ok s → '\r' ∉ s) (hb₁ : HasContent fs₁ p b) (hb₂ : HasContent fs₂ p₂ b₂)
    (hb : HasContent fs p (b ++ b₂)) (hr : fs.canRead p = true) (o₁ : Footprint) (h₁ : (Footprint.fromFile env' tedit p enc' fs₁).1 = .ok o₁)
    (t : Str) (ht : Contains env' fs₂ p₂ enc' t) :
    (parseSexp t ≠ .error .assertionError → (Footprint.fromFile env' tedit p enc' fs).1 = .ok o₁) ∧
    (parseSexp t = .error .assertionError → (Footprint.fromFile env' tedit p enc' fs).1 = .error .assertionError) := by
  have hcd : (Doc.footprint o).codec env enc = (env.codec enc) := Doc.codec_eq ..
  have hud : used env' enc' = (Doc.footprint o).codec env enc := by rw [hcd, ← hu, codec_used]
  exact joined_any (k := fun _ o => o) (footprint_faithful tedit) (.footprint o) (Footprint.lexes h 0 _ _) hcr (hcd ▸ hl) hud (by rw [hud, hcd]; exact hj) hs hb₁ hb₂ hb hr h₁ ht

theorem C90_Board (tedit : Val) (o : Board) (h : o.WF) (env env' : Env) (p p₂ : Path) (enc enc' : Option Codec) (hl : (env.codec enc).Lawful)
    (hu : env'.codec enc' = (env.codec enc)) (hj : JoinSafe (env.codec enc)) (fs₁ fs₂ fs : FS) (b b₂ : Bytes)
    (hs : (Doc.board o).bytes env enc = some b) (hcr : ∀ s, o.toSexpr = .ok s → '\r' ∉ s) (hb₁ : HasContent fs₁ p b) (hb₂ : HasContent fs₂ p₂ b₂)
    (hb : HasContent fs p (b ++ b₂)) (hr : fs.canRead p = true) (o₁ o₂ : Board) (h₁ : (Board.fromFile env' tedit p enc' fs₁).1 = .ok o₁)
    (h₂ : (Board.fromFile env' tedit p₂ enc' fs₂).1 = .ok o₂) : (Board.fromFile env' tedit p enc' fs).1 = .ok o₁ := by
  have hcd : (Doc.board o).codec env enc = (env.codec enc) := Doc.codec_eq ..
  have hud : used env' enc' = (Doc.board o).codec env enc := by rw [hcd, ← hu, codec_used]
  exact joined_loads (C58_Board tedit) (.board o) (Board.lexes h 0 _) hcr (hcd ▸ hl) hud (by rw [hud, hcd]; exact hj) hs hb₁ hb₂ hb hr h₁ h₂

/-- Behind any text: ignored if `parse_sexp` does not find wrong brackets in it, `AssertionError` otherwise. -/
theorem C90_Board_any (tedit : Val) (o : Board) (h : o.WF) (env env' : Env) (p p₂ : Path) (enc enc' : Option Codec) (hl : (env.codec enc).Lawful)
    (hu : env'.codec enc' = (env.codec enc)) (hj : JoinSafe (env.codec enc)) (fs₁ fs₂ fs : FS) (b b₂ : Bytes)
    (hs : (Doc.board o).bytes env enc = some b) (hcr : ∀ s, o.toSexpr = .ok s → '\r' ∉ s) (hb₁ : HasContent fs₁ p b) (hb₂ : HasContent fs₂ p₂ b₂)
    (hb : HasContent fs p (b ++ b₂)) (hr : fs.canRead p = true) (o₁ : Board) (h₁ : (Board.fromFile env' tedit p enc' fs₁).1 = .ok o₁)
    (t : Str) (ht : Contains env' fs₂ p₂ enc' t) :
    (parseSexp t ≠ .error .assertionError → (Board.fromFile env' tedit p enc' fs).1 = .ok o₁) ∧
    (parseSexp t = .error .assertionError → (Board.fromFile env' tedit p enc' fs).1 = .error .assertionError) := by
  have hcd : (Doc.board o).codec env enc = (env.codec enc) := Doc.codec_eq ..
  have hud : used env' enc' = (Doc.board o).codec env enc := by rw [hcd, ← hu, codec_used]
  exact joined_any (C58_Board tedit) (.board o) (Board.lexes h 0 _) hcr (hcd ▸ hl) hud (by rw [hud, hcd]; exact hj) hs hb₁ hb₂ hb hr h₁ ht

/-! ## Objects that meet the hypotheses: a saved file, put behind itself -/

set_option maxRecDepth 100000 in
example : ∃ b o₁, (Doc.designRules cutRules).bytes (Env.simple .latin1 true) none = some b ∧ (DesignRules.fromFile (Env.simple .latin1 true) k!"a" none ((cutRules.toFile (Env.simple .latin1 true) (some k!"a") none (FS.two k!"a" k!"b" [1] [2])).final (FS.two k!"a" k!"b" [1] [2]))).1 = .ok o₁ ∧
    (DesignRules.fromFile (Env.simple .latin1 true) k!"a" none (FS.two k!"a" k!"b" (b ++ b) [2])).1 = .ok { version := o₁.version, rules := o₁.rules ++ o₁.rules, filePath := some k!"a" } := by
  have ok := save_ok (.designRules cutRules) (Env.simple .latin1 true) k!"a" none (FS.two k!"a" k!"b" [1] [2]) rfl (two_openable _ _ _ _) (by decide +kernel)
  obtain ⟨p', b, hp', hb, hn⟩ := C27_content (.designRules cutRules) (Env.simple .latin1 true) (some k!"a") none (FS.two k!"a" k!"b" [1] [2]) ok
  cases Option.some.inj hp'
  obtain ⟨o₁, h1, -⟩ := C30_DesignRules cutRules cutRules_wf (Env.simple .latin1 true) (Env.simple .latin1 true) k!"a" none none (FS.two k!"a" k!"b" [1] [2]) _ ok Codec.latin1_lawful rfl rfl
    (save_canRead (.designRules cutRules) _ _ none _ _ rfl) (noCR_iff (by decide +kernel))
  exact ⟨b, o₁, hb, congrArg Prod.fst h1, C90_DesignRules cutRules cutRules_wf (Env.simple .latin1 true) (Env.simple .latin1 true) k!"a" k!"a" none none Codec.latin1_lawful rfl joinSafe_latin1
    ((cutRules.toFile (Env.simple .latin1 true) (some k!"a") none (FS.two k!"a" k!"b" [1] [2])).final (FS.two k!"a" k!"b" [1] [2])) ((cutRules.toFile (Env.simple .latin1 true) (some k!"a") none (FS.two k!"a" k!"b" [1] [2])).final (FS.two k!"a" k!"b" [1] [2])) (FS.two k!"a" k!"b" (b ++ b) [2]) b b hb (noCR_iff (by decide +kernel)) hn hn rfl rfl o₁ o₁ (congrArg Prod.fst h1) (congrArg Prod.fst h1)⟩

set_option maxRecDepth 100000 in
example : ∃ b o₁, (Doc.libTable cutLibTable).bytes (Env.simple .latin1 true) none = some b ∧ (LibTable.fromFile (Env.simple .latin1 true) k!"a" none ((cutLibTable.toFile (Env.simple .latin1 true) (some k!"a") none (FS.two k!"a" k!"b" [1] [2])).final (FS.two k!"a" k!"b" [1] [2]))).1 = .ok o₁ ∧
    (LibTable.fromFile (Env.simple .latin1 true) k!"a" none (FS.two k!"a" k!"b" (b ++ b) [2])).1 = .ok o₁ ∧
    (LibTable.fromFile (Env.simple .latin1 true) k!"a" none (FS.two k!"a" k!"b" (b ++ [40]) [2])).1 = .error .assertionError := by
  have ok := save_ok (.libTable cutLibTable) (Env.simple .latin1 true) k!"a" none (FS.two k!"a" k!"b" [1] [2]) rfl (two_openable _ _ _ _) (by decide +kernel)
  obtain ⟨p', b, hp', hb, hn⟩ := C27_content (.libTable cutLibTable) (Env.simple .latin1 true) (some k!"a") none (FS.two k!"a" k!"b" [1] [2]) ok
  cases Option.some.inj hp'
  obtain ⟨o₁, h1, -⟩ := C30_LibTable cutLibTable cutLibTable_wf (Env.simple .latin1 true) (Env.simple .latin1 true) k!"a" none none (FS.two k!"a" k!"b" [1] [2]) _ ok Codec.latin1_lawful rfl rfl
    (save_canRead (.libTable cutLibTable) _ _ none _ _ rfl) (by decide +kernel)
  exact ⟨b, o₁, hb, congrArg Prod.fst h1, C90_LibTable cutLibTable cutLibTable_wf (Env.simple .latin1 true) (Env.simple .latin1 true) k!"a" k!"a" none none Codec.latin1_lawful rfl joinSafe_latin1
    ((cutLibTable.toFile (Env.simple .latin1 true) (some k!"a") none (FS.two k!"a" k!"b" [1] [2])).final (FS.two k!"a" k!"b" [1] [2])) ((cutLibTable.toFile (Env.simple .latin1 true) (some k!"a") none (FS.two k!"a" k!"b" [1] [2])).final (FS.two k!"a" k!"b" [1] [2])) (FS.two k!"a" k!"b" (b ++ b) [2]) b b hb (by decide +kernel) hn hn rfl rfl o₁ o₁ (congrArg Prod.fst h1) (congrArg Prod.fst h1),
    (C90_LibTable_any cutLibTable cutLibTable_wf (Env.simple .latin1 true) (Env.simple .latin1 true) k!"a" k!"b" none none Codec.latin1_lawful rfl joinSafe_latin1
      ((cutLibTable.toFile (Env.simple .latin1 true) (some k!"a") none (FS.two k!"a" k!"b" [1] [2])).final (FS.two k!"a" k!"b" [1] [2])) (FS.two k!"a" k!"b" [1] [40]) (FS.two k!"a" k!"b" (b ++ [40]) [2]) b [40] hb (by decide +kernel) hn rfl rfl rfl o₁
      (congrArg Prod.fst h1) k!"(" ⟨[40], k!"(", rfl, rfl, rfl, .other (by decide) .nil⟩).2 rfl⟩

set_option maxRecDepth 100000 in
example : ∃ b o₁, (Doc.workSheet cutWorkSheet).bytes (Env.simple .latin1 true) none = some b ∧ (WorkSheet.fromFile (Env.simple .latin1 true) k!"a" none ((cutWorkSheet.toFile (Env.simple .latin1 true) (some k!"a") (FS.two k!"a" k!"b" [1] [2])).final (FS.two k!"a" k!"b" [1] [2]))).1 = .ok o₁ ∧
    (WorkSheet.fromFile (Env.simple .latin1 true) k!"a" none (FS.two k!"a" k!"b" (b ++ b) [2])).1 = .ok o₁ ∧
    (WorkSheet.fromFile (Env.simple .latin1 true) k!"a" none (FS.two k!"a" k!"b" (b ++ [40]) [2])).1 = .error .assertionError := by
  have ok := save_ok (.workSheet cutWorkSheet) (Env.simple .latin1 true) k!"a" none (FS.two k!"a" k!"b" [1] [2]) rfl (two_openable _ _ _ _) (by decide +kernel)
  obtain ⟨p', b, hp', hb, hn⟩ := C27_content (.workSheet cutWorkSheet) (Env.simple .latin1 true) (some k!"a") none (FS.two k!"a" k!"b" [1] [2]) ok
  cases Option.some.inj hp'
  obtain ⟨o₁, h1, -⟩ := C30_WorkSheet cutWorkSheet cutWorkSheet_wf (Env.simple .latin1 true) (Env.simple .latin1 true) k!"a" none (FS.two k!"a" k!"b" [1] [2]) _ ok Codec.latin1_lawful rfl rfl
    (save_canRead (.workSheet cutWorkSheet) _ _ none _ _ rfl) (noCR_iff (by decide +kernel))
  exact ⟨b, o₁, hb, congrArg Prod.fst h1, C90_WorkSheet cutWorkSheet cutWorkSheet_wf (Env.simple .latin1 true) (Env.simple .latin1 true) k!"a" k!"a" none Codec.latin1_lawful rfl joinSafe_latin1
    ((cutWorkSheet.toFile (Env.simple .latin1 true) (some k!"a") (FS.two k!"a" k!"b" [1] [2])).final (FS.two k!"a" k!"b" [1] [2])) ((cutWorkSheet.toFile (Env.simple .latin1 true) (some k!"a") (FS.two k!"a" k!"b" [1] [2])).final (FS.two k!"a" k!"b" [1] [2])) (FS.two k!"a" k!"b" (b ++ b) [2]) b b hb (noCR_iff (by decide +kernel)) hn hn rfl rfl o₁ o₁ (congrArg Prod.fst h1) (congrArg Prod.fst h1),
    (C90_WorkSheet_any cutWorkSheet cutWorkSheet_wf (Env.simple .latin1 true) (Env.simple .latin1 true) k!"a" k!"b" none Codec.latin1_lawful rfl joinSafe_latin1
      ((cutWorkSheet.toFile (Env.simple .latin1 true) (some k!"a") (FS.two k!"a" k!"b" [1] [2])).final (FS.two k!"a" k!"b" [1] [2])) (FS.two k!"a" k!"b" [1] [40]) (FS.two k!"a" k!"b" (b ++ [40]) [2]) b [40] hb (noCR_iff (by decide +kernel)) hn rfl rfl rfl o₁
      (congrArg Prod.fst h1) k!"(" ⟨[40], k!"(", rfl, rfl, rfl, .other (by decide) .nil⟩).2 rfl⟩

set_option maxRecDepth 100000 in
example : ∃ b o₁, (Doc.symbolLib cutSymbolLib).bytes (Env.simple .latin1 true) none = some b ∧ (SymbolLib.fromFile (Env.simple .latin1 true) k!"a" none ((cutSymbolLib.toFile (Env.simple .latin1 true) (some k!"a") none (FS.two k!"a" k!"b" [1] [2])).final (FS.two k!"a" k!"b" [1] [2]))).1 = .ok o₁ ∧
    (SymbolLib.fromFile (Env.simple .latin1 true) k!"a" none (FS.two k!"a" k!"b" (b ++ b) [2])).1 = .ok o₁ ∧
    (SymbolLib.fromFile (Env.simple .latin1 true) k!"a" none (FS.two k!"a" k!"b" (b ++ [40]) [2])).1 = .error .assertionError := by
  have ok := save_ok (.symbolLib cutSymbolLib) (Env.simple .latin1 true) k!"a" none (FS.two k!"a" k!"b" [1] [2]) rfl (two_openable _ _ _ _) (by decide +kernel)
  obtain ⟨p', b, hp', hb, hn⟩ := C27_content (.symbolLib cutSymbolLib) (Env.simple .latin1 true) (some k!"a") none (FS.two k!"a" k!"b" [1] [2]) ok
  cases Option.some.inj hp'
  obtain ⟨o₁, h1, -⟩ := C30_SymbolLib cutSymbolLib cutSymbolLib_wf (Env.simple .latin1 true) (Env.simple .latin1 true) k!"a" none none (FS.two k!"a" k!"b" [1] [2]) _ ok Codec.latin1_lawful rfl rfl
    (save_canRead (.symbolLib cutSymbolLib) _ _ none _ _ rfl) (by decide +kernel)
  exact ⟨b, o₁, hb, congrArg Prod.fst h1, C90_SymbolLib cutSymbolLib cutSymbolLib_wf (Env.simple .latin1 true) (Env.simple .latin1 true) k!"a" k!"a" none none Codec.latin1_lawful rfl joinSafe_latin1
    ((cutSymbolLib.toFile (Env.simple .latin1 true) (some k!"a") none (FS.two k!"a" k!"b" [1] [2])).final (FS.two k!"a" k!"b" [1] [2])) ((cutSymbolLib.toFile (Env.simple .latin1 true) (some k!"a") none (FS.two k!"a" k!"b" [1] [2])).final (FS.two k!"a" k!"b" [1] [2])) (FS.two k!"a" k!"b" (b ++ b) [2]) b b hb (by decide +kernel) hn hn rfl rfl o₁ o₁ (congrArg Prod.fst h1) (congrArg Prod.fst h1),
    (C90_SymbolLib_any cutSymbolLib cutSymbolLib_wf (Env.simple .latin1 true) (Env.simple .latin1 true) k!"a" k!"b" none none Codec.latin1_lawful rfl joinSafe_latin1
      ((cutSymbolLib.toFile (Env.simple .latin1 true) (some k!"a") none (FS.two k!"a" k!"b" [1] [2])).final (FS.two k!"a" k!"b" [1] [2])) (FS.two k!"a" k!"b" [1] [40]) (FS.two k!"a" k!"b" (b ++ [40]) [2]) b [40] hb (by decide +kernel) hn rfl rfl rfl o₁
      (congrArg Prod.fst h1) k!"(" ⟨[40], k!"(", rfl, rfl, rfl, .other (by decide) .nil⟩).2 rfl⟩

set_option maxRecDepth 100000 in
example : ∃ b o₁, (Doc.schematic cutSchematic).bytes (Env.simple .latin1 true) none = some b ∧ (Schematic.fromFile (Env.simple .latin1 true) k!"a" none ((cutSchematic.toFile (Env.simple .latin1 true) (some k!"a") none (FS.two k!"a" k!"b" [1] [2])).final (FS.two k!"a" k!"b" [1] [2]))).1 = .ok o₁ ∧
    (Schematic.fromFile (Env.simple .latin1 true) k!"a" none (FS.two k!"a" k!"b" (b ++ b) [2])).1 = .ok o₁ ∧
    (Schematic.fromFile (Env.simple .latin1 true) k!"a" none (FS.two k!"a" k!"b" (b ++ [40]) [2])).1 = .error .assertionError := by
  have ok := save_ok (.schematic cutSchematic) (Env.simple .latin1 true) k!"a" none (FS.two k!"a" k!"b" [1] [2]) rfl (two_openable _ _ _ _) (by decide +kernel)
  obtain ⟨p', b, hp', hb, hn⟩ := C27_content (.schematic cutSchematic) (Env.simple .latin1 true) (some k!"a") none (FS.two k!"a" k!"b" [1] [2]) ok
  cases Option.some.inj hp'
  obtain ⟨o₁, h1, -⟩ := C30_Schematic cutSchematic cutSchematic_wf (Env.simple .latin1 true) (Env.simple .latin1 true) k!"a" none none (FS.two k!"a" k!"b" [1] [2]) _ ok Codec.latin1_lawful rfl rfl
    (save_canRead (.schematic cutSchematic) _ _ none _ _ rfl) (noCR_iff (by decide +kernel))
  exact ⟨b, o₁, hb, congrArg Prod.fst h1, C90_Schematic cutSchematic cutSchematic_wf (Env.simple .latin1 true) (Env.simple .latin1 true) k!"a" k!"a" none none Codec.latin1_lawful rfl joinSafe_latin1
    ((cutSchematic.toFile (Env.simple .latin1 true) (some k!"a") none (FS.two k!"a" k!"b" [1] [2])).final (FS.two k!"a" k!"b" [1] [2])) ((cutSchematic.toFile (Env.simple .latin1 true) (some k!"a") none (FS.two k!"a" k!"b" [1] [2])).final (FS.two k!"a" k!"b" [1] [2])) (FS.two k!"a" k!"b" (b ++ b) [2]) b b hb (noCR_iff (by decide +kernel)) hn hn rfl rfl o₁ o₁ (congrArg Prod.fst h1) (congrArg Prod.fst h1),
    (C90_Schematic_any cutSchematic cutSchematic_wf (Env.simple .latin1 true) (Env.simple .latin1 true) k!"a" k!"b" none none Codec.latin1_lawful rfl joinSafe_latin1
      ((cutSchematic.toFile (Env.simple .latin1 true) (some k!"a") none (FS.two k!"a" k!"b" [1] [2])).final (FS.two k!"a" k!"b" [1] [2])) (FS.two k!"a" k!"b" [1] [40]) (FS.two k!"a" k!"b" (b ++ [40]) [2]) b [40] hb (noCR_iff (by decide +kernel)) hn rfl rfl rfl o₁
      (congrArg Prod.fst h1) k!"(" ⟨[40], k!"(", rfl, rfl, rfl, .other (by decide) .nil⟩).2 rfl⟩

set_option maxRecDepth 100000 in
example : ∃ b o₁, (Doc.footprint cutFootprint).bytes (Env.simple .latin1 true) none = some b ∧ (Footprint.fromFile (Env.simple .latin1 true) (.str k!"0") k!"a" none ((cutFootprint.toFile (Env.simple .latin1 true) (some k!"a") none (FS.two k!"a" k!"b" [1] [2])).final (FS.two k!"a" k!"b" [1] [2]))).1 = .ok o₁ ∧
    (Footprint.fromFile (Env.simple .latin1 true) (.str k!"0") k!"a" none (FS.two k!"a" k!"b" (b ++ b) [2])).1 = .ok o₁ ∧
    (Footprint.fromFile (Env.simple .latin1 true) (.str k!"0") k!"a" none (FS.two k!"a" k!"b" (b ++ [40]) [2])).1 = .error .assertionError := by
  have ok := save_ok (.footprint cutFootprint) (Env.simple .latin1 true) k!"a" none (FS.two k!"a" k!"b" [1] [2]) rfl (two_openable _ _ _ _) (by decide +kernel)
  obtain ⟨p', b, hp', hb, hn⟩ := C27_content (.footprint cutFootprint) (Env.simple .latin1 true) (some k!"a") none (FS.two k!"a" k!"b" [1] [2]) ok
  cases Option.some.inj hp'
  obtain ⟨o₁, h1, -⟩ := C30_Footprint cutFootprint cutFootprint_wf (Env.simple .latin1 true) (Env.simple .latin1 true) (.str k!"0") k!"a" none none (FS.two k!"a" k!"b" [1] [2]) _ ok Codec.latin1_lawful rfl rfl
    (save_canRead (.footprint cutFootprint) _ _ none _ _ rfl) (noCR_iff (by decide +kernel))
  exact ⟨b, o₁, hb, congrArg Prod.fst h1, C90_Footprint (.str k!"0") cutFootprint cutFootprint_wf (Env.simple .latin1 true) (Env.simple .latin1 true) k!"a" k!"a" none none Codec.latin1_lawful rfl joinSafe_latin1
    ((cutFootprint.toFile (Env.simple .latin1 true) (some k!"a") none (FS.two k!"a" k!"b" [1] [2])).final (FS.two k!"a" k!"b" [1] [2])) ((cutFootprint.toFile (Env.simple .latin1 true) (some k!"a") none (FS.two k!"a" k!"b" [1] [2])).final (FS.two k!"a" k!"b" [1] [2])) (FS.two k!"a" k!"b" (b ++ b) [2]) b b hb (noCR_iff (by decide +kernel)) hn hn rfl rfl o₁ o₁ (congrArg Prod.fst h1) (congrArg Prod.fst h1),
    (C90_Footprint_any (.str k!"0") cutFootprint cutFootprint_wf (Env.simple .latin1 true) (Env.simple .latin1 true) k!"a" k!"b" none none Codec.latin1_lawful rfl joinSafe_latin1
      ((cutFootprint.toFile (Env.simple .latin1 true) (some k!"a") none (FS.two k!"a" k!"b" [1] [2])).final (FS.two k!"a" k!"b" [1] [2])) (FS.two k!"a" k!"b" [1] [40]) (FS.two k!"a" k!"b" (b ++ [40]) [2]) b [40] hb (noCR_iff (by decide +kernel)) hn rfl rfl rfl o₁
      (congrArg Prod.fst h1) k!"(" ⟨[40], k!"(", rfl, rfl, rfl, .other (by decide) .nil⟩).2 rfl⟩

set_option maxRecDepth 100000 in
example : ∃ b o₁, (Doc.board cutBoard).bytes (Env.simple .latin1 true) none = some b ∧ (Board.fromFile (Env.simple .latin1 true) (.str k!"0") k!"a" none ((cutBoard.toFile (Env.simple .latin1 true) (some k!"a") none (FS.two k!"a" k!"b" [1] [2])).final (FS.two k!"a" k!"b" [1] [2]))).1 = .ok o₁ ∧
    (Board.fromFile (Env.simple .latin1 true) (.str k!"0") k!"a" none (FS.two k!"a" k!"b" (b ++ b) [2])).1 = .ok o₁ ∧
    (Board.fromFile (Env.simple .latin1 true) (.str k!"0") k!"a" none (FS.two k!"a" k!"b" (b ++ [40]) [2])).1 = .error .assertionError := by
  have ok := save_ok (.board cutBoard) (Env.simple .latin1 true) k!"a" none (FS.two k!"a" k!"b" [1] [2]) rfl (two_openable _ _ _ _) (by decide +kernel)
  obtain ⟨p', b, hp', hb, hn⟩ := C27_content (.board cutBoard) (Env.simple .latin1 true) (some k!"a") none (FS.two k!"a" k!"b" [1] [2]) ok
  cases Option.some.inj hp'
  obtain ⟨o₁, h1, -⟩ := C30_Board cutBoard cutBoard_wf (Env.simple .latin1 true) (Env.simple .latin1 true) (.str k!"0") k!"a" none none (FS.two k!"a" k!"b" [1] [2]) _ ok Codec.latin1_lawful rfl rfl
    (save_canRead (.board cutBoard) _ _ none _ _ rfl) (noCR_iff (by decide +kernel))
  exact ⟨b, o₁, hb, congrArg Prod.fst h1, C90_Board (.str k!"0") cutBoard cutBoard_wf (Env.simple .latin1 true) (Env.simple .latin1 true) k!"a" k!"a" none none Codec.latin1_lawful rfl joinSafe_latin1
    ((cutBoard.toFile (Env.simple .latin1 true) (some k!"a") none (FS.two k!"a" k!"b" [1] [2])).final (FS.two k!"a" k!"b" [1] [2])) ((cutBoard.toFile (Env.simple .latin1 true) (some k!"a") none (FS.two k!"a" k!"b" [1] [2])).final (FS.two k!"a" k!"b" [1] [2])) (FS.two k!"a" k!"b" (b ++ b) [2]) b b hb (noCR_iff (by decide +kernel)) hn hn rfl rfl o₁ o₁ (congrArg Prod.fst h1) (congrArg Prod.fst h1),
    (C90_Board_any (.str k!"0") cutBoard cutBoard_wf (Env.simple .latin1 true) (Env.simple .latin1 true) k!"a" k!"b" none none Codec.latin1_lawful rfl joinSafe_latin1
      ((cutBoard.toFile (Env.simple .latin1 true) (some k!"a") none (FS.two k!"a" k!"b" [1] [2])).final (FS.two k!"a" k!"b" [1] [2])) (FS.two k!"a" k!"b" [1] [40]) (FS.two k!"a" k!"b" (b ++ [40]) [2]) b [40] hb (noCR_iff (by decide +kernel)) hn rfl rfl rfl o₁
      (congrArg Prod.fst h1) k!"(" ⟨[40], k!"(", rfl, rfl, rfl, .other (by decide) .nil⟩).2 rfl⟩

set_option maxRecDepth 100000 in
/-- Three files of design rules. -/
example : ∃ b o₁, (Doc.designRules cutRules).bytes (Env.simple .latin1 true) none = some b ∧ (DesignRules.fromFile (Env.simple .latin1 true) k!"a" none ((cutRules.toFile (Env.simple .latin1 true) (some k!"a") none (FS.two k!"a" k!"b" [1] [2])).final (FS.two k!"a" k!"b" [1] [2]))).1 = .ok o₁ ∧
    (DesignRules.fromFile (Env.simple .latin1 true) k!"a" none (FS.two k!"a" k!"b" (b ++ (b ++ []) ++ b) [2])).1 =
      .ok { version := o₁.version, rules := (o₁.rules ++ (o₁.rules ++ [])) ++ o₁.rules, filePath := some k!"a" } := by
  have ok := save_ok (.designRules cutRules) (Env.simple .latin1 true) k!"a" none (FS.two k!"a" k!"b" [1] [2]) rfl (two_openable _ _ _ _) (by decide +kernel)
  obtain ⟨p', b, hp', hb, hn⟩ := C27_content (.designRules cutRules) (Env.simple .latin1 true) (some k!"a") none (FS.two k!"a" k!"b" [1] [2]) ok
  cases Option.some.inj hp'
  have hcr : ∀ s, cutRules.toSexpr = .ok s → '\r' ∉ s := noCR_iff (by decide +kernel)
  obtain ⟨o₁, h1, -⟩ := C30_DesignRules cutRules cutRules_wf (Env.simple .latin1 true) (Env.simple .latin1 true) k!"a" none none (FS.two k!"a" k!"b" [1] [2]) _ ok Codec.latin1_lawful rfl rfl
    (save_canRead (.designRules cutRules) _ _ none _ _ rfl) hcr
  refine ⟨b, o₁, hb, congrArg Prod.fst h1, C90_DesignRules_many (Env.simple .latin1 true) (Env.simple .latin1 true) k!"a" k!"a" none none Codec.latin1_lawful rfl joinSafe_latin1
    [⟨cutRules, b, ((cutRules.toFile (Env.simple .latin1 true) (some k!"a") none (FS.two k!"a" k!"b" [1] [2])).final (FS.two k!"a" k!"b" [1] [2])), o₁⟩, ⟨cutRules, b, ((cutRules.toFile (Env.simple .latin1 true) (some k!"a") none (FS.two k!"a" k!"b" [1] [2])).final (FS.two k!"a" k!"b" [1] [2])), o₁⟩] ?_ ((cutRules.toFile (Env.simple .latin1 true) (some k!"a") none (FS.two k!"a" k!"b" [1] [2])).final (FS.two k!"a" k!"b" [1] [2])) (FS.two k!"a" k!"b" (b ++ (b ++ []) ++ b) [2]) b hn o₁ (congrArg Prod.fst h1) rfl rfl⟩
  intro x hx
  have : x = ⟨cutRules, b, ((cutRules.toFile (Env.simple .latin1 true) (some k!"a") none (FS.two k!"a" k!"b" [1] [2])).final (FS.two k!"a" k!"b" [1] [2])), o₁⟩ := by simpa using hx
  subst this
  exact ⟨cutRules_wf, hb, hcr, hn, congrArg Prod.fst h1⟩

end Kiutils
