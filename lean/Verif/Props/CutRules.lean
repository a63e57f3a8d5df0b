import Verif.Props.CutOff
import Verif.Proofs.PrefixRules
/-!
# C89: a file with design rules that is cut off

The loss of the last rules is not noticed (`C89_DesignRules_violated`). But nothing else can happen: what is loaded are the first
rules, each of them complete.
-/
namespace Kiutils

/-! ## Specification -/

/-- No text in the rules contains a bracket, a quotation mark or a backslash. -/
def PlainRules (text : Str) : Prop :=
  ∀ v, parseSexp ('(' :: (text ++ [')'])) = .ok v → ∀ t ∈ texts v, ∀ c ∈ t, c ≠ '(' ∧ c ≠ ')' ∧ c ≠ '"' ∧ c ≠ '\\'

/-! ## Lemmas -/

theorem DesignRules.step_atom {a : Val} (ha : a.isList = false) {o o' : DesignRules} (h : o.step a = .ok o') : o' = o := by
  cases a with
  | list l => cases ha
  | int n => cases h
  | flt n => cases h
  | str s =>
    cases s with
    | nil => cases h
    | cons c s =>
      have e1 : (Val.str [c]).is k!"version" = false := by simp [Val.is]
      have e2 : (Val.str [c]).is k!"rule" = false := by simp [Val.is]
      have e3 : (Val.str (c :: s)).idx 0 = .ok (.str [c]) := rfl
      unfold DesignRules.step at h
      rw [e3, ok_bind, e1, e2] at h
      exact (Except.ok.inj h).symm

theorem DesignRules.steps_atoms (as : List Val) (ha : ∀ a ∈ as, a.isList = false) (o o' : DesignRules) (h : forM DesignRules.step o as = .ok o') :
    o' = o := by
  induction as generalizing o with
  | nil => exact (Except.ok.inj h).symm
  | cons a as ih =>
    obtain ⟨o1, h1, h2⟩ := bind_ok_split h
    cases DesignRules.step_atom (ha a List.mem_cons_self) h1
    exact ih (fun b hb => ha b (List.mem_cons_of_mem _ hb)) o h2

theorem DesignRules.fromSexpr_atoms (m as : List Val) (ha : ∀ a ∈ as, a.isList = false) (o : DesignRules)
    (h : DesignRules.fromSexpr (.list (m ++ as)) = .ok o) : DesignRules.fromSexpr (.list m) = .ok o := by
  match m, h with
  | [], h =>
    exfalso
    match as, ha, h with
    | [], _, h => cases h
    | .int _ :: _, _, h => cases h
    | .flt _ :: _, _, h => cases h
    | .str _ :: _, _, h => cases h
    | .list _ :: _, ha, _ => cases ha _ List.mem_cons_self
  | .int _ :: _, h => cases h
  | .flt _ :: _, h => cases h
  | .str _ :: _, h => cases h
  | .list [] :: _, h => cases h
  | .list (x :: r) :: m, h =>
    unfold DesignRules.fromSexpr at h ⊢
    dsimp only [List.cons_append] at h ⊢
    split at h
    · rename_i hx
      rw [if_pos hx]
      rw [← List.cons_append, forM_append] at h
      obtain ⟨o1, h1, h2⟩ := bind_ok_split h
      rw [DesignRules.steps_atoms as ha o1 o h2]
      exact h1
    · cases h

theorem DesignRules.steps_rules (m : List Val) (o o' : DesignRules) (h : forM DesignRules.step o m = .ok o') : o.rules <+: o'.rules := by
  induction m generalizing o with
  | nil => cases Except.ok.inj h; exact List.prefix_rfl
  | cons a m ih =>
    obtain ⟨o1, h1, h2⟩ := bind_ok_split h
    refine List.IsPrefix.trans ?_ (ih o1 h2)
    unfold DesignRules.step at h1
    obtain ⟨k, -, h1⟩ := bind_ok_split h1
    split at h1
    · obtain ⟨v, -, h1⟩ := bind_ok_split h1
      cases Except.ok.inj h1
      exact List.prefix_rfl
    · split at h1
      · obtain ⟨v, -, h1⟩ := bind_ok_split h1
        cases Except.ok.inj h1
        exact List.prefix_append _ _
      · cases Except.ok.inj h1
        exact List.prefix_rfl

theorem DesignRules.fromSexpr_steps {l : List Val} {o : DesignRules} (h : DesignRules.fromSexpr (.list l) = .ok o) :
    forM DesignRules.step {} l = .ok o := by
  match l, h with
  | [], h => cases h
  | .int _ :: _, h => cases h
  | .flt _ :: _, h => cases h
  | .str _ :: _, h => cases h
  | .list [] :: _, h => cases h
  | .list (x :: r) :: m, h =>
    unfold DesignRules.fromSexpr at h
    dsimp only at h
    split at h
    · exact h
    · cases h

/-- What is read from the beginning of a text with rules. -/
theorem DesignRules.read_cut {text text' : Str} {v : Val} (hp : parseSexp ('(' :: (text ++ [')'])) = .ok v) (hn : PlainRules text)
    (hpre : text' <+: text) {o : DesignRules} (h : (parseSexp ('(' :: (text' ++ [')'])) >>= DesignRules.fromSexpr) = .ok o) :
    ∃ l n, v = .list l ∧ DesignRules.fromSexpr (.list (l.take n)) = .ok o := by
  have hl : ∃ l, v = .list l := by
    have hs : ∀ a, Tok.atom a ∈ lex (text ++ [')']) → toks a = [.atom a] := fun a ha => toks_atom_of (lex_mem ha).choose_spec.1
    unfold parseSexp at hp
    rw [lex_op] at hp
    obtain ⟨l, _, e, -⟩ := run_first_list _ hs [] [] v hp
    exact ⟨l, e⟩
  obtain ⟨l, rfl⟩ := hl
  obtain ⟨w, hw, h⟩ := bind_ok_split h
  obtain ⟨n, as, rfl, has⟩ := parse_cut_rules hp (hn _ hp) text' hpre w hw
  exact ⟨l, n, rfl, DesignRules.fromSexpr_atoms _ as has o h⟩

/-! ## The property -/

/-- C89 for design rules: a file with rules that is cut off is rejected, or exactly the first rules are loaded. -/
theorem C89_DesignRules_partial (env : Env) (p : Path) (enc : Option Codec) (hc : CutSafe (used env enc)) (fs fs' : FS) (b b' : Bytes)
    (hb : HasContent fs p b) (hb' : HasContent fs' p b') (hcut : b' <+: b) (hn : ∀ text, Contains env fs p enc text → PlainRules text)
    (o₁ o₂ : DesignRules) (h : (DesignRules.fromFile env p enc fs).1 = .ok o₁) (h' : (DesignRules.fromFile env p enc fs').1 = .ok o₂) :
    o₂.rules <+: o₁.rules := by
  obtain ⟨text, hcon, hr⟩ := (C58_DesignRules.success ..).1 h
  obtain ⟨text', hcon', hr'⟩ := (C58_DesignRules.success ..).1 h'
  have hno := hn text hcon
  obtain ⟨b1, s1, h1, h2, h3, h4⟩ := hcon
  obtain ⟨b2, s2, k1, k2, k3, k4⟩ := hcon'
  cases hb.symm.trans h1
  cases hb'.symm.trans k1
  rw [used_decode] at h3 k3
  obtain ⟨r, rfl⟩ := hc _ _ _ _ hcut h3 k3
  have hpre : text' <+: text := by
    rw [h4.eq, k4.eq]
    exact universal_cut _ _
  cases hp : parseSexp ('(' :: (text ++ [')'])) with
  | error e => rw [hp] at hr; cases hr
  | ok v =>
    cases hx : (parseSexp ('(' :: (text' ++ [')'])) >>= DesignRules.fromSexpr) with
    | error e => rw [hx] at hr'; cases hr'
    | ok o' =>
      obtain ⟨l, n, rfl, hl⟩ := DesignRules.read_cut hp hno hpre hx
      rw [hx] at hr'
      cases Except.ok.inj hr'
      rw [hp, ok_bind] at hr
      cases hy : DesignRules.fromSexpr (.list l) with
      | error e => rw [hy] at hr; cases hr
      | ok o =>
        rw [hy] at hr
        cases Except.ok.inj hr
        have s1 := DesignRules.fromSexpr_steps hl
        have s2 := DesignRules.fromSexpr_steps hy
        rw [← List.take_append_drop n l, forM_append, s1, ok_bind] at s2
        exact DesignRules.steps_rules _ o' o s2

/-- Saving design rules is interrupted after any number of steps: what is left is rejected, or loaded as the object with the first
rules only. -/
theorem C89_DesignRules_interrupted_partial [TextRule] (o : DesignRules) (hwf : o.WF) (env env' : Env) (p : Path) (enc enc' : Option Codec)
    (hl : (used env enc).Lawful) (hu : used env' enc' = used env enc) (hc : CutSafe (used env enc)) (fs : FS) (ho : Openable fs p) (b : Bytes)
    (hs : (Doc.designRules o).bytes env enc = some b) (hcr : ∀ s, o.toSexpr = .ok s → '\r' ∉ s ∧ PlainRules s) (n : Nat) (hpos : 0 < n)
    (o₂ : DesignRules) (h' : (DesignRules.fromFile env' p enc' (applySteps fs ((o.toFile env (some p) enc fs).steps.take n))).1 = .ok o₂) :
    ∃ k, PyEq.eq { o with rules := o.rules.take k, filePath := some p } o₂ := by
  obtain ⟨b', hb', hcut⟩ := interrupted_content (.designRules o) env enc p fs rfl ho b hs n hpos
  obtain ⟨text', ⟨b2, s2, k1, k2, k3, k4⟩, hr'⟩ := (C58_DesignRules.success ..).1 h'
  cases hb'.symm.trans k1
  obtain ⟨x, hx, hx'⟩ := DesignRules.lx hwf 0 false
  have hx0 : (Doc.designRules o).text = .ok x := hx
  have henc : (used env enc).encode (env.toLines x) = some b := by
    unfold Doc.bytes at hs
    rw [hx0] at hs
    have e : (Doc.designRules o).codec env enc = used env enc := by cases enc <;> rfl
    rw [e] at hs
    exact hs
  have h3 := hl _ _ henc
  rw [used_decode, hu] at k3
  obtain ⟨r, hr⟩ := hc _ _ _ _ hcut h3 k3
  obtain ⟨hcr, hn⟩ := hcr x hx
  have hpre : text' <+: x := by
    rw [k4.eq, ← universal_toLines env x hcr, ← hr]
    exact universal_cut _ _
  have hp : parseSexp ('(' :: (x ++ [')'])) = .ok (.list o.toVals) := by
    apply parse_of_lex
    rw [toks_list]
    exact (lx_op (hx' _ _ (lx_cl lx_nil))).lex
  cases hy : (parseSexp ('(' :: (text' ++ [')'])) >>= DesignRules.fromSexpr) with
  | error e => rw [hy] at hr'; cases hr'
  | ok o' =>
    rw [hy] at hr'
    cases Except.ok.inj hr'
    obtain ⟨l, k, e, hl⟩ := DesignRules.read_cut hp hn hpre hy
    cases e
    cases k with
    | zero => rw [List.take_zero] at hl; cases hl
    | succ k =>
      have hw : ({ o with rules := o.rules.take k } : DesignRules).WF := ⟨hwf.version, fun r hr => hwf.rules r (List.mem_of_mem_take hr)⟩
      have e2 : o.toVals.take (k + 1) = ({ o with rules := o.rules.take k } : DesignRules).toVals := by
        unfold DesignRules.toVals
        rw [List.take_succ_cons, List.map_take]
      rw [e2, DesignRules.from_toVals hw] at hl
      cases Except.ok.inj hl
      exact ⟨k, DesignRules.withPath (a := { o with rules := o.rules.take k, filePath := none }) (canonEq _) (some p)⟩

/-! ## Concrete cases -/

theorem plainRules_of [TextRule] {o : DesignRules} (h : o.WF)
    (hs : ((Val.strings (.list o.toVals)).all fun t => t.all fun c => c != '(' && c != ')' && c != '"' && c != '\\') = true) (s : Str)
    (hx : o.toSexpr = .ok s) : PlainRules s := by
  obtain ⟨x, e, hx'⟩ := DesignRules.lx h 0 false
  cases Except.ok.inj (hx.symm.trans e)
  have hp : parseSexp ('(' :: (s ++ [')'])) = .ok (.list o.toVals) := by
    apply parse_of_lex
    rw [toks_list]
    exact (lx_op (hx' _ _ (lx_cl lx_nil))).lex
  intro v hv t ht c hc
  cases Except.ok.inj (hp.symm.trans hv)
  have := List.all_eq_true.1 (List.all_eq_true.1 hs t ht) c hc
  simpa [and_assoc] using this

def cutRules : DesignRules := { version := .int 1, rules := [raceRule k!"a", raceRule k!"b"] }
theorem cutRules_wf : cutRules.WF := ⟨ok_int (by decide), fun r h => by
  rcases List.mem_cons.1 h with rfl | h
  · exact raceRule_wf _ (by decide)
  · cases List.mem_singleton.1 h; exact raceRule_wf _ (by decide)⟩

set_option maxRecDepth 100000 in
/-- Saving two rules is interrupted. -/
example : ∃ b, (Doc.designRules cutRules).bytes (Env.simple .latin1 true) none = some b ∧
    ∀ n, 0 < n → ∀ o₂, (DesignRules.fromFile (Env.simple .latin1 true) k!"a" none (applySteps (FS.two k!"a" k!"b" [1] [2])
      ((cutRules.toFile (Env.simple .latin1 true) (some k!"a") none (FS.two k!"a" k!"b" [1] [2])).steps.take n))).1 = .ok o₂ →
      ∃ k, PyEq.eq { cutRules with rules := cutRules.rules.take k, filePath := some k!"a" } o₂ := by
  have ok := save_ok (.designRules cutRules) (Env.simple .latin1 true) k!"a" none (FS.two k!"a" k!"b" [1] [2]) rfl (two_openable _ _ _ _) (by decide +kernel)
  obtain ⟨p', b, hp', hb, hn⟩ := C27_content (.designRules cutRules) (Env.simple .latin1 true) (some k!"a") none (FS.two k!"a" k!"b" [1] [2]) ok
  have hcr : ∀ s, cutRules.toSexpr = .ok s → '\r' ∉ s := noCR_iff (by decide +kernel)
  exact ⟨b, hb, fun n hpos o₂ h => C89_DesignRules_interrupted_partial cutRules cutRules_wf (Env.simple .latin1 true) (Env.simple .latin1 true) k!"a" none none
    Codec.latin1_lawful rfl cutSafe_latin1 _ (two_openable _ _ _ _) b hb
    (fun s hs => ⟨hcr s hs, plainRules_of cutRules_wf (by decide +kernel) s hs⟩) n hpos o₂ h⟩

/-- The bytes of two rules. -/
def cutBytes : Bytes := k!"(version 1)\n(rule \"a\"\n  (constraint hole)\n)\n(rule \"b\"\n  (condition \"x\")\n)\n".map fun c => c.toNat.toUInt8

def ruleCount (fs : FS) : Option Nat := (DesignRules.fromFile (Env.simple .latin1 false) k!"a" none fs).1.toOption.map fun o => o.rules.length

set_option maxRecDepth 100000 in
/-- A file with two rules, cut after the first: both are loaded, and the hypotheses of `C89_DesignRules_partial` are met. -/
example : ruleCount (FS.two k!"a" k!"b" cutBytes [2]) = some 2 ∧ ruleCount (FS.two k!"a" k!"b" (cutBytes.take 44) [2]) = some 1 ∧
    (∀ text, Contains (Env.simple .latin1 false) (FS.two k!"a" k!"b" cutBytes [2]) k!"a" none text → PlainRules text) ∧
    ∀ n o₁ o₂, (DesignRules.fromFile (Env.simple .latin1 false) k!"a" none (FS.two k!"a" k!"b" cutBytes [2])).1 = .ok o₁ →
      (DesignRules.fromFile (Env.simple .latin1 false) k!"a" none (FS.two k!"a" k!"b" (cutBytes.take n) [2])).1 = .ok o₂ →
      o₂.rules <+: o₁.rules := by
  have hn : ∀ text, Contains (Env.simple .latin1 false) (FS.two k!"a" k!"b" cutBytes [2]) k!"a" none text → PlainRules text := by
    rintro text ⟨b, s, h1, -, h3, h4⟩
    cases Option.some.inj h1
    cases Option.some.inj h3
    rw [h4.eq]
    intro v hv t ht c hc
    have key : ((parseSexp ('(' :: (universalNewlines (cutBytes.map fun b => Char.ofNat b.toNat) ++ [')']))).toOption.all fun v =>
      v.strings.all fun t => t.all fun c => c != '(' && c != ')' && c != '"' && c != '\\') = true := by decide +kernel
    have hv' : parseSexp ('(' :: (universalNewlines (cutBytes.map fun b => Char.ofNat b.toNat) ++ [')'])) = .ok v := hv
    rw [hv'] at key
    have key : (v.strings.all fun t => t.all fun c => c != '(' && c != ')' && c != '"' && c != '\\') = true := key
    have := List.all_eq_true.1 (List.all_eq_true.1 key t ht) c hc
    simpa [and_assoc] using this
  exact ⟨by decide +kernel, by decide +kernel, hn, fun n o₁ o₂ h h' => C89_DesignRules_partial (Env.simple .latin1 false) k!"a" none cutSafe_latin1
    (FS.two k!"a" k!"b" cutBytes [2]) (FS.two k!"a" k!"b" (cutBytes.take n) [2]) cutBytes (cutBytes.take n) rfl rfl
    (List.take_prefix _ _) hn o₁ o₂ h h'⟩

end Kiutils
