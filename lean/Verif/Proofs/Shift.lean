import Verif.Indent
import Verif.Proofs.Chars
import Lean.Meta.Tactic.Split
/-!
# Indentation

Rules for C72, and a tactic that applies them.
-/
namespace Kiutils

/-! ## Rules -/

/-- Where a text goes on: at the start of a line or within a line. -/
inductive Where where
  | start
  | inside

/-- Where a text goes on behind an optional line feed. -/
def Where.after : Bool → Where
  | true => .start
  | false => .inside

/-- The text `t'` is `t` moved by `k` blanks, where the indentation of the first line is already done or not. -/
def Moved (k : Nat) : Where → Str → Str → Prop
  | .start, t, t' => Shifted k t t'
  | .inside, t, t' => ∃ l r r', lines t = l :: r ∧ lines t' = l :: r' ∧ MovedLines k r r'

/-- Putting `s` and `s'` before a moved text gives a moved text. -/
def Sh (k : Nat) (b : Where) (s : Str) (b' : Where) (s' : Str) : Prop :=
  ∀ t t', Moved k b' t t' → Moved k b (s ++ t) (s' ++ t')

/-- The same for texts that may fail to be made. -/
def ShM (k : Nat) (b : Where) (m : PyM Str) (b' : Where) (m' : PyM Str) : Prop :=
  (∃ s s', m = .ok s ∧ m' = .ok s' ∧ Sh k b s b' s') ∨ ∃ e, m = .error e ∧ m' = .error e

section
variable {k : Nat}

theorem Sh.nil {b : Where} : Sh k b [] b [] := fun _ _ h => h
theorem Sh.append {b c d : Where} {s s' t t' : Str} (h : Sh k b s c s') (h' : Sh k c t d t') : Sh k b (s ++ t) d (s' ++ t') :=
  fun u u' hu => by rw [List.append_assoc, List.append_assoc]; exact h _ _ (h' _ _ hu)
theorem lines_char {c : Char} (hc : c ≠ '\n') {s l : Str} {r : List Str} (h : lines s = l :: r) : lines (c :: s) = (c :: l) :: r := by
  rw [lines, h]
  exact if_neg hc
theorem lines_nl (s : Str) : lines ('\n' :: s) = [] :: lines s := by
  rw [lines]
  have : lines s ≠ [] := by
    induction s with
    | nil => rw [lines]; exact nofun
    | cons c s ih =>
      rw [lines]
      split
      · contradiction
      · split <;> exact nofun
  split
  · contradiction
  · rename_i e; rw [if_pos rfl, e]
theorem Sh.consI {c : Char} {d : Where} {s s' : Str} (hc : c ≠ '\n') (h : Sh k .inside s d s') : Sh k .inside (c :: s) d (c :: s') :=
  fun u u' hu => by
    obtain ⟨l, r, r', e, e', m⟩ := h u u' hu
    exact ⟨c :: l, r, r', lines_char hc e, lines_char hc e', m⟩
theorem Sh.nlS {d : Where} {s s' : Str} (h : Sh k .start s d s') : Sh k .start ('\n' :: s) d ('\n' :: s') :=
  fun u u' hu => by
    show MovedLines k (lines ('\n' :: (s ++ u))) (lines ('\n' :: (s' ++ u')))
    rw [lines_nl, lines_nl]
    exact .blank nofun nofun (h u u' hu)
theorem Sh.nlI {d : Where} {s s' : Str} (h : Sh k .start s d s') : Sh k .inside ('\n' :: s) d ('\n' :: s') :=
  fun u u' hu => ⟨[], _, _, lines_nl _, lines_nl _, h u u' hu⟩
theorem Sh.oneLine {s : Str} (h : OneLine s) : Sh k .inside s .inside s := by
  induction s with
  | nil => exact .nil
  | cons c s ih => exact .consI (fun e => h (e ▸ List.mem_cons_self ..)) (ih fun m => h (List.mem_cons_of_mem _ m))
theorem lines_indents {s l : Str} {r : List Str} (h : lines s = l :: r) (n : Nat) : lines (Kiutils.indents n ++ s) = (Kiutils.indents n ++ l) :: r := by
  induction n with
  | zero => exact h
  | succ n ih => exact lines_char (by decide) ih
theorem Sh.indents {n m : Nat} (e : m = n + k) : Sh k .start (indents n) .inside (indents m) := by
  subst e
  rintro u u' ⟨l, r, r', e, e', h⟩
  show MovedLines k (lines (Kiutils.indents n ++ u)) (lines (Kiutils.indents (n + k) ++ u'))
  rw [lines_indents e, lines_indents e', Nat.add_comm,
    show Kiutils.indents (k + n) = Kiutils.indents k ++ Kiutils.indents n from List.replicate_append_replicate.symm, List.append_assoc]
  exact .moved h
/-- An empty line can have any number of blanks. -/
theorem Sh.blankLine (n m : Nat) : Sh k .start (Kiutils.indents n ++ Kiutils.endl true) .start (Kiutils.indents m ++ Kiutils.endl true) := by
  intro u u' hu
  show MovedLines k (lines _) (lines _)
  rw [List.append_assoc, List.append_assoc]
  have e : ∀ (n : Nat) (u : Str), lines (Kiutils.indents n ++ (Kiutils.endl true ++ u)) = (Kiutils.indents n ++ []) :: lines u := fun n u =>
    lines_indents (show lines ('\n' :: u) = _ from lines_nl u) n
  rw [e, e]
  exact .blank (fun c hc => (List.mem_replicate.1 (List.append_nil _ ▸ hc)).2) (fun c hc => (List.mem_replicate.1 (List.append_nil _ ▸ hc)).2) hu
theorem Sh.endl {nl : Bool} : Sh k .inside (endl nl) (.after nl) (endl nl) := by
  cases nl
  · exact .nil
  · exact .nlI .nil
theorem Sh.endlS {nl : Bool} : Sh k .start (Kiutils.endl nl) .start (Kiutils.endl nl) := by
  cases nl
  · exact .nil
  · exact .nlS .nil
theorem Sh.ite {b d : Where} {c : Prop} [Decidable c] {s s' t t' : Str} (h : Sh k b s d s') (h' : Sh k b t d t') :
    Sh k b (if c then s else t) d (if c then s' else t') := by
  split
  · exact h
  · exact h'
theorem Sh.ifS {b : Where} {c : Bool} {s s' : Str} (h : Sh k b s b s') : Sh k b (ifS c s) b (ifS c s') := .ite h .nil
theorem Sh.optS {Q : Str → Prop} {b : Where} {α : Type} [Texts α] {x : Option α} {f f' : α → Str} (hx : Only Q x)
    (h : ∀ a, x = some a → Only Q a → Sh k b (f a) b (f' a)) : Sh k b (optS x f) b (optS x f') := by
  cases x with
  | none => exact .nil
  | some a => exact h a rfl hx.some
theorem Sh.forS {Q : Str → Prop} {b : Where} {α : Type} [Texts α] {l : List α} {f f' : α → Str} (hl : Only Q l)
    (h : ∀ a ∈ l, Only Q a → Sh k b (f a) b (f' a)) : Sh k b (forS l f) b (forS l f') := by
  induction l with
  | nil => exact .nil
  | cons a l ih => rw [Kiutils.forS, Kiutils.forS, List.flatMap_cons, List.flatMap_cons]; exact (h a (List.mem_cons_self ..) hl.head).append (ih hl.tail fun x hx => h x (List.mem_cons_of_mem _ hx))

/-- Every part begins with a line feed and ends with one. -/
theorem Sh.forSL {Q : Str → Prop} {α : Type} [Texts α] {a : α} {l : List α} {f f' : α → Str} (hl : Only Q (a :: l))
    (h : ∀ a, Only Q a → Sh k .start (f a) .start (f' a)) :
    Sh k .inside (Kiutils.forS (a :: l) fun x => '\n' :: f x) .start (Kiutils.forS (a :: l) fun x => '\n' :: f' x) := by
  rw [Kiutils.forS, Kiutils.forS, List.flatMap_cons, List.flatMap_cons]
  exact .append (.nlI (h a hl.head)) (Sh.forS hl.tail fun x _ hx => .nlS (h x hx))

/-- The whole text is moved. -/
theorem Sh.shifted {d : Bool} {s s' : Str} (h : Sh k .start s (.after d) s') : Shifted k s s' := by
  have := h [] [] (by
    cases d
    · exact ⟨[], [], [], rfl, rfl, .nil⟩
    · exact .blank nofun nofun .nil)
  simpa [Moved] using this

theorem ShM.ok {b d : Where} {s s' : Str} (h : Sh k b s d s') : ShM k b (.ok s) d (.ok s') := .inl ⟨s, s', rfl, rfl, h⟩
theorem ShM.pure {b d : Where} {s s' : Str} (h : Sh k b s d s') : ShM k b (pure s) d (pure s') := .ok h
theorem ShM.error {b d : Where} {e : PyErr} : ShM k b (.error e) d (.error e) := .inr ⟨e, rfl, rfl⟩
theorem ShM.ite {b d : Where} {c : Prop} [Decidable c] {m m' n n' : PyM Str} (h : ShM k b m d m') (h' : ShM k b n d n') :
    ShM k b (if c then m else n) d (if c then m' else n') := by
  split
  · exact h
  · exact h'
theorem ShM.bindS (b d : Where) {b' d' : Where} {m m' : PyM Str} {f f' : Str → PyM Str} (h : ShM k b m d m')
    (hf : ∀ s s', Sh k b s d s' → ShM k b' (f s) d' (f' s')) : ShM k b' (m >>= f) d' (m' >>= f') := by
  rcases h with ⟨s, s', rfl, rfl, h⟩ | ⟨e, rfl, rfl⟩
  · exact hf s s' h
  · exact .error
theorem ShM.bindStart {b' d' : Where} {m m' : PyM Str} {f f' : Str → PyM Str} (h : ShM k .start m .start m')
    (hf : ∀ s s', Sh k .start s .start s' → ShM k b' (f s) d' (f' s')) : ShM k b' (m >>= f) d' (m' >>= f') := .bindS _ _ h hf
theorem ShM.bindInside {b' d' : Where} {m m' : PyM Str} {f f' : Str → PyM Str} (h : ShM k .inside m .inside m')
    (hf : ∀ s s', Sh k .inside s .inside s' → ShM k b' (f s) d' (f' s')) : ShM k b' (m >>= f) d' (m' >>= f') := .bindS _ _ h hf
theorem ShM.bind {α : Type} {b' d' : Where} {m : PyM α} {f f' : α → PyM Str} (hf : ∀ a, ShM k b' (f a) d' (f' a)) :
    ShM k b' (m >>= f) d' (m >>= f') := by
  cases m with
  | error e => exact .error
  | ok a => exact hf a
theorem ShM.optSM {Q : Str → Prop} {b : Where} {α : Type} [Texts α] {x : Option α} {f f' : α → PyM Str} (hx : Only Q x)
    (h : ∀ a, x = some a → Only Q a → ShM k b (f a) b (f' a)) : ShM k b (optSM x f) b (optSM x f') := by
  cases x with
  | none => exact .ok .nil
  | some a => exact h a rfl hx.some
theorem ShM.forSM {Q : Str → Prop} {b : Where} {α : Type} [Texts α] {l : List α} {f f' : α → PyM Str} (hl : Only Q l)
    (h : ∀ a ∈ l, Only Q a → ShM k b (f a) b (f' a)) : ShM k b (forSM l f) b (forSM l f') := by
  induction l with
  | nil => exact .ok .nil
  | cons a l ih => exact .bindS b b (h a (List.mem_cons_self ..) hl.head) fun _ _ ha => .bindS b b (ih hl.tail fun x hx => h x (List.mem_cons_of_mem _ hx)) fun _ _ hb => .ok (ha.append hb)

/-- The whole text is moved, if it can be made. -/
theorem ShM.shifted {d : Bool} {m m' : PyM Str} (h : ShM k .start m (.after d) m') : ShiftedM k m m' := by
  rcases h with ⟨s, s', rfl, rfl, h⟩ | ⟨e, rfl, rfl⟩
  · exact h.shifted
  · rfl

/-! ## Texts within a line -/

theorem OneLine.of_chars {s : Str} (h : Chars (· ≠ '\n') s) : OneLine s := fun m => h _ m rfl
instance : NumBase (· ≠ '\n') := ⟨by decide⟩
theorem Only.oneLine_str {s : Str} (h : Only OneLine (Val.str s)) : OneLine s := h s (List.mem_singleton.2 rfl)
theorem OneLine.append {a b : Str} (ha : OneLine a) (hb : OneLine b) : OneLine (a ++ b) := fun m => (List.mem_append.1 m).elim ha hb
theorem OneLine.cons {c : Char} {b : Str} (hc : c ≠ '\n') (hb : OneLine b) : OneLine (c :: b) := fun m =>
  (List.mem_cons.1 m).elim (fun e => hc e.symm) hb
theorem OneLine.nil : OneLine [] := nofun
theorem OneLine.lit {s : Str} (h : s.all (fun c => decide (c ≠ '\n')) = true) : OneLine s := fun m =>
  of_decide_eq_true (List.all_eq_true.1 h _ m) rfl
theorem OneLine.dequote {s : Str} (h : OneLine s) : OneLine (dequote s) := by
  induction s with
  | nil => simp [Kiutils.dequote, OneLine]
  | cons d s ih =>
    have hs : OneLine s := fun m => h (List.mem_cons_of_mem _ m)
    by_cases hd : d = '"'
    · subst hd
      rw [Kiutils.dequote]
      exact .cons (by decide) (.cons (by decide) (ih hs))
    · rw [Kiutils.dequote]
      · exact .cons (fun e => h (e ▸ List.mem_cons_self ..)) (ih hs)
      · exact hd
theorem indents_oneLine {n : Nat} : OneLine (indents n) := fun m => by have := (List.mem_replicate.1 m).2; revert this; decide

mutual
theorem Val.pyStr_oneLine : {v : Val} → Only OneLine v → OneLine v.pyStr
  | .int _, _ => .of_chars intStr_chars
  | .flt _, _ => .of_chars repr_chars
  | .str _, h => h.oneLine_str
  | .list l, h => .cons (by decide) (.append (Val.pyStrL_oneLine (l := l) h) (.cons (by decide) .nil))
theorem Val.pyStrL_oneLine : {l : List Val} → (∀ s ∈ Val.stringsL l, OneLine s) → OneLine (Val.pyStrL l)
  | [], _ => .nil
  | [v], h => Val.pyReprV_oneLine (v := v) fun s hs => h s (List.mem_append_left _ hs)
  | v :: w :: r, h => .append (Val.pyReprV_oneLine (v := v) fun s hs => h s (List.mem_append_left _ hs))
      (.cons (by decide) (.cons (by decide) (Val.pyStrL_oneLine (l := w :: r) fun s hs => h s (List.mem_append_right _ hs))))
theorem Val.pyReprV_oneLine : {v : Val} → Only OneLine v → OneLine v.pyReprV
  | .int _, _ => .of_chars intStr_chars
  | .flt _, _ => .of_chars repr_chars
  | .str _, h => .cons (by decide) (.append h.oneLine_str (.cons (by decide) .nil))
  | .list l, h => .cons (by decide) (.append (Val.pyStrL_oneLine (l := l) h) (.cons (by decide) .nil))
end
theorem optPyStr_oneLine {x : Option Val} (h : Only OneLine x) : OneLine (optPyStr x) := by
  cases x with
  | none => exact .lit rfl
  | some v => exact Val.pyStr_oneLine h.some
theorem dq_oneLine {v : Val} (h : Only OneLine v) : OneLine (dq v) := (Val.pyStr_oneLine h).dequote
theorem yesNo_oneLine {b : Bool} : OneLine (yesNo b) := by cases b <;> exact .lit rfl
theorem trueFalse_oneLine {b : Bool} : OneLine (trueFalse b) := by cases b <;> exact .lit rfl
theorem intStr_oneLine {n : Int} : OneLine (intStr n) := .of_chars intStr_chars
theorem natStr_oneLine {n : Nat} : OneLine (natStr n) := .of_chars natStr_chars
theorem fmtFixedVal_oneLine {p : Nat} {v : Val} (h : Only OneLine v) : OneLine (fmtFixedVal p v) := by
  unfold fmtFixedVal
  split
  · exact .of_chars fmtFixed_chars
  · exact .of_chars fmtFixed_chars
  · exact Val.pyStr_oneLine h

/-- Whatever is returned is within a line. -/
theorem ShM.same {m : PyM Str} (h : ∀ s, m = .ok s → OneLine s) : ShM k .inside m .inside m := by
  cases m with
  | error e => exact .error
  | ok s => exact .ok (.oneLine (h s rfl))
theorem formatFixed_inline {p : Nat} {v : Val} : ShM k .inside (formatFixed p v) .inside (formatFixed p v) := .same fun s h =>
  .of_chars <| by
    cases v with
    | int n =>
      change Except.map _ _ = _ at h
      cases e : floatOfInt n with
      | error => rw [e] at h; cases h
      | ok x => rw [e] at h; cases h; exact fmtFixed_chars
    | flt f => cases h; exact fmtFixed_chars
    | _ => cases h
theorem floatFixed_inline {p : Nat} {v : Val} : ShM k .inside (floatFixed p v) .inside (floatFixed p v) := .same fun s h => by
  cases v with
  | int n =>
    change Except.map _ _ = _ at h
    cases e : floatOfInt n with
    | error => rw [e] at h; cases h
    | ok x => rw [e] at h; cases h; exact .of_chars fmtFixed_chars
  | flt f => cases h; exact .of_chars fmtFixed_chars
  | str t =>
    simp only [floatFixed] at h
    split at h
    · cases h; exact .of_chars fmtFixed_chars
    · cases h; exact .lit rfl
    · cases h
  | _ => cases h
theorem joinSp_inline {l : List Val} (h : Only OneLine l) : ShM k .inside (joinSp l) .inside (joinSp l) := by
  induction l with
  | nil => rw [joinSp]; exact .ok .nil
  | cons v r ih =>
    cases v with
    | str s =>
      cases r with
      | nil => rw [joinSp]; exact .ok (.oneLine h.head.oneLine_str)
      | cons w r =>
        rw [joinSp]
        · exact .bindInside (ih h.tail) fun a a' ha => .pure (.append (.oneLine h.head.oneLine_str) (.consI (by decide) ha))
        · exact nofun
    | _ => rw [joinSp] <;> first | exact .error | exact nofun
theorem nickEntry_oneLine {n : Option Val} {e : Str} {t : Str} (hn : Only OneLine n) (he : OneLine e)
    (ht : t = e ∨ ∃ v, n = some v ∧ t = py!"{v.pyStr}:{e}") : OneLine t := by
  rcases ht with rfl | ⟨v, rfl, rfl⟩
  · exact he
  · exact .append (Val.pyStr_oneLine hn.some) (.append (.lit rfl) he)
theorem Symbol.libId_oneLine {o : Symbol} (ho : Only OneLine o) : OneLine o.libId := by
  have he := optPyStr_oneLine (Symbol.entryName_only ho)
  have hi : OneLine (match o.unitId, o.styleId with
    | some u, some s => py!"_{u.pyStr}_{s.pyStr}"
    | _, _ => []) := by
    split
    · rename_i h h'
      exact .append (.lit rfl) (.append (Val.pyStr_oneLine (h ▸ Symbol.unitId_only ho).some)
        (.append (.lit rfl) (Val.pyStr_oneLine (h' ▸ Symbol.styleId_only ho).some)))
    · exact .nil
  unfold Symbol.libId
  extract_lets ids
  cases h : o.libraryNickname with
  | none => exact .append he hi
  | some n =>
    dsimp only
    split
    · exact nickEntry_oneLine (Symbol.libraryNickname_only ho) he (.inr ⟨_, h, rfl⟩)
    · exact .append he hi
theorem SchematicSymbol.libId_oneLine {o : SchematicSymbol} (ho : Only OneLine o) : OneLine o.libId := by
  refine nickEntry_oneLine (SchematicSymbol.libraryNickname_only ho) (optPyStr_oneLine (SchematicSymbol.entryName_only ho)) ?_
  unfold SchematicSymbol.libId
  split
  · split
    · exact .inr ⟨_, by assumption, rfl⟩
    · exact .inl rfl
  · exact .inl rfl
theorem Footprint.libId_oneLine {o : Footprint} (ho : Only OneLine o) : OneLine o.libId := by
  refine nickEntry_oneLine (Footprint.libraryNickname_only ho) (optPyStr_oneLine (Footprint.entryName_only ho)) ?_
  unfold Footprint.libId
  split
  · split
    · exact .inr ⟨_, by assumption, rfl⟩
    · exact .inl rfl
  · exact .inl rfl
theorem libIdS_inline {o : Symbol} (ho : Only OneLine o) : Sh k .inside (dequote o.libId) .inside (dequote o.libId) := .oneLine (Symbol.libId_oneLine ho).dequote
theorem libIdC_inline {o : SchematicSymbol} (ho : Only OneLine o) : Sh k .inside (dequote o.libId) .inside (dequote o.libId) :=
  .oneLine (SchematicSymbol.libId_oneLine ho).dequote
theorem libIdF_inline {o : Footprint} (ho : Only OneLine o) : Sh k .inside (dequote o.libId) .inside (dequote o.libId) :=
  .oneLine (Footprint.libId_oneLine ho).dequote

theorem forS_nil {α : Type} {f : α → Str} : forS [] f = [] := rfl
theorem forSM_nil {α : Type} {f : α → PyM Str} : forSM [] f = .ok [] := rfl
theorem optS_none {α : Type} {f : α → Str} : optS none f = [] := rfl
theorem bind_okS {α β : Type} {a : α} {f : α → PyM β} : (Except.ok a : PyM α) >>= f = f a := rfl
end

open Lean Meta Elab Tactic in
/-- Proves `Sh k b s b' s'` and `ShM k b m b' m'` by the structure of the texts. -/
partial def shiftGoal (g : MVarId) : TacticM (List MVarId) := g.withContext do
  if ← g.isAssigned then return []
  let t ← instantiateMVars (← g.getType)
  let t := t.consumeMData.headBeta
  if t.isForall then
    let (_, g) ← g.intros
    return ← shiftGoal g
  if t.isAppOf ``Only then return ← onlyGoal g
  let monadic := t.isAppOf ``ShM
  unless monadic || t.isAppOf ``Sh do
    if ← withReducible g.assumptionCore then return []
    if t.getAppFn.constName?.any (·.getString! == "Movable") then
      try return ← Tactic.run g (do evalTactic (← `(tactic| solve_by_elim)))
      catch _ => return [g]
    return [g]
  if ← withReducible g.assumptionCore then return []
  let #[k, b, s, d, s'] := t.getAppArgs | return [g]
  let s := s.consumeMData
  let s' := s'.consumeMData
  let b ← whnf b
  let norm (e : Expr) : Expr := Id.run do
    let e := e.headBeta
    if e.isLet then return e.letBody!.instantiate1 e.letValue!
    return e
  let (n, n') := (norm s, norm s')
  if n != s || n' != s' then
    return ← shiftGoal (← g.replaceTargetDefEq (mkAppN t.getAppFn #[k, b, n, d, n']))
  let g ← g.replaceTargetDefEq (mkAppN t.getAppFn #[k, b, s, d, s'])
  if ← withReducible g.assumptionCore then return []
  let useE (e : Expr) : TacticM (List MVarId) := do
    let gs ← g.apply e
    let gs ← gs.filterM fun g => return !(← g.isAssigned)
    return (← gs.mapM shiftGoal).flatten
  let use (n : Name) : TacticM (List MVarId) := do useE (← mkConstWithFreshMVarLevels n)
  let decideGoals (gs : List MVarId) : TacticM (List MVarId) := do
    let mut out := []
    for g in gs do
      if ← g.isAssigned then continue
      let t ← instantiateMVars (← g.getType)
      if t.isAppOf ``Ne then g.assign (← mkDecideProof t)
      else out := out ++ (← shiftGoal g)
    return out
  let inside := b.isConstOf ``Where.inside
  let start := b.isConstOf ``Where.start
  let fn := s.getAppFn
  if fn.isConstOf ``List.nil then return ← use ``Sh.nil
  if fn.isConstOf ``HAppend.hAppend then return ← use ``Sh.append
  if fn.isConstOf ``List.cons then
    let c := s.getAppArgs[1]!
    let lf ← isDefEq c (toExpr '\n')
    if lf then return ← use (if inside then ``Sh.nlI else ``Sh.nlS)
    if start then return [g]
    return ← decideGoals (← g.apply (← mkConstWithFreshMVarLevels ``Sh.consI))
  if fn.isConstOf ``ite then return ← use (if monadic then ``ShM.ite else ``Sh.ite)
  if fn.isConstOf ``ifS then return ← use ``Sh.ifS
  if fn.isConstOf ``optS then return ← use ``Sh.optS
  if fn.isConstOf ``forS then return ← use ``Sh.forS
  if fn.isConstOf ``optSM then return ← use ``ShM.optSM
  if fn.isConstOf ``forSM then return ← use ``ShM.forSM
  if fn.isConstOf ``endl then return ← use (if inside then ``Sh.endl else ``Sh.endlS)
  if fn.isConstOf ``indents && start then
    let [g] ← g.apply (← mkConstWithFreshMVarLevels ``Sh.indents) | throwError "indents"
    return ← Tactic.run g (do evalTactic (← `(tactic| omega)))
  if fn.isConstOf ``Except.ok then return ← use ``ShM.ok
  if fn.isConstOf ``Pure.pure then return ← use ``ShM.pure
  if fn.isConstOf ``Except.error then return ← use ``ShM.error
  if fn.isConstOf ``Bind.bind then
    let m := s.getAppArgs[4]!
    let m' := s'.getAppArgs[4]!
    let ty ← whnfR (← inferType m)
    let ty ← whnf ty.appArg!
    let str ← isDefEq ty (← whnf (mkConst ``Str))
    if !str then return ← use ``ShM.bind
    for r in [``ShM.bindInside, ``ShM.bindStart] do
      let saved ← saveState
      let g' :: gs ← g.apply (← mkConstWithFreshMVarLevels r) | throwError "bind"
      if ← withReducible g'.assumptionCore then
        let gs ← gs.filterM fun g => return !(← g.isAssigned)
        return (← gs.mapM shiftGoal).flatten
      restoreState saved
    return ← use (if m == m' then ``ShM.bindInside else ``ShM.bindStart)
  if let .const n _ := fn then
    let lemOf (suffix : String) := n.getPrefix ++ Name.mkSimple (n.getString! ++ suffix)
    if start && (← getEnv).contains (lemOf "_shift") then
      let gs ← g.apply (← mkConstWithFreshMVarLevels (lemOf "_shift"))
      let mut out := []
      for g in gs do
        if ← g.isAssigned then continue
        let t ← instantiateMVars (← g.getType)
        if t.isAppOf ``Eq then
          out := out ++ (← Tactic.run g (do evalTactic (← `(tactic| omega))))
        else out := out ++ (← shiftGoal g)
      return out
    if inside && (← getEnv).contains (lemOf "_inline") then return ← use (lemOf "_inline")
    if inside && (← getEnv).contains (lemOf "_oneLine") then
      let gs ← g.apply (← mkConstWithFreshMVarLevels ``Sh.oneLine)
      let mut out := []
      for g in gs do
        if ← g.isAssigned then continue
        let gs ← g.apply (← mkConstWithFreshMVarLevels (lemOf "_oneLine"))
        for g in gs do out := out ++ (← shiftGoal g)
      return out
    if n == ``kw && inside then
      let [g] ← g.apply (← mkConstWithFreshMVarLevels ``Sh.oneLine) | throwError "kw"
      let [g] ← g.apply (← mkConstWithFreshMVarLevels ``OneLine.lit) | throwError "kw"
      g.assign (← mkEqRefl (mkConst ``Bool.true))
      return []
    if (← isMatcher n) then
      if let .reduced e ← reduceMatcher? s then
        if let .reduced e' ← reduceMatcher? s' then
          return ← shiftGoal (← g.replaceTargetDefEq (mkAppN t.getAppFn #[k, b, e, d, e']))
      if let some gs ← splitTarget? g then
        return (← gs.mapM shiftGoal).flatten
  return [g]

open Lean Meta Elab Tactic in
/-- Proves `Sh k b s b' s'` and `ShM k b m b' m'` by the structure of the texts. -/
elab "shifts" : tactic => do
  let g ← getMainGoal
  replaceMainGoal (← shiftGoal g)

end Kiutils
