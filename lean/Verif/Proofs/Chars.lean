import Verif.TextsOf
import Lean.Meta.Tactic.Split
import Verif.Proofs.Lines
/-!
# Which characters are written

Specification of C62 (`Plain`) and the proof, class by class, that every character of the text of an object is plain or stands in one
of its strings.
-/
namespace Kiutils

/-- The characters that the writer itself uses: printable ASCII characters and the line feed. -/
def Plain (c : Char) : Prop := c = '\n' ∨ 32 ≤ c.toNat ∧ c.toNat ≤ 126

instance (c : Char) : Decidable (Plain c) := inferInstanceAs (Decidable (_ ∨ _))

/-! ## Rules -/

/-- `P` holds for the plain characters. -/
class Base (P : Char → Prop) : Prop where
  plain : ∀ c, Plain c → P c

/-- Every character of the text has the property `P`. -/
def Chars (P : Char → Prop) (s : Str) : Prop := ∀ c ∈ s, P c
/-- Every character of whatever is returned has the property `P`. -/
def CharsM (P : Char → Prop) (m : PyM Str) : Prop := ∀ s, m = .ok s → Chars P s

section
variable {P : Char → Prop}

theorem Chars.nil : Chars P [] := fun _ h => nomatch h
theorem Chars.append {a b : Str} (ha : Chars P a) (hb : Chars P b) : Chars P (a ++ b) := fun c hc =>
  (List.mem_append.1 hc).elim (ha c) (hb c)
theorem Chars.cons' {c : Char} {b : Str} (hc : P c) (hb : Chars P b) : Chars P (c :: b) := fun d hd => by
  rcases List.mem_cons.1 hd with rfl | h
  · exact hc
  · exact hb d h
theorem Chars.cons [Base P] {c : Char} {b : Str} (hc : Plain c) (hb : Chars P b) : Chars P (c :: b) := .cons' (Base.plain c hc) hb
theorem Chars.ite {c : Prop} [Decidable c] {a b : Str} (ha : Chars P a) (hb : Chars P b) : Chars P (if c then a else b) := by
  split
  · exact ha
  · exact hb
theorem Chars.sub {a b : Str} (hb : Chars P b) (h : ∀ c ∈ a, c ∈ b) : Chars P a := fun c hc => hb c (h c hc)
theorem Chars.replicate {n : Nat} {c : Char} (hc : P c) : Chars P (List.replicate n c) := fun d hd => by
  rw [(List.mem_replicate.1 hd).2]; exact hc
theorem ifS_chars {b : Bool} {s : Str} (h : Chars P s) : Chars P (ifS b s) := .ite h .nil
theorem optS_chars {α : Type} [Texts α] {x : Option α} {f : α → Str} (hx : Only (Chars P) x) (h : ∀ a, Only (Chars P) a → Chars P (f a)) :
    Chars P (optS x f) := by
  cases x with
  | none => exact .nil
  | some a => exact h a hx.some
theorem forS_chars {α : Type} [Texts α] {l : List α} {f : α → Str} (hl : Only (Chars P) l) (h : ∀ a, Only (Chars P) a → Chars P (f a)) :
    Chars P (forS l f) := fun c hc => by
  obtain ⟨a, ha, hc⟩ := List.mem_flatMap.1 hc
  exact h a (hl.mem ha) c hc
theorem indents_chars [Base P] {n : Nat} : Chars P (indents n) := .replicate (Base.plain _ (by decide))
theorem endl_chars [Base P] {b : Bool} : Chars P (endl b) := .ite (.cons (by decide) .nil) .nil
theorem yesNo_chars [Base P] {b : Bool} : Chars P (yesNo b) := by
  cases b <;> exact fun c hc => Base.plain c (by revert c; decide)
theorem trueFalse_chars [Base P] {b : Bool} : Chars P (trueFalse b) := by
  cases b <;> exact fun c hc => Base.plain c (by revert c; decide)
theorem dequote_chars [Base P] {s : Str} (h : Chars P s) : Chars P (dequote s) := by
  intro c hc
  induction s with
  | nil => exact absurd hc (by simp [dequote])
  | cons d s ih =>
    have hs : Chars P s := fun c hc => h c (List.mem_cons_of_mem _ hc)
    by_cases hd : d = '"'
    · subst hd
      simp only [dequote, List.mem_cons] at hc
      rcases hc with rfl | rfl | hc
      · exact Base.plain _ (by decide)
      · exact Base.plain _ (by decide)
      · exact ih hs hc
    · rw [dequote] at hc
      · rcases List.mem_cons.1 hc with rfl | hc
        · exact h _ (List.mem_cons_self ..)
        · exact ih hs hc
      · exact hd

/-- The characters of numbers. -/
def numChars : Str := k!"0123456789.-+einf"
/-- `P` holds for the characters of numbers. -/
class NumBase (P : Char → Prop) : Prop where
  num : ∀ c ∈ numChars, P c
instance [Base P] : NumBase P := ⟨fun c hc => Base.plain c (by revert c; decide)⟩
theorem Chars.consN [NumBase P] {c : Char} {b : Str} (hc : c ∈ numChars) (hb : Chars P b) : Chars P (c :: b) := .cons' (NumBase.num c hc) hb

theorem digit_num : ∀ n < 10, digitChar n ∈ numChars := by decide
theorem natStr_chars [NumBase P] {n : Nat} : Chars P (natStr n) := by
  have : ∀ f n, Chars P (natStrAux f n) := by
    intro f
    induction f with
    | zero => intro n; exact .nil
    | succ f ih =>
      intro n
      rw [natStrAux]
      split
      · exact .consN (digit_num _ (by omega)) .nil
      · exact .append (ih _) (.consN (digit_num _ (by omega)) .nil)
  exact this _ _
theorem intStr_chars [NumBase P] {n : Int} : Chars P (intStr n) := .ite (.consN (by decide) natStr_chars) natStr_chars

theorem stripZeros_chars {s : Str} (h : Chars P s) : Chars P (F64.stripZeros s) := h.sub fun c hc => by
  have := List.mem_reverse.1 hc
  exact List.mem_reverse.1 ((List.dropWhile_sublist _).mem this)

theorem repr_chars [NumBase P] {x : F64} : Chars P x.repr := by
  cases x with
  | inf neg => cases neg <;> exact fun c hc => NumBase.num c (by revert c; decide)
  | fin neg m e =>
    have z : P '0' := NumBase.num _ (by decide)
    have hs : Chars P (if neg then ['-'] else []) := .ite (.consN (by decide) .nil) .nil
    have hd : Chars P (F64.stripZeros (natStr (F64.shortest neg m e 17 1).1)) := stripZeros_chars natStr_chars
    simp only [F64.repr]
    generalize F64.stripZeros (natStr (F64.shortest neg m e 17 1).1) = ds at hd
    refine .ite (.append hs (.consN (by decide) (.consN (by decide) (.consN (by decide) .nil)))) (.ite ?_ (.ite ?_ (.ite ?_ ?_)))
    · refine .append (.append hs ?_) (.consN (by decide) (.cons' ?_ (.ite (.consN (by decide) natStr_chars) natStr_chars)))
      · match ds, hd with
        | [], _ => exact .nil
        | [a], hd => exact hd
        | a :: b :: r, hd => exact .cons' (hd a (by simp)) (.consN (by decide) (hd.sub fun c hc => by simp at hc ⊢; exact .inr hc))
      · split <;> exact NumBase.num _ (by decide)
    · exact .append (.append (.append hs (.consN (by decide) (.consN (by decide) .nil))) (.replicate z)) hd
    · exact .append (.append (.append hs hd) (.replicate z)) (.consN (by decide) (.consN (by decide) .nil))
    · exact .append (.append hs (hd.sub fun c hc => List.mem_of_mem_take hc)) (.consN (by decide) (hd.sub fun c hc => List.mem_of_mem_drop hc))

theorem fmtFixed_chars [NumBase P] {p : Nat} {x : F64} : Chars P (F64.fmtFixed p x) := by
  cases x with
  | inf neg => cases neg <;> exact fun c hc => NumBase.num c (by simp only [F64.fmtFixed] at hc; revert c; decide)
  | fin neg m e =>
    have z : P '0' := NumBase.num _ (by decide)
    have hs : Chars P (if neg then ['-'] else []) := .ite (.consN (by decide) .nil) .nil
    simp only [F64.fmtFixed]
    refine .ite (.append hs (.append (.replicate z) natStr_chars)) (.append (.append hs ?_) (.consN (by decide) ?_))
    · exact Chars.sub (.append (.replicate z) natStr_chars) fun c hc => List.mem_of_mem_take hc
    · exact Chars.sub (.append (.replicate z) natStr_chars) fun c hc => List.mem_of_mem_drop hc

theorem Only.val_str {s : Str} (h : Only (Chars P) (Val.str s)) : Chars P s := h s (List.mem_singleton.2 rfl)

mutual
theorem Val.pyStr_chars [Base P] : {v : Val} → Only (Chars P) v → Chars P v.pyStr
  | .int _, _ => intStr_chars
  | .flt _, _ => repr_chars
  | .str _, h => h.val_str
  | .list l, h => .cons (by decide) (.append (Val.pyStrL_chars (l := l) h) (.cons (by decide) .nil))
theorem Val.pyStrL_chars [Base P] : {l : List Val} → (∀ s ∈ Val.stringsL l, Chars P s) → Chars P (Val.pyStrL l)
  | [], _ => .nil
  | [v], h => Val.pyReprV_chars (v := v) fun s hs => h s (List.mem_append_left _ hs)
  | v :: w :: r, h => .append (Val.pyReprV_chars (v := v) fun s hs => h s (List.mem_append_left _ hs))
      (.cons (by decide) (.cons (by decide) (Val.pyStrL_chars (l := w :: r) fun s hs => h s (List.mem_append_right _ hs))))
theorem Val.pyReprV_chars [Base P] : {v : Val} → Only (Chars P) v → Chars P v.pyReprV
  | .int _, _ => intStr_chars
  | .flt _, _ => repr_chars
  | .str _, h => .cons (by decide) (.append h.val_str (.cons (by decide) .nil))
  | .list l, h => .cons (by decide) (.append (Val.pyStrL_chars (l := l) h) (.cons (by decide) .nil))
end
theorem optPyStr_chars [Base P] {x : Option Val} (h : Only (Chars P) x) : Chars P (optPyStr x) := by
  cases x with
  | none => exact fun c hc => Base.plain c (by revert c; decide)
  | some v => exact Val.pyStr_chars h.some
theorem dq_chars [Base P] {v : Val} (h : Only (Chars P) v) : Chars P (dq v) := dequote_chars (Val.pyStr_chars h)
end

section
variable {P : Char → Prop}
theorem CharsM.ok {s : Str} (h : Chars P s) : CharsM P (.ok s) := fun _ e => by cases e; exact h
theorem CharsM.pure {s : Str} (h : Chars P s) : CharsM P (Pure.pure s) := .ok h
theorem CharsM.error {e : PyErr} : CharsM P (.error e) := fun _ h => nomatch h
theorem CharsM.ite {c : Prop} [Decidable c] {a b : PyM Str} (ha : CharsM P a) (hb : CharsM P b) : CharsM P (if c then a else b) := by
  split
  · exact ha
  · exact hb
theorem CharsM.bindS {m : PyM Str} {k : Str → PyM Str} (hm : CharsM P m) (h : ∀ a, Chars P a → CharsM P (k a)) : CharsM P (m >>= k) := by
  cases e : m with
  | error => exact .error
  | ok a => exact h a (hm a e)
theorem CharsM.bind {α : Type} {m : PyM α} {k : α → PyM Str} (h : ∀ a, CharsM P (k a)) : CharsM P (m >>= k) := by
  cases e : m with
  | error => exact .error
  | ok a => exact h a
theorem CharsM.map {α : Type} {m : PyM α} {k : α → Str} (h : ∀ a, Chars P (k a)) : CharsM P (m.map k) := by
  cases e : m with
  | error => exact .error
  | ok a => exact .ok (h a)
theorem optSM_chars {α : Type} [Texts α] {x : Option α} {f : α → PyM Str} (hx : Only (Chars P) x) (h : ∀ a, Only (Chars P) a → CharsM P (f a)) :
    CharsM P (optSM x f) := by
  cases x with
  | none => exact .ok .nil
  | some a => exact h a hx.some
theorem forSM_chars {α : Type} [Texts α] {l : List α} {f : α → PyM Str} (hl : Only (Chars P) l) (h : ∀ a, Only (Chars P) a → CharsM P (f a)) :
    CharsM P (forSM l f) := by
  induction l with
  | nil => exact .ok .nil
  | cons a l ih => exact .bindS (h a hl.head) fun _ ha => .bindS (ih hl.tail) fun _ hb => .ok (ha.append hb)
theorem kw_chars {s : Str} (h : Chars P s) : Chars P (kw s) := h
theorem Chars.lit [Base P] {s : Str} (h : s.all (fun c => decide (Plain c)) = true) : Chars P s := fun c hc =>
  Base.plain c (of_decide_eq_true (List.all_eq_true.1 h c hc))
theorem formatFixed_chars [Base P] {p : Nat} {v : Val} : CharsM P (formatFixed p v) := by
  cases v with
  | int n => exact .map fun _ => fmtFixed_chars
  | flt f => exact .ok fmtFixed_chars
  | _ => exact .error
theorem floatFixed_chars [Base P] {p : Nat} {v : Val} : CharsM P (floatFixed p v) := by
  cases v with
  | int n => exact .map fun _ => fmtFixed_chars
  | flt f => exact .ok fmtFixed_chars
  | str s =>
    unfold floatFixed
    dsimp only
    split
    · exact .ok fmtFixed_chars
    · exact .ok (.lit (by decide))
    · exact .error
  | list => exact .error
end

open Lean Meta Elab Tactic in
/-- Proves `Chars P s` and `CharsM P m` by the structure of the text. -/
partial def charsGoal (g : MVarId) : TacticM (List MVarId) := g.withContext do
  if ← g.isAssigned then return []
  let t ← instantiateMVars (← g.getType)
  let t := t.consumeMData.headBeta
  if t.isForall then
    let (_, g) ← g.intros
    return ← charsGoal g
  if t.isAppOf ``Only then return ← onlyGoal g
  let monadic := t.isAppOf ``CharsM
  unless monadic || t.isAppOf ``Chars do
    if ← withReducible g.assumptionCore then return []
    return [g]
  if ← withReducible g.assumptionCore then return []
  let e := t.appArg!.consumeMData
  let e' := e.headBeta
  if e'.isLet then
    let g ← g.replaceTargetDefEq (.app t.appFn! (e'.letBody!.instantiate1 e'.letValue!))
    return ← charsGoal g
  if e' != e then
    let g ← g.replaceTargetDefEq (.app t.appFn! e')
    return ← charsGoal g
  let use (n : Name) : TacticM (List MVarId) := do
    let gs ← g.apply (← mkConstWithFreshMVarLevels n)
    return (← gs.mapM charsGoal).flatten
  let lit : TacticM (List MVarId) := do
    let [g] ← g.apply (← mkConstWithFreshMVarLevels ``Chars.lit) | throwError "lit"
    g.assign (← mkEqRefl (mkConst ``Bool.true))
    return []
  let fn := e.getAppFn
  if fn.isConstOf ``kw && !e.appArg!.isFVar then return ← lit
  if fn.isConstOf ``List.nil then return ← use ``Chars.nil
  if fn.isConstOf ``HAppend.hAppend then return ← use ``Chars.append
  if fn.isConstOf ``List.cons then
    let gs ← g.apply (← mkConstWithFreshMVarLevels ``Chars.cons)
    let mut out := []
    for g in gs do
      let t ← instantiateMVars (← g.getType)
      if t.isAppOf ``Plain then
        g.assign (← mkDecideProof t)
      else out := out ++ (← charsGoal g)
    return out
  if fn.isConstOf ``ite then return ← use (if monadic then ``CharsM.ite else ``Chars.ite)
  if fn.isConstOf ``Except.ok then return ← use ``CharsM.ok
  if fn.isConstOf ``Pure.pure then return ← use ``CharsM.pure
  if fn.isConstOf ``Except.error then return ← use ``CharsM.error
  if fn.isConstOf ``Except.map then return ← use ``CharsM.map
  if fn.isConstOf ``Bind.bind then
    let m := e.getAppArgs[4]!
    let ty ← whnfR (← inferType m)
    let ty := if ty.isAppOf ``Except then ty.appArg! else ty.appArg!
    let ty ← whnf ty
    let str ← isDefEq ty (← whnf (mkConst ``Str))
    return ← use (if str then ``CharsM.bindS else ``CharsM.bind)
  if let .const n _ := fn then
    let lem := if n.getPrefix.isAnonymous || n.getPrefix == `Kiutils || true then n.getPrefix ++ Name.mkSimple (n.getString! ++ "_chars") else n
    if (← getEnv).contains lem then return ← use lem
    if (← isMatcher n) then
      if let .reduced e' ← reduceMatcher? e then
        let g ← g.replaceTargetDefEq (.app t.appFn! e')
        return ← charsGoal g
      if let some gs ← splitTarget? g then
        return (← gs.mapM charsGoal).flatten
  return [g]

open Lean Meta Elab Tactic in
/-- Proves `Chars P s` and `CharsM P m` by the structure of the text. -/
elab "chars" : tactic => do
  let g ← getMainGoal
  replaceMainGoal (← charsGoal g)

section
variable {P : Char → Prop} [Base P]
set_option linter.unusedVariables false
set_option linter.unusedSectionVars false

/-! ## Model/Common.lean -/

theorem Coordinate.toSexpr_chars {o : Coordinate} {indent : Nat} {newline : Bool} (ho : Only (Chars P) o) : Chars P (Coordinate.toSexpr o indent newline) := by
  unfold Coordinate.toSexpr
  chars

theorem fmtFixedVal_chars {p : Nat} {v : Val} (h : Only (Chars P) v) : Chars P (fmtFixedVal p v) := by
  unfold fmtFixedVal
  split
  · exact fmtFixed_chars
  · exact fmtFixed_chars
  · exact Val.pyStr_chars h

theorem ColorRGBA.toSexpr_chars {o : ColorRGBA} {indent : Nat} {newline : Bool} (ho : Only (Chars P) o) : Chars P (ColorRGBA.toSexpr o indent newline) := by
  unfold ColorRGBA.toSexpr
  chars

theorem ColorRGBA.toSexprM_chars {o : ColorRGBA} {indent : Nat} {newline : Bool} (ho : Only (Chars P) o) : CharsM P (ColorRGBA.toSexprM o indent newline) := by
  unfold ColorRGBA.toSexprM
  chars

theorem Stroke.toSexpr_chars {o : Stroke} {indent : Nat} {newline : Bool} (ho : Only (Chars P) o) : Chars P (Stroke.toSexpr o indent newline) := by
  unfold Stroke.toSexpr
  chars

theorem Font.toSexpr_chars {o : Font} {indent : Nat} {newline : Bool} (ho : Only (Chars P) o) : Chars P (Font.toSexpr o indent newline) := by
  unfold Font.toSexpr
  chars

theorem Justify.toSexpr_chars {o : Justify} {indent : Nat} {newline : Bool} (ho : Only (Chars P) o) : Chars P (Justify.toSexpr o indent newline) := by
  unfold Justify.toSexpr
  chars

theorem Effects.toSexpr_chars {o : Effects} {indent : Nat} {newline : Bool} (ho : Only (Chars P) o) : Chars P (Effects.toSexpr o indent newline) := by
  unfold Effects.toSexpr
  chars

theorem Net.toSexpr_chars {o : Net} {indent : Nat} {newline : Bool} (ho : Only (Chars P) o) : Chars P (Net.toSexpr o indent newline) := by
  unfold Net.toSexpr
  chars

theorem Group.toSexpr_chars {o : Group} {indent : Nat} {newline : Bool} (ho : Only (Chars P) o) : Chars P (Group.toSexpr o indent newline) := by
  unfold Group.toSexpr
  chars

theorem PageSettings.toSexpr_chars {o : PageSettings} {indent : Nat} {newline : Bool} (ho : Only (Chars P) o) : CharsM P (PageSettings.toSexpr o indent newline) := by
  unfold PageSettings.toSexpr
  chars

theorem TitleBlock.toSexpr_chars {o : TitleBlock} {indent : Nat} {newline : Bool} (ho : Only (Chars P) o) : Chars P (TitleBlock.toSexpr o indent newline) := by
  unfold TitleBlock.toSexpr
  chars

theorem Property.toSexpr_chars {o : Property} {indent : Nat} {newline : Bool} (ho : Only (Chars P) o) : Chars P (Property.toSexpr o indent newline) := by
  unfold Property.toSexpr
  chars

theorem RenderCachePolygon.toSexpr_chars {o : RenderCachePolygon} {indent : Nat} {newline : Bool} (ho : Only (Chars P) o) : Chars P (RenderCachePolygon.toSexpr o indent newline) := by
  unfold RenderCachePolygon.toSexpr
  chars

theorem RenderCache.toSexpr_chars {o : RenderCache} {indent : Nat} {newline : Bool} (ho : Only (Chars P) o) : Chars P (RenderCache.toSexpr o indent newline) := by
  unfold RenderCache.toSexpr
  chars

theorem Fill.toSexpr_chars {o : Fill} {indent : Nat} {newline : Bool} (ho : Only (Chars P) o) : Chars P (Fill.toSexpr o indent newline) := by
  unfold Fill.toSexpr
  chars

theorem Image.toSexpr_chars {o : Image} {indent : Nat} {newline : Bool} (ho : Only (Chars P) o) : Chars P (Image.toSexpr o indent newline) := by
  unfold Image.toSexpr
  chars

/-! ## Model/Libraries.lean -/

theorem Library.toSexpr_chars {o : Library} {indent : Nat} {newline : Bool} (ho : Only (Chars P) o) : Chars P (Library.toSexpr o indent newline) := by
  unfold Library.toSexpr
  chars

theorem LibTable.toSexpr_chars {o : LibTable} {indent : Nat} {newline : Bool} (ho : Only (Chars P) o) : Chars P (LibTable.toSexpr o indent newline) := by
  unfold LibTable.toSexpr
  chars

/-! ## Model/Dru.lean -/

theorem joinSp_chars {l : List Val} (h : Only (Chars P) l) : CharsM P (joinSp l) := by
  induction l with
  | nil => rw [joinSp]; exact .ok .nil
  | cons v r ih =>
    cases v with
    | str s =>
      cases r with
      | nil => rw [joinSp]; exact .ok h.head.val_str
      | cons w r => rw [joinSp]; exact .bindS (ih h.tail) fun a ha => .pure (.append h.head.val_str (.cons (by decide) ha)); exact nofun
    | _ => rw [joinSp] <;> first | exact .error | exact nofun

theorem Constraint.toSexpr_chars {o : Constraint} {indent : Nat} {newline : Bool} (ho : Only (Chars P) o) : CharsM P (Constraint.toSexpr o indent newline) := by
  unfold Constraint.toSexpr
  chars

theorem Rule.toSexpr_chars {o : Rule} {indent : Nat} (ho : Only (Chars P) o) : CharsM P (Rule.toSexpr o indent) := by
  unfold Rule.toSexpr
  chars

theorem DesignRules.toSexpr_chars {o : DesignRules} {indent : Nat} {newline : Bool} (ho : Only (Chars P) o) : CharsM P (DesignRules.toSexpr o indent newline) := by
  unfold DesignRules.toSexpr
  chars

/-! ## Model/Wks.lean -/

theorem WksFontSize.toSexpr_chars {o : WksFontSize} {indent : Nat} {newline : Bool} (ho : Only (Chars P) o) : Chars P (WksFontSize.toSexpr o indent newline) := by
  unfold WksFontSize.toSexpr
  chars

theorem WksFont.toSexpr_chars {o : WksFont} {indent : Nat} {newline : Bool} (ho : Only (Chars P) o) : Chars P (WksFont.toSexpr o indent newline) := by
  unfold WksFont.toSexpr
  chars

theorem WksPosition.text_chars {p : WksPosition} (hp : Only (Chars P) p) : Chars P (WksPosition.text p) := by
  unfold WksPosition.text
  chars

theorem WksShape.toSexpr_chars {head : Str} {o : WksShape} {indent : Nat} {newline : Bool} (hhead : Chars P head) (ho : Only (Chars P) o) : Chars P (WksShape.toSexpr head o indent newline) := by
  unfold WksShape.toSexpr
  chars

theorem Bitmap.toSexpr_chars {o : Bitmap} {indent : Nat} {newline : Bool} (ho : Only (Chars P) o) : Chars P (Bitmap.toSexpr o indent newline) := by
  unfold Bitmap.toSexpr
  chars

theorem TbText.toSexpr_chars {o : TbText} {indent : Nat} {newline : Bool} (ho : Only (Chars P) o) : Chars P (TbText.toSexpr o indent newline) := by
  unfold TbText.toSexpr
  chars

theorem TextSize.toSexpr_chars {o : TextSize} {indent : Nat} {newline : Bool} (ho : Only (Chars P) o) : Chars P (TextSize.toSexpr o indent newline) := by
  unfold TextSize.toSexpr
  chars

theorem Setup.toSexpr_chars {o : Setup} {indent : Nat} {newline : Bool} (ho : Only (Chars P) o) : Chars P (Setup.toSexpr o indent newline) := by
  unfold Setup.toSexpr
  chars

theorem WksItem.toSexpr_chars {o : WksItem} {indent : Nat} (ho : Only (Chars P) o) : CharsM P (WksItem.toSexpr o indent) := by
  cases o with
  | line a => have := WksItem.line_case ho; unfold WksItem.toSexpr; chars
  | rect a => have := WksItem.rect_case ho; unfold WksItem.toSexpr; chars
  | polygon => unfold WksItem.toSexpr; chars
  | bitmap a => have := WksItem.bitmap_case ho; unfold WksItem.toSexpr; chars
  | tbtext a => have := WksItem.tbtext_case ho; unfold WksItem.toSexpr; chars

theorem WorkSheet.toSexpr_chars {o : WorkSheet} {indent : Nat} {newline : Bool} (ho : Only (Chars P) o) : CharsM P (WorkSheet.toSexpr o indent newline) := by
  unfold WorkSheet.toSexpr
  chars

/-! ## Model/SyItems.lean -/

theorem Position.ang_chars {p : Position} (hp : Only (Chars P) p) : Chars P (Position.ang p) := by
  unfold Position.ang
  chars

theorem SyArc.toSexpr_chars {o : SyArc} {indent : Nat} {newline : Bool} (ho : Only (Chars P) o) : Chars P (SyArc.toSexpr o indent newline) := by
  unfold SyArc.toSexpr
  chars

theorem SyCircle.toSexpr_chars {o : SyCircle} {indent : Nat} {newline : Bool} (ho : Only (Chars P) o) : Chars P (SyCircle.toSexpr o indent newline) := by
  unfold SyCircle.toSexpr
  chars

theorem SyCurve.toSexpr_chars {o : SyCurve} {indent : Nat} {newline : Bool} (ho : Only (Chars P) o) : Chars P (SyCurve.toSexpr o indent newline) := by
  unfold SyCurve.toSexpr
  chars

theorem SyPolyLine.toSexpr_chars {o : SyPolyLine} {indent : Nat} {newline : Bool} (ho : Only (Chars P) o) : Chars P (SyPolyLine.toSexpr o indent newline) := by
  unfold SyPolyLine.toSexpr
  chars

theorem SyRect.toSexpr_chars {o : SyRect} {indent : Nat} {newline : Bool} (ho : Only (Chars P) o) : Chars P (SyRect.toSexpr o indent newline) := by
  unfold SyRect.toSexpr
  chars

theorem SyText.toSexpr_chars {o : SyText} {indent : Nat} {newline : Bool} (ho : Only (Chars P) o) : Chars P (SyText.toSexpr o indent newline) := by
  unfold SyText.toSexpr
  chars

theorem SyTextBox.toSexpr_chars {o : SyTextBox} {indent : Nat} {newline : Bool} (ho : Only (Chars P) o) : Chars P (SyTextBox.toSexpr o indent newline) := by
  unfold SyTextBox.toSexpr
  chars

theorem SyItem.toSexpr_chars {o : SyItem} {indent : Nat} (ho : Only (Chars P) o) : Chars P (SyItem.toSexpr o indent) := by
  cases o with
  | arc a => have := SyItem.arc_case ho; unfold SyItem.toSexpr; chars
  | circle a => have := SyItem.circle_case ho; unfold SyItem.toSexpr; chars
  | curve a => have := SyItem.curve_case ho; unfold SyItem.toSexpr; chars
  | polyline a => have := SyItem.polyline_case ho; unfold SyItem.toSexpr; chars
  | rect a => have := SyItem.rect_case ho; unfold SyItem.toSexpr; chars
  | text a => have := SyItem.text_case ho; unfold SyItem.toSexpr; chars
  | textBox a => have := SyItem.textBox_case ho; unfold SyItem.toSexpr; chars

/-! ## Model/Symbol.lean -/

theorem SymbolAlternativePin.toSexpr_chars {o : SymbolAlternativePin} {indent : Nat} {newline : Bool} (ho : Only (Chars P) o) : Chars P (SymbolAlternativePin.toSexpr o indent newline) := by
  unfold SymbolAlternativePin.toSexpr
  chars

theorem SymbolPin.toSexpr_chars {o : SymbolPin} {indent : Nat} {newline : Bool} (ho : Only (Chars P) o) : Chars P (SymbolPin.toSexpr o indent newline) := by
  unfold SymbolPin.toSexpr
  chars

theorem Symbol.libId_chars {o : Symbol} (ho : Only (Chars P) o) : Chars P (Symbol.libId o) := by
  unfold Symbol.libId
  chars

theorem Symbol.textFlat_chars {o : Symbol} {indent : Nat} (ho : Only (Chars P) o) : Chars P (Symbol.textFlat o indent) := by
  unfold Symbol.textFlat
  chars

mutual
theorem Symbol.toSexpr_chars {o : Symbol} {i : Nat} {nl : Bool} (ho : Only (Chars P) o) : Chars P (o.toSexpr i nl) := by
  match o, ho with
  | ⟨a, b, c, d, e, f, g, h, j, k, l, m, n, p, q, us⟩, ho =>
    have h1 := Symbol.textFlat_chars (indent := i) ho
    have h2 := Symbol.textUnits_chars (l := us) (i := i + 2) (Symbol.units_only ho)
    rw [Symbol.toSexpr]
    chars
theorem Symbol.textUnits_chars {l : List Symbol} {i : Nat} (h : Only (Chars P) l) : Chars P (Symbol.textUnits l i) := by
  match l, h with
  | [], _ => rw [Symbol.textUnits]; exact .nil
  | u :: r, h =>
    rw [Symbol.textUnits]
    exact .append (Symbol.toSexpr_chars h.head) (Symbol.textUnits_chars h.tail)
end

theorem SymbolLib.toSexpr_chars {o : SymbolLib} {indent : Nat} {newline : Bool} (ho : Only (Chars P) o) : Chars P (SymbolLib.toSexpr o indent newline) := by
  unfold SymbolLib.toSexpr
  chars

/-! ## Model/SchItems.lean -/

theorem JunctionColor.toSexpr_chars {o : JunctionColor} (ho : Only (Chars P) o) : CharsM P o.toSexpr := by
  cases o with
  | rgba c => have := JunctionColor.rgba_case ho; unfold JunctionColor.toSexpr; chars
  | raw v => exact .error

theorem Junction.toSexpr_chars {o : Junction} {indent : Nat} {newline : Bool} (ho : Only (Chars P) o) : CharsM P (Junction.toSexpr o indent newline) := by
  unfold Junction.toSexpr
  chars

theorem NoConnect.toSexpr_chars {o : NoConnect} {indent : Nat} {newline : Bool} (ho : Only (Chars P) o) : Chars P (NoConnect.toSexpr o indent newline) := by
  unfold NoConnect.toSexpr
  chars

theorem BusEntry.toSexpr_chars {o : BusEntry} {indent : Nat} {newline : Bool} (ho : Only (Chars P) o) : Chars P (BusEntry.toSexpr o indent newline) := by
  unfold BusEntry.toSexpr
  chars

theorem joinQuoted_chars {l : List Val} (h : Only (Chars P) l) : Chars P (joinQuoted l) := by
  induction l with
  | nil => rw [joinQuoted]; exact .nil
  | cons v r ih =>
    have hv := h.head
    cases r with
    | nil => rw [joinQuoted]; chars
    | cons w r => have := ih h.tail; rw [joinQuoted]; (chars); exact nofun

theorem BusAlias.toSexpr_chars {o : BusAlias} {indent : Nat} {newline : Bool} (ho : Only (Chars P) o) : Chars P (BusAlias.toSexpr o indent newline) := by
  unfold BusAlias.toSexpr
  chars

theorem Connection.toSexpr_chars {o : Connection} {indent : Nat} {newline : Bool} (ho : Only (Chars P) o) : Chars P (Connection.toSexpr o indent newline) := by
  unfold Connection.toSexpr
  chars

theorem PolyLine.toSexpr_chars {o : PolyLine} {indent : Nat} {newline : Bool} (ho : Only (Chars P) o) : Chars P (PolyLine.toSexpr o indent newline) := by
  unfold PolyLine.toSexpr
  chars

theorem Text.toSexpr_chars {o : Text} {indent : Nat} {newline : Bool} (ho : Only (Chars P) o) : CharsM P (Text.toSexpr o indent newline) := by
  unfold Text.toSexpr
  chars

theorem TextBox.toSexpr_chars {o : TextBox} {indent : Nat} {newline : Bool} (ho : Only (Chars P) o) : Chars P (TextBox.toSexpr o indent newline) := by
  unfold TextBox.toSexpr
  chars

theorem LocalLabel.toSexpr_chars {o : LocalLabel} {indent : Nat} {newline : Bool} (ho : Only (Chars P) o) : Chars P (LocalLabel.toSexpr o indent newline) := by
  unfold LocalLabel.toSexpr
  chars

theorem GlobalLabel.toSexpr_chars {o : GlobalLabel} {indent : Nat} {newline : Bool} (ho : Only (Chars P) o) : Chars P (GlobalLabel.toSexpr o indent newline) := by
  unfold GlobalLabel.toSexpr
  chars

theorem HierarchicalLabel.toSexpr_chars {o : HierarchicalLabel} {indent : Nat} {newline : Bool} (ho : Only (Chars P) o) : Chars P (HierarchicalLabel.toSexpr o indent newline) := by
  unfold HierarchicalLabel.toSexpr
  chars

theorem SymbolProjectPath.toSexpr_chars {o : SymbolProjectPath} {indent : Nat} {newline : Bool} (ho : Only (Chars P) o) : Chars P (SymbolProjectPath.toSexpr o indent newline) := by
  unfold SymbolProjectPath.toSexpr
  chars

theorem SymbolProjectInstance.toSexpr_chars {o : SymbolProjectInstance} {indent : Nat} {newline : Bool} (ho : Only (Chars P) o) : Chars P (SymbolProjectInstance.toSexpr o indent newline) := by
  unfold SymbolProjectInstance.toSexpr
  chars

theorem SchematicSymbol.libId_chars {o : SchematicSymbol} (ho : Only (Chars P) o) : Chars P (SchematicSymbol.libId o) := by
  unfold SchematicSymbol.libId
  chars

theorem SchematicSymbol.toSexpr_chars {o : SchematicSymbol} {indent : Nat} {newline : Bool} (ho : Only (Chars P) o) : Chars P (SchematicSymbol.toSexpr o indent newline) := by
  unfold SchematicSymbol.toSexpr
  chars

theorem HierarchicalPin.toSexpr_chars {o : HierarchicalPin} {indent : Nat} {newline : Bool} (ho : Only (Chars P) o) : Chars P (HierarchicalPin.toSexpr o indent newline) := by
  unfold HierarchicalPin.toSexpr
  chars

theorem HierarchicalSheetProjectPath.toSexpr_chars {o : HierarchicalSheetProjectPath} {indent : Nat} {newline : Bool} (ho : Only (Chars P) o) : Chars P (HierarchicalSheetProjectPath.toSexpr o indent newline) := by
  unfold HierarchicalSheetProjectPath.toSexpr
  chars

theorem HierarchicalSheetProjectInstance.toSexpr_chars {o : HierarchicalSheetProjectInstance} {indent : Nat} {newline : Bool} (ho : Only (Chars P) o) : Chars P (HierarchicalSheetProjectInstance.toSexpr o indent newline) := by
  unfold HierarchicalSheetProjectInstance.toSexpr
  chars

theorem HierarchicalSheet.toSexpr_chars {o : HierarchicalSheet} {indent : Nat} {newline : Bool} (ho : Only (Chars P) o) : CharsM P (HierarchicalSheet.toSexpr o indent newline) := by
  unfold HierarchicalSheet.toSexpr
  chars

theorem HierarchicalSheetInstance.toSexpr_chars {o : HierarchicalSheetInstance} {indent : Nat} {newline : Bool} (ho : Only (Chars P) o) : Chars P (HierarchicalSheetInstance.toSexpr o indent newline) := by
  unfold HierarchicalSheetInstance.toSexpr
  chars

theorem SymbolInstance.toSexpr_chars {o : SymbolInstance} {indent : Nat} {newline : Bool} (ho : Only (Chars P) o) : Chars P (SymbolInstance.toSexpr o indent newline) := by
  unfold SymbolInstance.toSexpr
  chars

theorem Rectangle.toSexpr_chars {o : Rectangle} {indent : Nat} {newline : Bool} (ho : Only (Chars P) o) : Chars P (Rectangle.toSexpr o indent newline) := by
  unfold Rectangle.toSexpr
  chars

theorem Arc.toSexpr_chars {o : Arc} {indent : Nat} {newline : Bool} (ho : Only (Chars P) o) : Chars P (Arc.toSexpr o indent newline) := by
  unfold Arc.toSexpr
  chars

theorem Circle.toSexpr_chars {o : Circle} {indent : Nat} {newline : Bool} (ho : Only (Chars P) o) : Chars P (Circle.toSexpr o indent newline) := by
  unfold Circle.toSexpr
  chars

theorem NetclassFlag.effectsText_chars {e : Option Effects} {indent : Nat} (he : Only (Chars P) e) : CharsM P (NetclassFlag.effectsText e indent) := by
  unfold NetclassFlag.effectsText
  chars

theorem NetclassFlag.toSexpr_chars {o : NetclassFlag} {indent : Nat} {newline : Bool} (ho : Only (Chars P) o) : CharsM P (NetclassFlag.toSexpr o indent newline) := by
  unfold NetclassFlag.toSexpr
  chars

/-! ## Model/Schematic.lean -/

theorem SchGraphic.toSexpr_chars {o : SchGraphic} {indent : Nat} (ho : Only (Chars P) o) : Chars P (SchGraphic.toSexpr o indent) := by
  cases o with
  | connection a => have := SchGraphic.connection_case ho; unfold SchGraphic.toSexpr; chars
  | polyline a => have := SchGraphic.polyline_case ho; unfold SchGraphic.toSexpr; chars

theorem SchShape.toSexpr_chars {o : SchShape} {indent : Nat} (ho : Only (Chars P) o) : Chars P (SchShape.toSexpr o indent) := by
  cases o with
  | arc a => have := SchShape.arc_case ho; unfold SchShape.toSexpr; chars
  | circle a => have := SchShape.circle_case ho; unfold SchShape.toSexpr; chars
  | rectangle a => have := SchShape.rectangle_case ho; unfold SchShape.toSexpr; chars

theorem Schematic.toSexpr_chars {o : Schematic} {indent : Nat} {newline : Bool} (ho : Only (Chars P) o) : CharsM P (Schematic.toSexpr o indent newline) := by
  unfold Schematic.toSexpr
  chars

/-! ## Model/GrItems.lean -/

theorem Position.sang_chars {p : Position} (hp : Only (Chars P) p) : Chars P (Position.sang p) := by
  unfold Position.sang
  chars

theorem GrText.toSexpr_chars {o : GrText} {indent : Nat} {newline : Bool} (ho : Only (Chars P) o) : Chars P (GrText.toSexpr o indent newline) := by
  unfold GrText.toSexpr
  chars

theorem GrTextBox.toSexpr_chars {o : GrTextBox} {indent : Nat} {newline : Bool} (ho : Only (Chars P) o) : CharsM P (GrTextBox.toSexpr o indent newline) := by
  unfold GrTextBox.toSexpr
  chars

theorem GrLine.toSexpr_chars {o : GrLine} {indent : Nat} {newline : Bool} (ho : Only (Chars P) o) : Chars P (GrLine.toSexpr o indent newline) := by
  unfold GrLine.toSexpr
  chars

theorem GrRect.toSexpr_chars {o : GrRect} {indent : Nat} {newline : Bool} (ho : Only (Chars P) o) : Chars P (GrRect.toSexpr o indent newline) := by
  unfold GrRect.toSexpr
  chars

theorem GrCircle.toSexpr_chars {o : GrCircle} {indent : Nat} {newline : Bool} (ho : Only (Chars P) o) : Chars P (GrCircle.toSexpr o indent newline) := by
  unfold GrCircle.toSexpr
  chars

theorem GrArc.toSexpr_chars {o : GrArc} {indent : Nat} {newline : Bool} (ho : Only (Chars P) o) : Chars P (GrArc.toSexpr o indent newline) := by
  unfold GrArc.toSexpr
  chars

theorem GrPoly.toSexpr_chars {o : GrPoly} {indent : Nat} {newline : Bool} {ptsNewline : Bool} (ho : Only (Chars P) o) : Chars P (GrPoly.toSexpr o indent newline ptsNewline) := by
  unfold GrPoly.toSexpr
  chars

theorem GrCurve.toSexpr_chars {o : GrCurve} {indent : Nat} {newline : Bool} (ho : Only (Chars P) o) : Chars P (GrCurve.toSexpr o indent newline) := by
  unfold GrCurve.toSexpr
  chars

theorem GrItem.toSexpr_chars {o : GrItem} {indent : Nat} {newline : Bool} {ptsNewline : Bool} (ho : Only (Chars P) o) : CharsM P (GrItem.toSexpr o indent newline ptsNewline) := by
  cases o with
  | text a => have := GrItem.text_case ho; unfold GrItem.toSexpr; chars
  | textBox a => have := GrItem.textBox_case ho; unfold GrItem.toSexpr; chars
  | line a => have := GrItem.line_case ho; unfold GrItem.toSexpr; chars
  | rect a => have := GrItem.rect_case ho; unfold GrItem.toSexpr; chars
  | circle a => have := GrItem.circle_case ho; unfold GrItem.toSexpr; chars
  | arc a => have := GrItem.arc_case ho; unfold GrItem.toSexpr; chars
  | poly a => have := GrItem.poly_case ho; unfold GrItem.toSexpr; chars
  | curve a => have := GrItem.curve_case ho; unfold GrItem.toSexpr; chars
  | image a => have := GrItem.image_case ho; unfold GrItem.toSexpr; chars

/-! ## Model/FpItems.lean -/

theorem FpText.toSexpr_chars {o : FpText} {indent : Nat} {newline : Bool} (ho : Only (Chars P) o) : Chars P (FpText.toSexpr o indent newline) := by
  unfold FpText.toSexpr
  chars

theorem widthText_chars {width : Option Val} {stroke : Option Stroke} (hwidth : Only (Chars P) width) (hstroke : Only (Chars P) stroke) : Chars P (widthText width stroke) := by
  unfold widthText
  chars

theorem FpLine.toSexpr_chars {o : FpLine} {indent : Nat} {newline : Bool} (ho : Only (Chars P) o) : Chars P (FpLine.toSexpr o indent newline) := by
  unfold FpLine.toSexpr
  chars

theorem FpRect.toSexpr_chars {o : FpRect} {indent : Nat} {newline : Bool} (ho : Only (Chars P) o) : Chars P (FpRect.toSexpr o indent newline) := by
  unfold FpRect.toSexpr
  chars

theorem FpTextBox.toSexpr_chars {o : FpTextBox} {indent : Nat} {newline : Bool} (ho : Only (Chars P) o) : CharsM P (FpTextBox.toSexpr o indent newline) := by
  unfold FpTextBox.toSexpr
  chars

theorem FpCircle.toSexpr_chars {o : FpCircle} {indent : Nat} {newline : Bool} (ho : Only (Chars P) o) : Chars P (FpCircle.toSexpr o indent newline) := by
  unfold FpCircle.toSexpr
  chars

theorem FpArc.toSexpr_chars {o : FpArc} {indent : Nat} {newline : Bool} (ho : Only (Chars P) o) : Chars P (FpArc.toSexpr o indent newline) := by
  unfold FpArc.toSexpr
  chars

theorem FpPoly.toSexpr_chars {o : FpPoly} {indent : Nat} {newline : Bool} (ho : Only (Chars P) o) : Chars P (FpPoly.toSexpr o indent newline) := by
  unfold FpPoly.toSexpr
  chars

theorem FpCurve.toSexpr_chars {o : FpCurve} {indent : Nat} {newline : Bool} (ho : Only (Chars P) o) : Chars P (FpCurve.toSexpr o indent newline) := by
  unfold FpCurve.toSexpr
  chars

theorem FpItem.toSexpr_chars {o : FpItem} {indent : Nat} (ho : Only (Chars P) o) : CharsM P (FpItem.toSexpr o indent) := by
  cases o with
  | text a => have := FpItem.text_case ho; unfold FpItem.toSexpr; chars
  | textBox a => have := FpItem.textBox_case ho; unfold FpItem.toSexpr; chars
  | line a => have := FpItem.line_case ho; unfold FpItem.toSexpr; chars
  | rect a => have := FpItem.rect_case ho; unfold FpItem.toSexpr; chars
  | circle a => have := FpItem.circle_case ho; unfold FpItem.toSexpr; chars
  | arc a => have := FpItem.arc_case ho; unfold FpItem.toSexpr; chars
  | poly a => have := FpItem.poly_case ho; unfold FpItem.toSexpr; chars
  | curve a => have := FpItem.curve_case ho; unfold FpItem.toSexpr; chars
  | image a => have := FpItem.image_case ho; unfold FpItem.toSexpr; chars

/-! ## Model/Zones.lean -/

theorem KeepoutSettings.toSexpr_chars {o : KeepoutSettings} {indent : Nat} {newline : Bool} (ho : Only (Chars P) o) : Chars P (KeepoutSettings.toSexpr o indent newline) := by
  unfold KeepoutSettings.toSexpr
  chars

theorem FillSettings.toSexpr_chars {o : FillSettings} {indent : Nat} {newline : Bool} (ho : Only (Chars P) o) : Chars P (FillSettings.toSexpr o indent newline) := by
  unfold FillSettings.toSexpr
  chars

theorem ZonePolygon.toSexpr_chars {o : ZonePolygon} {indent : Nat} {newline : Bool} (ho : Only (Chars P) o) : Chars P (ZonePolygon.toSexpr o indent newline) := by
  unfold ZonePolygon.toSexpr
  chars

theorem FilledPolygon.toSexpr_chars {o : FilledPolygon} {indent : Nat} {newline : Bool} (ho : Only (Chars P) o) : Chars P (FilledPolygon.toSexpr o indent newline) := by
  unfold FilledPolygon.toSexpr
  chars

theorem FillSegments.toSexpr_chars {o : FillSegments} {indent : Nat} {newline : Bool} (ho : Only (Chars P) o) : Chars P (FillSegments.toSexpr o indent newline) := by
  unfold FillSegments.toSexpr
  chars

theorem Zone.layerToken_chars {l : List Val} (hl : Only (Chars P) l) : CharsM P (Zone.layerToken l) := by
  unfold Zone.layerToken
  chars

theorem Zone.toSexpr_chars {o : Zone} {indent : Nat} {newline : Bool} (ho : Only (Chars P) o) : CharsM P (Zone.toSexpr o indent newline) := by
  unfold Zone.toSexpr
  chars

/-! ## Model/Footprint.lean -/

theorem Attributes.toSexpr_chars {o : Attributes} {indent : Nat} {newline : Bool} (ho : Only (Chars P) o) : Chars P (Attributes.toSexpr o indent newline) := by
  unfold Attributes.toSexpr
  chars

theorem Model.toSexpr_chars {o : Model} {indent : Nat} {newline : Bool} (ho : Only (Chars P) o) : Chars P (Model.toSexpr o indent newline) := by
  unfold Model.toSexpr
  chars

theorem DrillDefinition.toSexpr_chars {o : DrillDefinition} {indent : Nat} {newline : Bool} (ho : Only (Chars P) o) : Chars P (DrillDefinition.toSexpr o indent newline) := by
  unfold DrillDefinition.toSexpr
  chars

theorem PadOptions.toSexpr_chars {o : PadOptions} {indent : Nat} {newline : Bool} (ho : Only (Chars P) o) : Chars P (PadOptions.toSexpr o indent newline) := by
  unfold PadOptions.toSexpr
  chars

theorem padLayer_chars {l : Val} (hl : Only (Chars P) l) : CharsM P (padLayer l) := by
  unfold padLayer
  chars

theorem Pad.toSexpr_chars {o : Pad} {indent : Nat} {newline : Bool} (ho : Only (Chars P) o) : CharsM P (Pad.toSexpr o indent newline) := by
  unfold Pad.toSexpr
  chars

theorem Footprint.libId_chars {o : Footprint} (ho : Only (Chars P) o) : Chars P (Footprint.libId o) := by
  unfold Footprint.libId
  chars

theorem Footprint.toSexpr_chars {o : Footprint} {indent : Nat} {newline : Bool} {layerInFirstLine : Bool} (ho : Only (Chars P) o) : CharsM P (Footprint.toSexpr o indent newline layerInFirstLine) := by
  unfold Footprint.toSexpr
  chars

/-! ## Model/BrdItems.lean -/

theorem GeneralSettings.toSexpr_chars {o : GeneralSettings} {indent : Nat} {newline : Bool} (ho : Only (Chars P) o) : Chars P (GeneralSettings.toSexpr o indent newline) := by
  unfold GeneralSettings.toSexpr
  chars

theorem LayerToken.toSexpr_chars {o : LayerToken} {indent : Nat} {newline : Bool} (ho : Only (Chars P) o) : Chars P (LayerToken.toSexpr o indent newline) := by
  unfold LayerToken.toSexpr
  chars

theorem StackupSubLayer.toSexpr_chars {o : StackupSubLayer} {indent : Nat} {newline : Bool} (ho : Only (Chars P) o) : Chars P (StackupSubLayer.toSexpr o indent newline) := by
  unfold StackupSubLayer.toSexpr
  chars

theorem StackupLayer.toSexpr_chars {o : StackupLayer} {indent : Nat} {newline : Bool} (ho : Only (Chars P) o) : Chars P (StackupLayer.toSexpr o indent newline) := by
  unfold StackupLayer.toSexpr
  chars

theorem Stackup.toSexpr_chars {o : Stackup} {indent : Nat} {newline : Bool} (ho : Only (Chars P) o) : Chars P (Stackup.toSexpr o indent newline) := by
  unfold Stackup.toSexpr
  chars

theorem PlotSettings.toSexpr_chars {o : PlotSettings} {indent : Nat} {newline : Bool} (ho : Only (Chars P) o) : CharsM P (PlotSettings.toSexpr o indent newline) := by
  unfold PlotSettings.toSexpr
  chars

theorem SetupData.toSexpr_chars {o : SetupData} {indent : Nat} {newline : Bool} (ho : Only (Chars P) o) : CharsM P (SetupData.toSexpr o indent newline) := by
  unfold SetupData.toSexpr
  chars

theorem Segment.toSexpr_chars {o : Segment} {indent : Nat} {newline : Bool} (ho : Only (Chars P) o) : Chars P (Segment.toSexpr o indent newline) := by
  unfold Segment.toSexpr
  chars

theorem Via.toSexpr_chars {o : Via} {indent : Nat} {newline : Bool} (ho : Only (Chars P) o) : Chars P (Via.toSexpr o indent newline) := by
  unfold Via.toSexpr
  chars

theorem TraceArc.toSexpr_chars {o : TraceArc} {indent : Nat} {newline : Bool} (ho : Only (Chars P) o) : Chars P (TraceArc.toSexpr o indent newline) := by
  unfold TraceArc.toSexpr
  chars

theorem Target.toSexpr_chars {o : Target} {indent : Nat} {newline : Bool} (ho : Only (Chars P) o) : Chars P (Target.toSexpr o indent newline) := by
  unfold Target.toSexpr
  chars

/-! ## Model/Dimensions.lean -/

theorem DimensionFormat.toSexpr_chars {o : DimensionFormat} {indent : Nat} {newline : Bool} (ho : Only (Chars P) o) : Chars P (DimensionFormat.toSexpr o indent newline) := by
  unfold DimensionFormat.toSexpr
  chars

theorem DimensionStyle.toSexpr_chars {o : DimensionStyle} {indent : Nat} {newline : Bool} (ho : Only (Chars P) o) : Chars P (DimensionStyle.toSexpr o indent newline) := by
  unfold DimensionStyle.toSexpr
  chars

theorem Dimension.toSexpr_chars {o : Dimension} {indent : Nat} {newline : Bool} (ho : Only (Chars P) o) : CharsM P (Dimension.toSexpr o indent newline) := by
  unfold Dimension.toSexpr
  chars

/-! ## Model/Board.lean -/

theorem TraceItem.toSexpr_chars {o : TraceItem} {indent : Nat} (ho : Only (Chars P) o) : Chars P (TraceItem.toSexpr o indent) := by
  cases o with
  | segment a => have := TraceItem.segment_case ho; unfold TraceItem.toSexpr; chars
  | arc a => have := TraceItem.arc_case ho; unfold TraceItem.toSexpr; chars
  | via a => have := TraceItem.via_case ho; unfold TraceItem.toSexpr; chars

theorem Board.toSexpr_chars {o : Board} {indent : Nat} {newline : Bool} (ho : Only (Chars P) o) : CharsM P (Board.toSexpr o indent newline) := by
  unfold Board.toSexpr
  chars

end

end Kiutils
