import Verif.TextsOf
import Lean.Meta.Tactic.Split
import Verif.Proofs.Chars
import Verif.Proofs.LibId
/-!
# Where the strings of loaded objects come from

Part of the specification of C63 (`defaultTexts`) and the proof, class by class, that `from_sexpr` invents no strings.
-/
namespace Kiutils

/-- The strings that stand in the source code as default values of attributes. -/
def defaultTexts : List Str := [k!"", k!"0", k!"1", k!"20211014", k!"A4", k!"F.Cu", k!"KiCad", k!"Sheet file", k!"Sheet name", k!"aligned", k!"input", k!"kiutils", k!"none", k!"round", k!"outline", k!"unknown", k!"allowed", k!"not-allowed", k!"rect"]

/-- A property that with a string every contiguous part of it has. -/
class Parts (R : Str → Prop) : Prop where
  part : ∀ a b, a <:+: b → R b → R a

/-- A default text, or a string with the property `R`. -/
def Orig (R : Str → Prop) (s : Str) : Prop := s ∈ defaultTexts ∨ R s

/-! ## Rules -/

/-- Every string in whatever is returned has the property `Q`. -/
def OnlyM {α : Type} [Texts α] (Q : Str → Prop) (m : PyM α) : Prop := ∀ o, m = .ok o → Only Q o

section
variable {Q : Str → Prop}

theorem OnlyM.ok {α : Type} [Texts α] {o : α} (h : Only Q o) : OnlyM Q (.ok o) := fun _ e => by cases e; exact h
theorem OnlyM.pure {α : Type} [Texts α] {o : α} (h : Only Q o) : OnlyM Q (Pure.pure o) := .ok h
theorem OnlyM.error {α : Type} [Texts α] {e : PyErr} : OnlyM (α := α) Q (.error e) := fun _ h => nomatch h
theorem OnlyM.ite {α : Type} [Texts α] {c : Prop} [Decidable c] {a b : PyM α} (ha : OnlyM Q a) (hb : OnlyM Q b) :
    OnlyM Q (if c then a else b) := by
  split
  · exact ha
  · exact hb
theorem OnlyM.bind {α β : Type} [Texts α] [Texts β] {m : PyM α} {k : α → PyM β} (hm : OnlyM Q m)
    (h : ∀ a, Only Q a → OnlyM Q (k a)) : OnlyM Q (m >>= k) := by
  cases e : m with
  | error => exact .error
  | ok a => exact h a (hm a e)
theorem OnlyM.bindTree {R : Str → Prop} {α β : Type} [Texts α] [Texts β] {m : PyM α} {k : α → PyM β} (hm : OnlyM R m)
    (h : ∀ a, Only R a → OnlyM (Orig R) (k a)) : OnlyM (Orig R) (m >>= k) := by
  cases e : m with
  | error => exact .error
  | ok a => exact h a (hm a e)
theorem Only.ite {α : Type} [Texts α] {c : Prop} [Decidable c] {a b : α} (ha : Only Q a) (hb : Only Q b) :
    Only Q (if c then a else b) := by
  split
  · exact ha
  · exact hb
theorem Only.bool {b : Bool} : Only Q b := fun _ h => nomatch h
theorem Only.nat {b : Nat} : Only Q b := fun _ h => nomatch h
theorem Only.int {n : Int} : Only Q (Val.int n) := fun _ h => nomatch h
theorem Only.flt {n : F64} : Only Q (Val.flt n) := fun _ h => nomatch h
theorem Only.str {s : Str} (h : Q s) : Only Q (Val.str s) := fun t ht => by
  rw [List.mem_singleton.1 ht]; exact h
theorem Only.str' {s : Str} (h : Only Q (Val.str s)) : Q s := h s (List.mem_singleton.2 rfl)
theorem Only.dflt {s : Str} (h : s ∈ defaultTexts) : Only (Orig Q) (Val.str s) := .str (.inl h)
theorem Only.tree {α : Type} [Texts α] {a : α} (h : Only Q a) : Only (Orig Q) a := fun s hs => .inr (h s hs)
theorem Only.mk_list {l : List Val} (h : Only Q l) : Only Q (Val.list l) := fun s hs => h s (by
  have : ∀ l : List Val, Val.stringsL l = texts l := fun l => by
    induction l with
    | nil => rfl
    | cons v r ih => rw [Val.stringsL, ih]; rfl
  rw [← this]; exact hs)
theorem Only.list {l : List Val} (h : Only Q (Val.list l)) : Only Q l := fun s hs => h s (by
  have : ∀ l : List Val, Val.stringsL l = texts l := fun l => by
    induction l with
    | nil => rfl
    | cons v r ih => rw [Val.stringsL, ih]; rfl
  show s ∈ Val.stringsL l
  rw [this]; exact hs)
theorem Only.none {α : Type} [Texts α] : Only Q (Option.none : Option α) := fun _ h => nomatch h
theorem Only.mk_some {α : Type} [Texts α] {a : α} (h : Only Q a) : Only Q (Option.some a) := fun s hs =>
  h s (by simpa [texts] using hs)
theorem Only.nil {α : Type} [Texts α] : Only Q ([] : List α) := fun _ h => nomatch h
theorem Only.cons {α : Type} [Texts α] {a : α} {l : List α} (h : Only Q a) (hl : Only Q l) : Only Q (a :: l) := fun s hs =>
  (List.mem_append.1 hs).elim (h s) (hl s)
theorem Only.append {α : Type} [Texts α] {a b : List α} (ha : Only Q a) (hb : Only Q b) : Only Q (a ++ b) := fun s hs => by
  obtain ⟨x, hx, hs⟩ := List.mem_flatMap.1 hs
  exact (List.mem_append.1 hx).elim (fun h => ha.mem h s hs) (fun h => hb.mem h s hs)
theorem Only.of_forall {α : Type} [Texts α] {l : List α} (h : ∀ a ∈ l, Only Q a) : Only Q l := fun s hs => by
  obtain ⟨x, hx, hs⟩ := List.mem_flatMap.1 hs
  exact h x hx s hs
theorem List.drop_only {α : Type} [Texts α] {l : List α} {n : Nat} (h : Only Q l) : Only Q (l.drop n) :=
  .of_forall fun _ ha => h.mem (List.mem_of_mem_drop ha)
theorem getElem?_only {α : Type} [Texts α] {l : List α} {n : Nat} (h : Only Q l) : Only Q l[n]? := by
  cases e : l[n]? with
  | none => exact .none
  | some a => exact .mk_some (h.mem (List.mem_of_getElem? e))
theorem List.head?_only {α : Type} [Texts α] {l : List α} (h : Only Q l) : Only Q l.head? := by
  cases l with
  | nil => exact .none
  | cons a l => exact .mk_some h.head
theorem Only.pair {α β : Type} [Texts α] [Texts β] {a : α} {b : β} (ha : Only Q a) (hb : Only Q b) : Only Q (a, b) := fun s hs =>
  (List.mem_append.1 hs).elim (ha s) (hb s)

theorem Val.elems_only [Parts Q] {v : Val} (h : Only Q v) : OnlyM Q v.elems := by
  cases v with
  | list l => exact .ok h.list
  | str s => exact .ok (.of_forall fun a ha => by
      obtain ⟨c, hc, rfl⟩ := List.mem_map.1 ha
      refine .str (Parts.part _ _ ?_ h.str')
      obtain ⟨x, y, rfl⟩ := List.append_of_mem hc
      exact ⟨x, y, by simp⟩)
  | _ => exact .error
theorem Val.idx_only [Parts Q] {v : Val} {n : Nat} (h : Only Q v) : OnlyM Q (v.idx n) := by
  cases v with
  | list l =>
    simp only [Val.idx]
    split
    · next e => exact .ok (h.list.mem (List.mem_of_getElem? e))
    · exact .error
  | str s =>
    simp only [Val.idx]
    split
    · next c e =>
      refine .ok (.str (Parts.part _ _ ?_ h.str'))
      obtain ⟨x, y, rfl⟩ := List.append_of_mem (List.mem_of_getElem? e)
      exact ⟨x, y, by simp⟩
    · exact .error
  | _ => exact .error
theorem Val.slice_only [Parts Q] {v : Val} {n : Nat} (h : Only Q v) : OnlyM Q (v.slice n) := fun o e => by
  unfold Val.slice at e
  cases he : v.elems with
  | error => rw [he] at e; exact nomatch e
  | ok l => rw [he] at e; cases e; exact List.drop_only (Val.elems_only h l he)
theorem Val.len_only {v : Val} : OnlyM Q v.len := fun _ _ => .nat
theorem checkHead_only {k : Str} {v : Val} (h : Only Q v) : OnlyM Q (checkHead k v) := by
  unfold checkHead
  split
  · split
    · exact .error
    · exact .ite (.ok h.list) .error
  · exact .error
theorem getI_only {l : List Val} {n : Nat} (h : Only Q l) : OnlyM Q (getI l n) := by
  unfold getI
  split
  · next e => exact .ok (h.mem (List.mem_of_getElem? e))
  · exact .error
theorem forM_only {σ : Type} [Texts σ] {step : σ → Val → PyM σ} {o : σ} {xs : List Val}
    (hs : ∀ o x, Only (Orig Q) o → Only Q x → OnlyM (Orig Q) (step o x)) (ho : Only (Orig Q) o) (hx : Only Q xs) :
    OnlyM (Orig Q) (forM step o xs) := by
  induction xs generalizing o with
  | nil => exact .ok ho
  | cons x r ih => exact .bind (hs o x ho hx.head) fun _ h => ih h hx.tail
/-- As `forM_only`, for items that are known to have the property `R`. -/
theorem forM_only_of {σ : Type} [Texts σ] {step : σ → Val → PyM σ} {o : σ} {xs : List Val} (R : Val → Prop) (hR : ∀ x ∈ xs, R x)
    (hs : ∀ o x, R x → Only (Orig Q) o → Only Q x → OnlyM (Orig Q) (step o x)) (ho : Only (Orig Q) o) (hx : Only Q xs) :
    OnlyM (Orig Q) (forM step o xs) := by
  induction xs generalizing o with
  | nil => exact .ok ho
  | cons x r ih =>
    exact .bind (hs o x (hR x (List.mem_cons_self ..)) ho hx.head) fun _ h => ih (fun y hy => hR y (List.mem_cons_of_mem _ hy)) h hx.tail
theorem mapM'_only {β : Type} [Texts β] {f : Val → PyM β} {xs : List Val} (hs : ∀ x, Only Q x → OnlyM (Orig Q) (f x)) (hx : Only Q xs) :
    OnlyM (Orig Q) (mapM' f xs) := by
  induction xs with
  | nil => exact .ok .nil
  | cons x r ih => exact .bind (hs x hx.head) fun _ h => .bind (ih hx.tail) fun _ h' => .ok (.cons h h')
theorem Dict.set_only {β : Type} [Texts β] {d : Dict β} {k : Val} {v : β} (hd : Only Q d) (hk : Only Q k) (hv : Only Q v) :
    Only Q (Dict.set d k v) := by
  induction d with
  | nil => exact .cons (.pair hk hv) .nil
  | cons x r ih =>
    obtain ⟨k', v'⟩ := x
    rw [Dict.set]
    exact .ite (.cons (.pair (Prod.fst_only hd.head) hv) hd.tail) (.cons hd.head (ih hd.tail))
theorem Dict.update_only {β : Type} [Texts β] {d : Dict β} {k : Val} {v : β} (hd : Only Q d) (hk : Only Q k) (hv : Only Q v) :
    OnlyM Q (Dict.update d k v) := by
  unfold Dict.update
  split
  · exact .error
  · exact .ok (Dict.set_only hd hk hv)
end

open Lean Meta Elab Tactic in
/-- A proof of `Only Q x` from a proof `pf` of `Only Q e`, if `e` is built from `x`. -/
partial def onlyInside (x : Expr) (e pf : Expr) : MetaM (Option Expr) := do
  if e == x then return some pf
  if e.isAppOfArity ``Option.some 2 then return ← onlyInside x e.appArg! (← mkAppM ``Only.some #[pf])
  if e.isAppOfArity ``Val.list 1 then return ← onlyInside x e.appArg! (← mkAppM ``Only.list #[pf])
  if e.isAppOfArity ``List.cons 3 then
    if let some p ← onlyInside x e.appFn!.appArg! (← mkAppM ``Only.head #[pf]) then return some p
    return ← onlyInside x e.appArg! (← mkAppM ``Only.tail #[pf])
  return none

open Lean Meta Elab Tactic in
/-- Proves `Only Q e` and `OnlyM Q m` by the structure of the code. -/
partial def provGoal (g : MVarId) : TacticM (List MVarId) := g.withContext do
  if ← g.isAssigned then return []
  let t ← instantiateMVars (← g.getType)
  let t := t.consumeMData.headBeta
  if t.isForall then
    let (_, g) ← g.intros
    return ← provGoal g
  let monadic := t.isAppOf ``OnlyM
  unless monadic || t.isAppOf ``Only do
    if ← withReducible g.assumptionCore then return []
    return [g]
  if ← withReducible g.assumptionCore then return []
  let e := t.appArg!.consumeMData
  let e' := e.headBeta
  if e'.isLet then
    return ← provGoal (← g.replaceTargetDefEq (.app t.appFn! (e'.letBody!.instantiate1 e'.letValue!)))
  if e' != e then
    return ← provGoal (← g.replaceTargetDefEq (.app t.appFn! e'))
  let use (n : Name) : TacticM (List MVarId) := do
    let gs ← g.apply (← mkConstWithFreshMVarLevels n)
    return (← gs.mapM provGoal).flatten
  if e.isFVar || e.isAppOf ``Val.str || e.isAppOf ``Val.list || e.isAppOf ``List.cons then
    for d in ← getLCtx do
      if d.isImplementationDetail then continue
      if d.type.isAppOf ``Only then
        if let some p ← onlyInside e d.type.appArg! d.toExpr then
          let p ← if t.getAppArgs[2]! == d.type.getAppArgs[2]! then pure p else mkAppM ``Only.tree #[p]
          g.assign p
          return []
  if e.isFVar then
    let ty ← whnfR (← inferType e)
    if ty.isConstOf ``Bool then return ← use ``Only.bool
    if ty.isConstOf ``Nat then return ← use ``Only.nat
    return ← onlyGoal g
  let fn := e.getAppFn
  let .const n _ := fn | return [g]
  if n == ``ite then return ← use (if monadic then ``OnlyM.ite else ``Only.ite)
  if monadic then
    if n == ``Except.ok then return ← use ``OnlyM.ok
    if n == ``Pure.pure then return ← use ``OnlyM.pure
    if n == ``Except.error then return ← use ``OnlyM.error
    if n == ``Bind.bind then
      let ty ← whnfR e.getAppArgs[2]!
      let tree := t.getAppArgs[2]!.isAppOf ``Orig && (ty.isConstOf ``Val || (ty.isAppOf ``List && ty.appArg!.isConstOf ``Val))
      return ← use (if tree then ``OnlyM.bindTree else ``OnlyM.bind)
  else
    let ty ← whnfR (← inferType e)
    if ty.isConstOf ``Bool then return ← use ``Only.bool
    if ty.isConstOf ``Nat then return ← use ``Only.nat
    if n == ``Option.none then return ← use ``Only.none
    if n == ``Option.some then return ← use ``Only.mk_some
    if n == ``List.nil then return ← use ``Only.nil
    if n == ``List.cons then return ← use ``Only.cons
    if n == ``HAppend.hAppend then return ← use ``Only.append
    if n == ``Prod.mk then return ← use ``Only.pair
    if n == ``Val.list then return ← use ``Only.mk_list
    if n == ``Val.int then return ← use ``Only.int
    if n == ``Val.flt || n == `Kiutils.fl then return ← use ``Only.flt
    if n == ``Val.str || n == `Kiutils.st then
      unless e.appArg!.hasFVar do
        let [g'] ← g.apply (← mkConstWithFreshMVarLevels ``Only.dflt) | return [g]
        try
          g'.withContext do g'.assign (← mkDecideProof (← g'.getType))
          return []
        catch _ => return [g']
    if let some (.ctorInfo c) := (← getEnv).find? n then
      let lem := if n.getString! == "mk" then c.induct ++ `of_only else n.getPrefix ++ Name.mkSimple (n.getString! ++ "_of")
      if (← getEnv).contains lem then return ← use lem
    if (← getEnv).isProjectionFn n then
      if let some e' ← unfoldProj? e then
        return ← provGoal (← g.replaceTargetDefEq (.app t.appFn! e'))
  let lem := n.getPrefix ++ Name.mkSimple (n.getString! ++ "_only")
  let lem := if n == ``List.drop then ``List.drop_only else if n == ``List.head? then ``List.head?_only
    else if n == ``GetElem?.getElem? then ``getElem?_only
    else if n == ``Prod.fst then ``Prod.fst_only else if n == ``Prod.snd then ``Prod.snd_only else lem
  if (← getEnv).contains lem then return ← use lem
  if (← isMatcher n) then
    if let .reduced e' ← reduceMatcher? e then
      return ← provGoal (← g.replaceTargetDefEq (.app t.appFn! e'))
    if let some gs ← splitTarget? g then
      return (← gs.mapM provGoal).flatten
  return [g]
where
  /-- `(X.mk a b c).f` is one of the arguments. -/
  unfoldProj? (e : Expr) : MetaM (Option Expr) := do
    let some e' ← unfoldDefinition? e | return none
    match e'.getAppFn with
    | .proj _ i s =>
      let s ← whnfCore s
      match s.getAppFn with
      | .const c _ =>
        let some (.ctorInfo ci) := (← getEnv).find? c | return none
        return some (s.getAppArgs[ci.numParams + i]!)
      | _ => return none
    | _ => return none

open Lean Meta Elab Tactic in
/-- Proves `Only Q e` and `OnlyM Q m` by the structure of the code. -/
elab "prov" : tactic => do
  let g ← getMainGoal
  replaceMainGoal (← provGoal g)

section
variable {R : Str → Prop} [Parts R]
set_option linter.unusedVariables false
set_option linter.unusedSectionVars false

/-! ## Model/Common.lean -/

theorem Position.fromSexpr_only {exp : Val} (hexp : Only R exp) : OnlyM (Orig R) (Position.fromSexpr exp) := by
  unfold Position.fromSexpr
  prov

theorem Coordinate.fromSexpr_only {exp : Val} (hexp : Only R exp) : OnlyM (Orig R) (Coordinate.fromSexpr exp) := by
  unfold Coordinate.fromSexpr
  prov

theorem ColorRGBA.fromSexpr_only {exp : Val} (hexp : Only R exp) : OnlyM (Orig R) (ColorRGBA.fromSexpr exp) := by
  unfold ColorRGBA.fromSexpr
  prov

theorem Stroke.step_only {o : Stroke} {item : Val} (ho : Only (Orig R) o) (hitem : Only R item) : OnlyM (Orig R) (Stroke.step o item) := by
  unfold Stroke.step
  prov

theorem Stroke.fromSexpr_only {exp : Val} (hexp : Only R exp) : OnlyM (Orig R) (Stroke.fromSexpr exp) := by
  unfold Stroke.fromSexpr
  prov

theorem Font.step_only {o : Font} {item : Val} (ho : Only (Orig R) o) (hitem : Only R item) : OnlyM (Orig R) (Font.step o item) := by
  unfold Font.step
  prov

theorem Font.fromSexpr_only {exp : Val} (hexp : Only R exp) : OnlyM (Orig R) (Font.fromSexpr exp) := by
  unfold Font.fromSexpr
  prov

theorem Justify.step_only {o : Justify} {item : Val} (ho : Only (Orig R) o) (hitem : Only R item) : OnlyM (Orig R) (Justify.step o item) := by
  unfold Justify.step
  prov

theorem Justify.fromSexpr_only {exp : Val} (hexp : Only R exp) : OnlyM (Orig R) (Justify.fromSexpr exp) := by
  unfold Justify.fromSexpr
  prov

theorem Effects.step_only {o : Effects} {item : Val} (ho : Only (Orig R) o) (hitem : Only R item) : OnlyM (Orig R) (Effects.step o item) := by
  unfold Effects.step
  prov

theorem Effects.fromSexpr_only {exp : Val} (hexp : Only R exp) : OnlyM (Orig R) (Effects.fromSexpr exp) := by
  unfold Effects.fromSexpr
  prov

theorem Net.fromSexpr_only {exp : Val} (hexp : Only R exp) : OnlyM (Orig R) (Net.fromSexpr exp) := by
  unfold Net.fromSexpr
  prov

theorem Group.step_only {o : Group} {item : Val} (ho : Only (Orig R) o) (hitem : Only R item) : OnlyM (Orig R) (Group.step o item) := by
  unfold Group.step
  prov

theorem Group.fromSexpr_only {exp : Val} (hexp : Only R exp) : OnlyM (Orig R) (Group.fromSexpr exp) := by
  unfold Group.fromSexpr
  prov

theorem PageSettings.step_only {o : PageSettings} {item : Val} (ho : Only (Orig R) o) (hitem : Only R item) : OnlyM (Orig R) (PageSettings.step o item) := by
  unfold PageSettings.step
  prov

theorem PageSettings.fromSexpr_only {exp : Val} (hexp : Only R exp) : OnlyM (Orig R) (PageSettings.fromSexpr exp) := by
  unfold PageSettings.fromSexpr
  prov

theorem TitleBlock.step_only {o : TitleBlock} {item : Val} (ho : Only (Orig R) o) (hitem : Only R item) : OnlyM (Orig R) (TitleBlock.step o item) := by
  unfold TitleBlock.step
  prov

theorem TitleBlock.fromSexpr_only {exp : Val} (hexp : Only R exp) : OnlyM (Orig R) (TitleBlock.fromSexpr exp) := by
  unfold TitleBlock.fromSexpr
  prov

theorem Property.step_only {o : Property} {item : Val} (ho : Only (Orig R) o) (hitem : Only R item) : OnlyM (Orig R) (Property.step o item) := by
  unfold Property.step
  prov

theorem Property.fromSexpr_only {exp : Val} (hexp : Only R exp) : OnlyM (Orig R) (Property.fromSexpr exp) := by
  unfold Property.fromSexpr
  prov

theorem RenderCachePolygon.step_only {o : RenderCachePolygon} {item : Val} (ho : Only (Orig R) o) (hitem : Only R item) : OnlyM (Orig R) (RenderCachePolygon.step o item) := by
  unfold RenderCachePolygon.step
  prov

theorem RenderCachePolygon.fromSexpr_only {exp : Val} (hexp : Only R exp) : OnlyM (Orig R) (RenderCachePolygon.fromSexpr exp) := by
  unfold RenderCachePolygon.fromSexpr
  prov

theorem RenderCache.step_only {o : RenderCache} {item : Val} (ho : Only (Orig R) o) (hitem : Only R item) : OnlyM (Orig R) (RenderCache.step o item) := by
  unfold RenderCache.step
  prov

theorem RenderCache.fromSexpr_only {exp : Val} (hexp : Only R exp) : OnlyM (Orig R) (RenderCache.fromSexpr exp) := by
  unfold RenderCache.fromSexpr
  prov

theorem Fill.step_only {o : Fill} {item : Val} (ho : Only (Orig R) o) (hitem : Only R item) : OnlyM (Orig R) (Fill.step o item) := by
  unfold Fill.step
  prov

theorem Fill.fromSexpr_only {exp : Val} (hexp : Only R exp) : OnlyM (Orig R) (Fill.fromSexpr exp) := by
  unfold Fill.fromSexpr
  prov

theorem Image.step_only {o : Image} {item : Val} (ho : Only (Orig R) o) (hitem : Only R item) : OnlyM (Orig R) (Image.step o item) := by
  unfold Image.step
  prov

theorem Image.fromSexpr_only {exp : Val} (hexp : Only R exp) : OnlyM (Orig R) (Image.fromSexpr exp) := by
  unfold Image.fromSexpr
  prov

/-! ## Model/Libraries.lean -/

theorem Library.step_only {o : Library} {item : Val} (ho : Only (Orig R) o) (hitem : Only R item) : OnlyM (Orig R) (Library.step o item) := by
  unfold Library.step
  prov

theorem Library.fromSexpr_only {exp : Val} (hexp : Only R exp) : OnlyM (Orig R) (Library.fromSexpr exp) := by
  unfold Library.fromSexpr
  prov

theorem LibTable.step_only {o : LibTable} {item : Val} (ho : Only (Orig R) o) (hitem : Only R item) : OnlyM (Orig R) (LibTable.step o item) := by
  unfold LibTable.step
  prov

theorem LibTable.fromSexpr_only {exp : Val} (hexp : Only R exp) : OnlyM (Orig R) (LibTable.fromSexpr exp) := by
  unfold LibTable.fromSexpr
  prov

/-! ## Model/Dru.lean -/

theorem Constraint.step_only {o : Constraint} {item : Val} (ho : Only (Orig R) o) (hitem : Only R item) : OnlyM (Orig R) (Constraint.step o item) := by
  unfold Constraint.step
  prov

theorem Constraint.fromSexpr_only {exp : Val} (hexp : Only R exp) : OnlyM (Orig R) (Constraint.fromSexpr exp) := by
  unfold Constraint.fromSexpr
  prov

theorem Rule.step_only {o : Rule} {item : Val} (ho : Only (Orig R) o) (hitem : Only R item) : OnlyM (Orig R) (Rule.step o item) := by
  unfold Rule.step
  prov

theorem Rule.fromSexpr_only {exp : Val} (hexp : Only R exp) : OnlyM (Orig R) (Rule.fromSexpr exp) := by
  unfold Rule.fromSexpr
  prov

theorem DesignRules.step_only {o : DesignRules} {item : Val} (ho : Only (Orig R) o) (hitem : Only R item) : OnlyM (Orig R) (DesignRules.step o item) := by
  unfold DesignRules.step
  prov

theorem DesignRules.fromSexpr_only {exp : Val} (hexp : Only R exp) : OnlyM (Orig R) (DesignRules.fromSexpr exp) := by
  unfold DesignRules.fromSexpr
  prov

/-! ## Model/Wks.lean -/

theorem WksFontSize.fromSexpr_only {exp : Val} (hexp : Only R exp) : OnlyM (Orig R) (WksFontSize.fromSexpr exp) := by
  unfold WksFontSize.fromSexpr
  prov

theorem WksFont.step_only {o : WksFont} {item : Val} (ho : Only (Orig R) o) (hitem : Only R item) : OnlyM (Orig R) (WksFont.step o item) := by
  unfold WksFont.step
  prov

theorem WksFont.fromSexpr_only {exp : Val} (hexp : Only R exp) : OnlyM (Orig R) (WksFont.fromSexpr exp) := by
  unfold WksFont.fromSexpr
  prov

theorem WksPosition.fromSexpr_only {exp : Val} (hexp : Only R exp) : OnlyM (Orig R) (WksPosition.fromSexpr exp) := by
  unfold WksPosition.fromSexpr
  prov

theorem WksShape.step_only {o : WksShape} {item : Val} (ho : Only (Orig R) o) (hitem : Only R item) : OnlyM (Orig R) (WksShape.step o item) := by
  unfold WksShape.step
  prov

theorem WksShape.fromSexpr_only {head : Str} {exp : Val} (hexp : Only R exp) : OnlyM (Orig R) (WksShape.fromSexpr head exp) := by
  unfold WksShape.fromSexpr
  prov

theorem Bitmap.data_only {items : List Val} (h : Only R items) : OnlyM R (Bitmap.data items) := by
  induction items with
  | nil => exact .ok .nil
  | cons d r ih =>
    have := ih h.tail
    have hd := h.head
    unfold Bitmap.data
    prov

theorem Bitmap.step_only {o : Bitmap} {item : Val} (ho : Only (Orig R) o) (hitem : Only R item) : OnlyM (Orig R) (Bitmap.step o item) := by
  unfold Bitmap.step
  prov

theorem Bitmap.fromSexpr_only {exp : Val} (hexp : Only R exp) : OnlyM (Orig R) (Bitmap.fromSexpr exp) := by
  unfold Bitmap.fromSexpr
  prov

theorem TbText.step_only {o : TbText} {item : Val} (ho : Only (Orig R) o) (hitem : Only R item) : OnlyM (Orig R) (TbText.step o item) := by
  unfold TbText.step
  prov

theorem TbText.fromSexpr_only {exp : Val} (hexp : Only R exp) : OnlyM (Orig R) (TbText.fromSexpr exp) := by
  unfold TbText.fromSexpr
  prov

theorem TextSize.fromSexpr_only {exp : Val} (hexp : Only R exp) : OnlyM (Orig R) (TextSize.fromSexpr exp) := by
  unfold TextSize.fromSexpr
  prov

theorem Setup.step_only {o : Setup} {item : Val} (ho : Only (Orig R) o) (hitem : Only R item) : OnlyM (Orig R) (Setup.step o item) := by
  unfold Setup.step
  prov

theorem Setup.fromSexpr_only {exp : Val} (hexp : Only R exp) : OnlyM (Orig R) (Setup.fromSexpr exp) := by
  unfold Setup.fromSexpr
  prov

theorem WorkSheet.step_only {o : WorkSheet} {item : Val} (ho : Only (Orig R) o) (hitem : Only R item) : OnlyM (Orig R) (WorkSheet.step o item) := by
  unfold WorkSheet.step
  prov

theorem WorkSheet.fromSexpr_only {exp : Val} (hexp : Only R exp) : OnlyM (Orig R) (WorkSheet.fromSexpr exp) := by
  unfold WorkSheet.fromSexpr
  prov

/-! ## Model/SyItems.lean -/

theorem SyArc.step_only {o : SyArc} {item : Val} (ho : Only (Orig R) o) (hitem : Only R item) : OnlyM (Orig R) (SyArc.step o item) := by
  unfold SyArc.step
  prov

theorem SyArc.fromSexpr_only {exp : Val} (hexp : Only R exp) : OnlyM (Orig R) (SyArc.fromSexpr exp) := by
  unfold SyArc.fromSexpr
  prov

theorem SyCircle.step_only {o : SyCircle} {item : Val} (ho : Only (Orig R) o) (hitem : Only R item) : OnlyM (Orig R) (SyCircle.step o item) := by
  unfold SyCircle.step
  prov

theorem SyCircle.fromSexpr_only {exp : Val} (hexp : Only R exp) : OnlyM (Orig R) (SyCircle.fromSexpr exp) := by
  unfold SyCircle.fromSexpr
  prov

theorem SyCurve.step_only {o : SyCurve} {item : Val} (ho : Only (Orig R) o) (hitem : Only R item) : OnlyM (Orig R) (SyCurve.step o item) := by
  unfold SyCurve.step
  prov

theorem SyCurve.fromSexpr_only {exp : Val} (hexp : Only R exp) : OnlyM (Orig R) (SyCurve.fromSexpr exp) := by
  unfold SyCurve.fromSexpr
  prov

theorem SyPolyLine.step_only {o : SyPolyLine} {item : Val} (ho : Only (Orig R) o) (hitem : Only R item) : OnlyM (Orig R) (SyPolyLine.step o item) := by
  unfold SyPolyLine.step
  prov

theorem SyPolyLine.fromSexpr_only {exp : Val} (hexp : Only R exp) : OnlyM (Orig R) (SyPolyLine.fromSexpr exp) := by
  unfold SyPolyLine.fromSexpr
  prov

theorem SyRect.step_only {o : SyRect} {item : Val} (ho : Only (Orig R) o) (hitem : Only R item) : OnlyM (Orig R) (SyRect.step o item) := by
  unfold SyRect.step
  prov

theorem SyRect.fromSexpr_only {exp : Val} (hexp : Only R exp) : OnlyM (Orig R) (SyRect.fromSexpr exp) := by
  unfold SyRect.fromSexpr
  prov

theorem SyText.step_only {o : SyText} {item : Val} (ho : Only (Orig R) o) (hitem : Only R item) : OnlyM (Orig R) (SyText.step o item) := by
  unfold SyText.step
  prov

theorem SyText.fromSexpr_only {exp : Val} (hexp : Only R exp) : OnlyM (Orig R) (SyText.fromSexpr exp) := by
  unfold SyText.fromSexpr
  prov

theorem SyTextBox.step_only {o : SyTextBox} {item : Val} (ho : Only (Orig R) o) (hitem : Only R item) : OnlyM (Orig R) (SyTextBox.step o item) := by
  unfold SyTextBox.step
  prov

theorem SyTextBox.fromSexpr_only {exp : Val} (hexp : Only R exp) : OnlyM (Orig R) (SyTextBox.fromSexpr exp) := by
  unfold SyTextBox.fromSexpr
  prov

/-! ## Model/Symbol.lean -/

theorem SymbolAlternativePin.fromSexpr_only {exp : Val} (hexp : Only R exp) : OnlyM (Orig R) (SymbolAlternativePin.fromSexpr exp) := by
  unfold SymbolAlternativePin.fromSexpr
  prov

theorem SymbolPin.step_only {o : SymbolPin} {item : Val} (ho : Only (Orig R) o) (hitem : Only R item) : OnlyM (Orig R) (SymbolPin.step o item) := by
  unfold SymbolPin.step
  prov

theorem SymbolPin.fromSexpr_only {exp : Val} (hexp : Only R exp) : OnlyM (Orig R) (SymbolPin.fromSexpr exp) := by
  unfold SymbolPin.fromSexpr
  prov

theorem matchNick_part [Parts R] {s n e : Str} (h : matchNick s = some (n, e)) (hs : R s) : R n ∧ R e := by
  obtain ⟨_, _, _, _, rfl | rfl⟩ := matchNick_some h
  · exact ⟨Parts.part _ _ ⟨[], ':' :: e, by simp⟩ hs, Parts.part _ _ ⟨n ++ [':'], [], by simp⟩ hs⟩
  · exact ⟨Parts.part _ _ ⟨[], ':' :: (e ++ ['\n']), by simp⟩ hs, Parts.part _ _ ⟨n ++ [':'], ['\n'], by simp⟩ hs⟩
theorem matchUnit_part [Parts R] {s e u v : Str} (h : matchUnit s = some (e, u, v)) (hs : R s) : R e := by
  obtain ⟨_, _, _, _, _, _, rfl | rfl⟩ := matchUnit_some h
  · exact Parts.part _ _ ⟨[], '_' :: (u ++ '_' :: v), by simp⟩ hs
  · exact Parts.part _ _ ⟨[], '_' :: (u ++ '_' :: (v ++ ['\n'])), by simp⟩ hs
theorem Symbol.units_entry {e : Option Val} {l : List Symbol} (he : Only R e) (h : Only (Orig R) l) :
    Only (Orig R) (l.map fun u => { u with entryName := e }) := .of_forall fun a ha => by
  obtain ⟨u, hu, rfl⟩ := List.mem_map.1 ha
  have := h.mem hu
  have := he.tree
  prov
theorem Symbol.setLibId_only {o : Symbol} {id : Val} (ho : Only (Orig R) o) (hid : Only R id) : OnlyM (Orig R) (o.setLibId id) := by
  unfold Symbol.setLibId
  split
  · next s =>
    have hs := hid.str'
    split
    all_goals simp only
    · next n e h =>
      have hn : Only R (Val.str n) := .str (matchNick_part h hs).1
      have he : Only R (Val.str e) := .str (matchNick_part h hs).2
      have := Symbol.units_entry (e := some (.str e)) (.mk_some he) (Symbol.units_only ho)
      prov
    · split
      all_goals simp only
      · next e u v h =>
        have he : Only R (Val.str e) := .str (matchUnit_part h hs)
        have := Symbol.units_entry (e := some (.str e)) (.mk_some he) (Symbol.units_only ho)
        prov
      · have := Symbol.units_entry (e := some (.str s)) (.mk_some hid) (Symbol.units_only ho)
        prov
  · exact .error

theorem Symbol.pinNamesStep_only {o : Symbol} {p : Val} (ho : Only (Orig R) o) (hp : Only R p) : OnlyM (Orig R) (Symbol.pinNamesStep o p) := by
  unfold Symbol.pinNamesStep
  prov

theorem Symbol.stepFlat_only {o : Symbol} {item : Val} (ho : Only (Orig R) o) (hitem : Only R item) : OnlyM (Orig R) (Symbol.stepFlat o item) := by
  unfold Symbol.stepFlat
  prov

mutual
theorem Symbol.fromSexpr_only : {v : Val} → (hv : Only R v) → OnlyM (Orig R) (Symbol.fromSexpr v)
  | .list [], _ => by rw [Symbol.fromSexpr]; exact .error
  | .list [h], _ => by rw [Symbol.fromSexpr]; prov
  | .list (h :: id :: items), hv => by
    have h1 : Only R id := by prov
    have h2 : Only R items := by prov
    have h3 : Only (Orig R) ({} : Symbol) := by prov
    have := fun o (ho : Only (Orig R) o) => Symbol.loop_only (l := items) (o := o) h2 ho
    rw [Symbol.fromSexpr]
    exact .ite (.bind (Symbol.setLibId_only h3 h1) this) .error
  | .str _, _ => by rw [Symbol.fromSexpr]; exact .error; all_goals nofun
  | .int _, _ => by rw [Symbol.fromSexpr]; exact .error; all_goals nofun
  | .flt _, _ => by rw [Symbol.fromSexpr]; exact .error; all_goals nofun
theorem Symbol.loop_only : {l : List Val} → {o : Symbol} → (hl : Only R l) → (ho : Only (Orig R) o) → OnlyM (Orig R) (Symbol.loop l o)
  | [], o, _, ho => by rw [Symbol.loop]; exact .ok ho
  | item :: r, o, hl, ho => by
    have h1 := Symbol.fromSexpr_only (v := item) hl.head
    have h2 : ∀ o, Only (Orig R) o → OnlyM (Orig R) (Symbol.loop r o) := fun o ho => Symbol.loop_only hl.tail ho
    have h3 := Symbol.stepFlat_only ho hl.head
    rw [Symbol.loop]
    refine .bind (.bindTree (Val.idx_only hl.head) fun k _ => .ite (.bind h1 fun u hu => ?_) h3) h2
    prov
end

theorem SymbolLib.step_only {o : SymbolLib} {item : Val} (ho : Only (Orig R) o) (hitem : Only R item) : OnlyM (Orig R) (SymbolLib.step o item) := by
  unfold SymbolLib.step
  prov

theorem SymbolLib.fromSexpr_only {exp : Val} (hexp : Only R exp) : OnlyM (Orig R) (SymbolLib.fromSexpr exp) := by
  unfold SymbolLib.fromSexpr
  prov

/-! ## Model/SchItems.lean -/

theorem Junction.step_only {o : Junction} {item : Val} (ho : Only (Orig R) o) (hitem : Only R item) : OnlyM (Orig R) (Junction.step o item) := by
  unfold Junction.step
  prov

theorem Junction.fromSexpr_only {exp : Val} (hexp : Only R exp) : OnlyM (Orig R) (Junction.fromSexpr exp) := by
  unfold Junction.fromSexpr
  prov

theorem NoConnect.step_only {o : NoConnect} {item : Val} (ho : Only (Orig R) o) (hitem : Only R item) : OnlyM (Orig R) (NoConnect.step o item) := by
  unfold NoConnect.step
  prov

theorem NoConnect.fromSexpr_only {exp : Val} (hexp : Only R exp) : OnlyM (Orig R) (NoConnect.fromSexpr exp) := by
  unfold NoConnect.fromSexpr
  prov

theorem BusEntry.step_only {o : BusEntry} {item : Val} (ho : Only (Orig R) o) (hitem : Only R item) : OnlyM (Orig R) (BusEntry.step o item) := by
  unfold BusEntry.step
  prov

theorem BusEntry.fromSexpr_only {exp : Val} (hexp : Only R exp) : OnlyM (Orig R) (BusEntry.fromSexpr exp) := by
  unfold BusEntry.fromSexpr
  prov

theorem BusAlias.fromSexpr_only {exp : Val} (hexp : Only R exp) : OnlyM (Orig R) (BusAlias.fromSexpr exp) := by
  unfold BusAlias.fromSexpr
  prov

theorem Connection.step_only {o : Connection} {item : Val} (ho : Only (Orig R) o) (hitem : Only R item) : OnlyM (Orig R) (Connection.step o item) := by
  unfold Connection.step
  prov

theorem Connection.fromSexpr_only {exp : Val} (hexp : Only R exp) : OnlyM (Orig R) (Connection.fromSexpr exp) := by
  unfold Connection.fromSexpr
  prov

theorem PolyLine.step_only {o : PolyLine} {item : Val} (ho : Only (Orig R) o) (hitem : Only R item) : OnlyM (Orig R) (PolyLine.step o item) := by
  unfold PolyLine.step
  prov

theorem PolyLine.fromSexpr_only {exp : Val} (hexp : Only R exp) : OnlyM (Orig R) (PolyLine.fromSexpr exp) := by
  unfold PolyLine.fromSexpr
  prov

theorem Text.step_only {o : Text} {item : Val} (ho : Only (Orig R) o) (hitem : Only R item) : OnlyM (Orig R) (Text.step o item) := by
  unfold Text.step
  prov

theorem Text.fromSexpr_only {exp : Val} (hexp : Only R exp) : OnlyM (Orig R) (Text.fromSexpr exp) := by
  unfold Text.fromSexpr
  prov

theorem TextBox.step_only {o : TextBox} {item : Val} (ho : Only (Orig R) o) (hitem : Only R item) : OnlyM (Orig R) (TextBox.step o item) := by
  unfold TextBox.step
  prov

theorem TextBox.fromSexpr_only {exp : Val} (hexp : Only R exp) : OnlyM (Orig R) (TextBox.fromSexpr exp) := by
  unfold TextBox.fromSexpr
  prov

theorem LocalLabel.step_only {o : LocalLabel} {item : Val} (ho : Only (Orig R) o) (hitem : Only R item) : OnlyM (Orig R) (LocalLabel.step o item) := by
  unfold LocalLabel.step
  prov

theorem LocalLabel.fromSexpr_only {exp : Val} (hexp : Only R exp) : OnlyM (Orig R) (LocalLabel.fromSexpr exp) := by
  unfold LocalLabel.fromSexpr
  prov

theorem GlobalLabel.step_only {o : GlobalLabel} {item : Val} (ho : Only (Orig R) o) (hitem : Only R item) : OnlyM (Orig R) (GlobalLabel.step o item) := by
  unfold GlobalLabel.step
  prov

theorem GlobalLabel.fromSexpr_only {exp : Val} (hexp : Only R exp) : OnlyM (Orig R) (GlobalLabel.fromSexpr exp) := by
  unfold GlobalLabel.fromSexpr
  prov

theorem HierarchicalLabel.step_only {o : HierarchicalLabel} {item : Val} (ho : Only (Orig R) o) (hitem : Only R item) : OnlyM (Orig R) (HierarchicalLabel.step o item) := by
  unfold HierarchicalLabel.step
  prov

theorem HierarchicalLabel.fromSexpr_only {exp : Val} (hexp : Only R exp) : OnlyM (Orig R) (HierarchicalLabel.fromSexpr exp) := by
  unfold HierarchicalLabel.fromSexpr
  prov

theorem SymbolProjectPath.step_only {o : SymbolProjectPath} {item : Val} (ho : Only (Orig R) o) (hitem : Only R item) : OnlyM (Orig R) (SymbolProjectPath.step o item) := by
  unfold SymbolProjectPath.step
  prov

theorem SymbolProjectPath.fromSexpr_only {exp : Val} (hexp : Only R exp) : OnlyM (Orig R) (SymbolProjectPath.fromSexpr exp) := by
  unfold SymbolProjectPath.fromSexpr
  prov

theorem SymbolProjectInstance.step_only {o : SymbolProjectInstance} {item : Val} (ho : Only (Orig R) o) (hitem : Only R item) : OnlyM (Orig R) (SymbolProjectInstance.step o item) := by
  unfold SymbolProjectInstance.step
  prov

theorem SymbolProjectInstance.fromSexpr_only {exp : Val} (hexp : Only R exp) : OnlyM (Orig R) (SymbolProjectInstance.fromSexpr exp) := by
  unfold SymbolProjectInstance.fromSexpr
  prov

theorem SchematicSymbol.setLibId_only {o : SchematicSymbol} {id : Val} (ho : Only (Orig R) o) (hid : Only R id) : OnlyM (Orig R) (o.setLibId id) := by
  unfold SchematicSymbol.setLibId
  split
  · next s =>
    split
    · next n e h =>
      have hn : Only R (Val.str n) := .str (matchNick_part h hid.str').1
      have he : Only R (Val.str e) := .str (matchNick_part h hid.str').2
      prov
    · prov
  · exact .error

theorem SchematicSymbol.step_only {o : SchematicSymbol} {item : Val} (ho : Only (Orig R) o) (hitem : Only R item) : OnlyM (Orig R) (SchematicSymbol.step o item) := by
  unfold SchematicSymbol.step
  prov

theorem SchematicSymbol.fromSexpr_only {exp : Val} (hexp : Only R exp) : OnlyM (Orig R) (SchematicSymbol.fromSexpr exp) := by
  unfold SchematicSymbol.fromSexpr
  prov

theorem HierarchicalPin.step_only {o : HierarchicalPin} {item : Val} (ho : Only (Orig R) o) (hitem : Only R item) : OnlyM (Orig R) (HierarchicalPin.step o item) := by
  unfold HierarchicalPin.step
  prov

theorem HierarchicalPin.fromSexpr_only {exp : Val} (hexp : Only R exp) : OnlyM (Orig R) (HierarchicalPin.fromSexpr exp) := by
  unfold HierarchicalPin.fromSexpr
  prov

theorem HierarchicalSheetProjectPath.step_only {o : HierarchicalSheetProjectPath} {item : Val} (ho : Only (Orig R) o) (hitem : Only R item) : OnlyM (Orig R) (HierarchicalSheetProjectPath.step o item) := by
  unfold HierarchicalSheetProjectPath.step
  prov

theorem HierarchicalSheetProjectPath.fromSexpr_only {exp : Val} (hexp : Only R exp) : OnlyM (Orig R) (HierarchicalSheetProjectPath.fromSexpr exp) := by
  unfold HierarchicalSheetProjectPath.fromSexpr
  prov

theorem HierarchicalSheetProjectInstance.step_only {o : HierarchicalSheetProjectInstance} {item : Val} (ho : Only (Orig R) o) (hitem : Only R item) : OnlyM (Orig R) (HierarchicalSheetProjectInstance.step o item) := by
  unfold HierarchicalSheetProjectInstance.step
  prov

theorem HierarchicalSheetProjectInstance.fromSexpr_only {exp : Val} (hexp : Only R exp) : OnlyM (Orig R) (HierarchicalSheetProjectInstance.fromSexpr exp) := by
  unfold HierarchicalSheetProjectInstance.fromSexpr
  prov

theorem HierarchicalSheet.step_only {o : HierarchicalSheet} {item : Val} (ho : Only (Orig R) o) (hitem : Only R item) : OnlyM (Orig R) (HierarchicalSheet.step o item) := by
  unfold HierarchicalSheet.step
  prov

theorem HierarchicalSheet.fromSexpr_only {exp : Val} (hexp : Only R exp) : OnlyM (Orig R) (HierarchicalSheet.fromSexpr exp) := by
  unfold HierarchicalSheet.fromSexpr
  prov

theorem HierarchicalSheetInstance.step_only {o : HierarchicalSheetInstance} {item : Val} (ho : Only (Orig R) o) (hitem : Only R item) : OnlyM (Orig R) (HierarchicalSheetInstance.step o item) := by
  unfold HierarchicalSheetInstance.step
  prov

theorem HierarchicalSheetInstance.fromSexpr_only {exp : Val} (hexp : Only R exp) : OnlyM (Orig R) (HierarchicalSheetInstance.fromSexpr exp) := by
  unfold HierarchicalSheetInstance.fromSexpr
  prov

theorem SymbolInstance.step_only {o : SymbolInstance} {item : Val} (ho : Only (Orig R) o) (hitem : Only R item) : OnlyM (Orig R) (SymbolInstance.step o item) := by
  unfold SymbolInstance.step
  prov

theorem SymbolInstance.fromSexpr_only {exp : Val} (hexp : Only R exp) : OnlyM (Orig R) (SymbolInstance.fromSexpr exp) := by
  unfold SymbolInstance.fromSexpr
  prov

theorem Rectangle.step_only {o : Rectangle} {item : Val} (ho : Only (Orig R) o) (hitem : Only R item) : OnlyM (Orig R) (Rectangle.step o item) := by
  unfold Rectangle.step
  prov

theorem Rectangle.fromSexpr_only {exp : Val} (hexp : Only R exp) : OnlyM (Orig R) (Rectangle.fromSexpr exp) := by
  unfold Rectangle.fromSexpr
  prov

theorem Arc.step_only {o : Arc} {item : Val} (ho : Only (Orig R) o) (hitem : Only R item) : OnlyM (Orig R) (Arc.step o item) := by
  unfold Arc.step
  prov

theorem Arc.fromSexpr_only {exp : Val} (hexp : Only R exp) : OnlyM (Orig R) (Arc.fromSexpr exp) := by
  unfold Arc.fromSexpr
  prov

theorem Circle.step_only {o : Circle} {item : Val} (ho : Only (Orig R) o) (hitem : Only R item) : OnlyM (Orig R) (Circle.step o item) := by
  unfold Circle.step
  prov

theorem Circle.fromSexpr_only {exp : Val} (hexp : Only R exp) : OnlyM (Orig R) (Circle.fromSexpr exp) := by
  unfold Circle.fromSexpr
  prov

theorem NetclassFlag.step_only {o : NetclassFlag} {item : Val} (ho : Only (Orig R) o) (hitem : Only R item) : OnlyM (Orig R) (NetclassFlag.step o item) := by
  unfold NetclassFlag.step
  prov

theorem NetclassFlag.fromSexpr_only {exp : Val} (hexp : Only R exp) : OnlyM (Orig R) (NetclassFlag.fromSexpr exp) := by
  unfold NetclassFlag.fromSexpr
  prov

/-! ## Model/Schematic.lean -/

set_option maxHeartbeats 1000000 in
theorem Schematic.step_only {o : Schematic} {item : Val} (ho : Only (Orig R) o) (hitem : Only R item) : OnlyM (Orig R) (Schematic.step o item) := by
  unfold Schematic.step
  prov

theorem Schematic.fromSexpr_only {exp : Val} (hexp : Only R exp) : OnlyM (Orig R) (Schematic.fromSexpr exp) := by
  unfold Schematic.fromSexpr
  prov

/-! ## Model/GrItems.lean -/

theorem GrText.step_only {o : GrText} {item : Val} (ho : Only (Orig R) o) (hitem : Only R item) : OnlyM (Orig R) (GrText.step o item) := by
  unfold GrText.step
  prov

theorem GrText.fromSexpr_only {exp : Val} (hexp : Only R exp) : OnlyM (Orig R) (GrText.fromSexpr exp) := by
  unfold GrText.fromSexpr
  prov

theorem GrTextBox.step_only {o : GrTextBox} {item : Val} (ho : Only (Orig R) o) (hitem : Only R item) : OnlyM (Orig R) (GrTextBox.step o item) := by
  unfold GrTextBox.step
  prov

theorem GrTextBox.fromSexpr_only {exp : Val} (hexp : Only R exp) : OnlyM (Orig R) (GrTextBox.fromSexpr exp) := by
  unfold GrTextBox.fromSexpr
  prov

theorem GrLine.step_only {o : GrLine} {item : Val} (ho : Only (Orig R) o) (hitem : Only R item) : OnlyM (Orig R) (GrLine.step o item) := by
  unfold GrLine.step
  prov

theorem GrLine.fromSexpr_only {exp : Val} (hexp : Only R exp) : OnlyM (Orig R) (GrLine.fromSexpr exp) := by
  unfold GrLine.fromSexpr
  prov

theorem GrRect.step_only {o : GrRect} {item : Val} (ho : Only (Orig R) o) (hitem : Only R item) : OnlyM (Orig R) (GrRect.step o item) := by
  unfold GrRect.step
  prov

theorem GrRect.fromSexpr_only {exp : Val} (hexp : Only R exp) : OnlyM (Orig R) (GrRect.fromSexpr exp) := by
  unfold GrRect.fromSexpr
  prov

theorem GrCircle.step_only {o : GrCircle} {item : Val} (ho : Only (Orig R) o) (hitem : Only R item) : OnlyM (Orig R) (GrCircle.step o item) := by
  unfold GrCircle.step
  prov

theorem GrCircle.fromSexpr_only {exp : Val} (hexp : Only R exp) : OnlyM (Orig R) (GrCircle.fromSexpr exp) := by
  unfold GrCircle.fromSexpr
  prov

theorem GrArc.step_only {o : GrArc} {item : Val} (ho : Only (Orig R) o) (hitem : Only R item) : OnlyM (Orig R) (GrArc.step o item) := by
  unfold GrArc.step
  prov

theorem GrArc.fromSexpr_only {exp : Val} (hexp : Only R exp) : OnlyM (Orig R) (GrArc.fromSexpr exp) := by
  unfold GrArc.fromSexpr
  prov

theorem GrPoly.step_only {o : GrPoly} {item : Val} (ho : Only (Orig R) o) (hitem : Only R item) : OnlyM (Orig R) (GrPoly.step o item) := by
  unfold GrPoly.step
  prov

theorem GrPoly.fromSexpr_only {exp : Val} (hexp : Only R exp) : OnlyM (Orig R) (GrPoly.fromSexpr exp) := by
  unfold GrPoly.fromSexpr
  prov

theorem GrCurve.step_only {o : GrCurve} {item : Val} (ho : Only (Orig R) o) (hitem : Only R item) : OnlyM (Orig R) (GrCurve.step o item) := by
  unfold GrCurve.step
  prov

theorem GrCurve.fromSexpr_only {exp : Val} (hexp : Only R exp) : OnlyM (Orig R) (GrCurve.fromSexpr exp) := by
  unfold GrCurve.fromSexpr
  prov

/-! ## Model/FpItems.lean -/

theorem FpText.step_only {o : FpText} {item : Val} (ho : Only (Orig R) o) (hitem : Only R item) : OnlyM (Orig R) (FpText.step o item) := by
  unfold FpText.step
  prov

theorem FpText.fromSexpr_only {exp : Val} (hexp : Only R exp) : OnlyM (Orig R) (FpText.fromSexpr exp) := by
  unfold FpText.fromSexpr
  prov

theorem FpLine.step_only {o : FpLine} {item : Val} (ho : Only (Orig R) o) (hitem : Only R item) : OnlyM (Orig R) (FpLine.step o item) := by
  unfold FpLine.step
  prov

theorem FpLine.fromSexpr_only {exp : Val} (hexp : Only R exp) : OnlyM (Orig R) (FpLine.fromSexpr exp) := by
  unfold FpLine.fromSexpr
  prov

theorem FpRect.step_only {o : FpRect} {item : Val} (ho : Only (Orig R) o) (hitem : Only R item) : OnlyM (Orig R) (FpRect.step o item) := by
  unfold FpRect.step
  prov

theorem FpRect.fromSexpr_only {exp : Val} (hexp : Only R exp) : OnlyM (Orig R) (FpRect.fromSexpr exp) := by
  unfold FpRect.fromSexpr
  prov

theorem FpTextBox.step_only {o : FpTextBox} {item : Val} (ho : Only (Orig R) o) (hitem : Only R item) : OnlyM (Orig R) (FpTextBox.step o item) := by
  unfold FpTextBox.step
  prov

theorem FpTextBox.fromSexpr_only {exp : Val} (hexp : Only R exp) : OnlyM (Orig R) (FpTextBox.fromSexpr exp) := by
  unfold FpTextBox.fromSexpr
  prov

theorem FpCircle.step_only {o : FpCircle} {item : Val} (ho : Only (Orig R) o) (hitem : Only R item) : OnlyM (Orig R) (FpCircle.step o item) := by
  unfold FpCircle.step
  prov

theorem FpCircle.fromSexpr_only {exp : Val} (hexp : Only R exp) : OnlyM (Orig R) (FpCircle.fromSexpr exp) := by
  unfold FpCircle.fromSexpr
  prov

theorem FpArc.step_only {o : FpArc} {item : Val} (ho : Only (Orig R) o) (hitem : Only R item) : OnlyM (Orig R) (FpArc.step o item) := by
  unfold FpArc.step
  prov

theorem FpArc.fromSexpr_only {exp : Val} (hexp : Only R exp) : OnlyM (Orig R) (FpArc.fromSexpr exp) := by
  unfold FpArc.fromSexpr
  prov

theorem FpPoly.step_only {o : FpPoly} {item : Val} (ho : Only (Orig R) o) (hitem : Only R item) : OnlyM (Orig R) (FpPoly.step o item) := by
  unfold FpPoly.step
  prov

theorem FpPoly.fromSexpr_only {exp : Val} (hexp : Only R exp) : OnlyM (Orig R) (FpPoly.fromSexpr exp) := by
  unfold FpPoly.fromSexpr
  prov

theorem FpCurve.step_only {o : FpCurve} {item : Val} (ho : Only (Orig R) o) (hitem : Only R item) : OnlyM (Orig R) (FpCurve.step o item) := by
  unfold FpCurve.step
  prov

theorem FpCurve.fromSexpr_only {exp : Val} (hexp : Only R exp) : OnlyM (Orig R) (FpCurve.fromSexpr exp) := by
  unfold FpCurve.fromSexpr
  prov

/-! ## Model/Zones.lean -/

theorem KeepoutSettings.step_only {o : KeepoutSettings} {item : Val} (ho : Only (Orig R) o) (hitem : Only R item) : OnlyM (Orig R) (KeepoutSettings.step o item) := by
  unfold KeepoutSettings.step
  prov

theorem KeepoutSettings.fromSexpr_only {exp : Val} (hexp : Only R exp) : OnlyM (Orig R) (KeepoutSettings.fromSexpr exp) := by
  unfold KeepoutSettings.fromSexpr
  prov

theorem FillSettings.step_only {o : FillSettings} {item : Val} (ho : Only (Orig R) o) (hitem : Only R item) : OnlyM (Orig R) (FillSettings.step o item) := by
  unfold FillSettings.step
  prov

theorem FillSettings.fromSexpr_only {exp : Val} (hexp : Only R exp) : OnlyM (Orig R) (FillSettings.fromSexpr exp) := by
  unfold FillSettings.fromSexpr
  prov

theorem ZonePolygon.step_only {o : ZonePolygon} {item : Val} (ho : Only (Orig R) o) (hitem : Only R item) : OnlyM (Orig R) (ZonePolygon.step o item) := by
  unfold ZonePolygon.step
  prov

theorem ZonePolygon.fromSexpr_only {exp : Val} (hexp : Only R exp) : OnlyM (Orig R) (ZonePolygon.fromSexpr exp) := by
  unfold ZonePolygon.fromSexpr
  prov

theorem FilledPolygon.step_only {o : FilledPolygon} {item : Val} (ho : Only (Orig R) o) (hitem : Only R item) : OnlyM (Orig R) (FilledPolygon.step o item) := by
  unfold FilledPolygon.step
  prov

theorem FilledPolygon.fromSexpr_only {exp : Val} (hexp : Only R exp) : OnlyM (Orig R) (FilledPolygon.fromSexpr exp) := by
  unfold FilledPolygon.fromSexpr
  prov

theorem FillSegments.step_only {o : FillSegments} {item : Val} (ho : Only (Orig R) o) (hitem : Only R item) : OnlyM (Orig R) (FillSegments.step o item) := by
  unfold FillSegments.step
  prov

theorem FillSegments.fromSexpr_only {exp : Val} (hexp : Only R exp) : OnlyM (Orig R) (FillSegments.fromSexpr exp) := by
  unfold FillSegments.fromSexpr
  prov

set_option maxHeartbeats 1000000 in
theorem Zone.step_only {o : Zone} {item : Val} (ho : Only (Orig R) o) (hitem : Only R item) : OnlyM (Orig R) (Zone.step o item) := by
  unfold Zone.step
  prov

theorem Zone.fromSexpr_only {exp : Val} (hexp : Only R exp) : OnlyM (Orig R) (Zone.fromSexpr exp) := by
  unfold Zone.fromSexpr
  prov

/-! ## Model/Footprint.lean -/

theorem Attributes.step_only {o : Attributes} {item : Val} (ho : Only (Orig R) o) (hitem : Only R item) : OnlyM (Orig R) (Attributes.step o item) := by
  unfold Attributes.step
  prov

theorem Attributes.fromSexpr_only {exp : Val} (hexp : Only R exp) : OnlyM (Orig R) (Attributes.fromSexpr exp) := by
  unfold Attributes.fromSexpr
  prov

theorem Model.step_only {o : Model} {item : Val} (ho : Only (Orig R) o) (hitem : Only R item) : OnlyM (Orig R) (Model.step o item) := by
  unfold Model.step
  prov

theorem Model.fromSexpr_only {exp : Val} (hexp : Only R exp) : OnlyM (Orig R) (Model.fromSexpr exp) := by
  unfold Model.fromSexpr
  prov

theorem DrillDefinition.step_only {o : DrillDefinition} {item : Val} (ho : Only (Orig R) o) (hitem : Only R item) : OnlyM (Orig R) (DrillDefinition.step o item) := by
  unfold DrillDefinition.step
  prov

theorem DrillDefinition.fromSexpr_only {exp : Val} (hexp : Only R exp) : OnlyM (Orig R) (DrillDefinition.fromSexpr exp) := by
  unfold DrillDefinition.fromSexpr
  prov

theorem PadOptions.step_only {o : PadOptions} {item : Val} (ho : Only (Orig R) o) (hitem : Only R item) : OnlyM (Orig R) (PadOptions.step o item) := by
  unfold PadOptions.step
  prov

theorem PadOptions.fromSexpr_only {exp : Val} (hexp : Only R exp) : OnlyM (Orig R) (PadOptions.fromSexpr exp) := by
  unfold PadOptions.fromSexpr
  prov

theorem padPrimitive_only {acc : List GrItem} {item : Val} (hacc : Only (Orig R) acc) (hitem : Only R item) : OnlyM (Orig R) (padPrimitive acc item) := by
  unfold padPrimitive
  prov

set_option maxHeartbeats 1000000 in
theorem Pad.step_only {o : Pad} {item : Val} (ho : Only (Orig R) o) (hitem : Only R item) : OnlyM (Orig R) (Pad.step o item) := by
  unfold Pad.step
  prov

theorem Pad.fromSexpr_only {exp : Val} (hexp : Only R exp) : OnlyM (Orig R) (Pad.fromSexpr exp) := by
  unfold Pad.fromSexpr
  prov

/-- The second element, if it is a list and the head is the name of a footprint: its text, which becomes the name, has the property. -/
def ListNameOk (R : Str → Prop) (v : Val) : Prop :=
  ∀ h l r, v = .list (h :: .list l :: r) → (h.is k!"module" || h.is k!"footprint") = true → R (Val.list l).pyStr
theorem number_name {v : Val} (h : Chars (· ≠ ':') v.pyStr) : matchNick v.pyStr = none :=
  matchNick_none fun hc => h ':' (List.mem_of_mem_drop (List.dropLast_subset _ hc)) rfl
theorem Footprint.setLibId_only {o : Footprint} {id : Val} (ho : Only (Orig R) o) (hid : Only R id) (hl : ∀ l, id = .list l → R id.pyStr) :
    Only (Orig R) (o.setLibId id) := by
  have : NumBase (· ≠ ':') := ⟨by decide⟩
  unfold Footprint.setLibId
  split
  · next n e h =>
    have hq : R id.pyStr := by
      cases id with
      | str s => exact hid.str'
      | list l => exact hl l rfl
      | int n => rw [number_name (v := .int n) intStr_chars] at h; exact nomatch h
      | flt n => rw [number_name (v := .flt n) repr_chars] at h; exact nomatch h
    have hn : Only R (Val.str n) := .str (matchNick_part h hq).1
    have he : Only R (Val.str e) := .str (matchNick_part h hq).2
    prov
  · prov

set_option maxHeartbeats 1000000 in
theorem Footprint.step_only {o : Footprint} {item : Val} (ho : Only (Orig R) o) (hitem : Only R item) : OnlyM (Orig R) (Footprint.step o item) := by
  unfold Footprint.step
  prov

theorem Footprint.fromSexpr_only {tedit v : Val} (ht : Only (Orig R) tedit) (hv : Only R v) (hi : ListNameOk R v) :
    OnlyM (Orig R) (Footprint.fromSexpr tedit v) := by
  unfold Footprint.fromSexpr
  split
  · next h r =>
    split
    · next hh =>
      split
      · next id r' =>
        have h1 : Only R id := by prov
        have h2 : Only R r' := by prov
        have h3 : Only (Orig R) ({ tedit := tedit } : Footprint) := by prov
        exact forM_only (fun o x ho hx => Footprint.step_only ho hx)
          (Footprint.setLibId_only h3 h1 fun l e => by subst e; exact hi h l r' rfl hh) h2
      · exact .error
    · exact .error
  · exact .error
  · exact .error

/-! ## Model/BrdItems.lean -/

theorem GeneralSettings.step_only {o : GeneralSettings} {item : Val} (ho : Only (Orig R) o) (hitem : Only R item) : OnlyM (Orig R) (GeneralSettings.step o item) := by
  unfold GeneralSettings.step
  prov

theorem GeneralSettings.fromSexpr_only {exp : Val} (hexp : Only R exp) : OnlyM (Orig R) (GeneralSettings.fromSexpr exp) := by
  unfold GeneralSettings.fromSexpr
  prov

theorem LayerToken.fromSexpr_only {exp : Val} (hexp : Only R exp) : OnlyM (Orig R) (LayerToken.fromSexpr exp) := by
  unfold LayerToken.fromSexpr
  prov

theorem StackupSubLayer.step_only {o : StackupSubLayer} {item : Val} (ho : Only (Orig R) o) (hitem : Only R item) : OnlyM (Orig R) (StackupSubLayer.step o item) := by
  unfold StackupSubLayer.step
  prov

theorem StackupLayer.ownStep_only {o : StackupLayer} {item : Val} (ho : Only (Orig R) o) (hitem : Only R item) : OnlyM (Orig R) (StackupLayer.ownStep o item) := by
  unfold StackupLayer.ownStep
  prov

theorem StackupLayer.step_only {s : StackupLayer.State} {item : Val} (hs : Only (Orig R) s) (hitem : Only R item) : OnlyM (Orig R) (StackupLayer.step s item) := by
  unfold StackupLayer.step
  prov

theorem StackupLayer.fromSexpr_only {exp : Val} (hexp : Only R exp) : OnlyM (Orig R) (StackupLayer.fromSexpr exp) := by
  unfold StackupLayer.fromSexpr
  prov

theorem Stackup.step_only {o : Stackup} {item : Val} (ho : Only (Orig R) o) (hitem : Only R item) : OnlyM (Orig R) (Stackup.step o item) := by
  unfold Stackup.step
  prov

theorem Stackup.fromSexpr_only {exp : Val} (hexp : Only R exp) : OnlyM (Orig R) (Stackup.fromSexpr exp) := by
  unfold Stackup.fromSexpr
  prov

set_option maxHeartbeats 1000000 in
theorem PlotSettings.step_only {o : PlotSettings} {item : Val} (ho : Only (Orig R) o) (hitem : Only R item) : OnlyM (Orig R) (PlotSettings.step o item) := by
  unfold PlotSettings.step
  prov

theorem PlotSettings.fromSexpr_only {exp : Val} (hexp : Only R exp) : OnlyM (Orig R) (PlotSettings.fromSexpr exp) := by
  unfold PlotSettings.fromSexpr
  prov

set_option maxHeartbeats 1000000 in
theorem SetupData.step_only {o : SetupData} {item : Val} (ho : Only (Orig R) o) (hitem : Only R item) : OnlyM (Orig R) (SetupData.step o item) := by
  unfold SetupData.step
  prov

theorem SetupData.fromSexpr_only {exp : Val} (hexp : Only R exp) : OnlyM (Orig R) (SetupData.fromSexpr exp) := by
  unfold SetupData.fromSexpr
  prov

theorem Segment.step_only {o : Segment} {item : Val} (ho : Only (Orig R) o) (hitem : Only R item) : OnlyM (Orig R) (Segment.step o item) := by
  unfold Segment.step
  prov

theorem Segment.fromSexpr_only {exp : Val} (hexp : Only R exp) : OnlyM (Orig R) (Segment.fromSexpr exp) := by
  unfold Segment.fromSexpr
  prov

theorem Via.step_only {o : Via} {item : Val} (ho : Only (Orig R) o) (hitem : Only R item) : OnlyM (Orig R) (Via.step o item) := by
  unfold Via.step
  prov

theorem Via.fromSexpr_only {exp : Val} (hexp : Only R exp) : OnlyM (Orig R) (Via.fromSexpr exp) := by
  unfold Via.fromSexpr
  prov

theorem TraceArc.step_only {o : TraceArc} {item : Val} (ho : Only (Orig R) o) (hitem : Only R item) : OnlyM (Orig R) (TraceArc.step o item) := by
  unfold TraceArc.step
  prov

theorem TraceArc.fromSexpr_only {exp : Val} (hexp : Only R exp) : OnlyM (Orig R) (TraceArc.fromSexpr exp) := by
  unfold TraceArc.fromSexpr
  prov

theorem Target.step_only {o : Target} {item : Val} (ho : Only (Orig R) o) (hitem : Only R item) : OnlyM (Orig R) (Target.step o item) := by
  unfold Target.step
  prov

theorem Target.fromSexpr_only {exp : Val} (hexp : Only R exp) : OnlyM (Orig R) (Target.fromSexpr exp) := by
  unfold Target.fromSexpr
  prov

/-! ## Model/Dimensions.lean -/

theorem DimensionFormat.step_only {o : DimensionFormat} {item : Val} (ho : Only (Orig R) o) (hitem : Only R item) : OnlyM (Orig R) (DimensionFormat.step o item) := by
  unfold DimensionFormat.step
  prov

theorem DimensionFormat.fromSexpr_only {exp : Val} (hexp : Only R exp) : OnlyM (Orig R) (DimensionFormat.fromSexpr exp) := by
  unfold DimensionFormat.fromSexpr
  prov

theorem DimensionStyle.step_only {o : DimensionStyle} {item : Val} (ho : Only (Orig R) o) (hitem : Only R item) : OnlyM (Orig R) (DimensionStyle.step o item) := by
  unfold DimensionStyle.step
  prov

theorem DimensionStyle.fromSexpr_only {exp : Val} (hexp : Only R exp) : OnlyM (Orig R) (DimensionStyle.fromSexpr exp) := by
  unfold DimensionStyle.fromSexpr
  prov

theorem Dimension.step_only {o : Dimension} {item : Val} (ho : Only (Orig R) o) (hitem : Only R item) : OnlyM (Orig R) (Dimension.step o item) := by
  unfold Dimension.step
  prov

theorem Dimension.fromSexpr_only {exp : Val} (hexp : Only R exp) : OnlyM (Orig R) (Dimension.fromSexpr exp) := by
  unfold Dimension.fromSexpr
  prov

/-! ## Model/Board.lean -/

set_option maxHeartbeats 1000000 in
theorem Board.step_only {tedit : Val} {o : Board} {item : Val} (ht : Only (Orig R) tedit) (hi : ListNameOk R item) (ho : Only (Orig R) o)
    (hitem : Only R item) : OnlyM (Orig R) (Board.step tedit o item) := by
  unfold Board.step
  prov

theorem Board.fromSexpr_only {tedit v : Val} (ht : Only (Orig R) tedit) (hv : Only R v) (hi : ∀ l, v = .list l → ∀ x ∈ l, ListNameOk R x) :
    OnlyM (Orig R) (Board.fromSexpr tedit v) := by
  unfold Board.fromSexpr
  intro o ho
  cases hl : checkHead k!"kicad_pcb" v with
  | error => rw [hl] at ho; exact nomatch ho
  | ok l =>
    rw [hl] at ho
    have e : v = .list l := by
      unfold checkHead at hl
      split at hl
      · split at hl
        · exact nomatch hl
        · split at hl
          · cases hl; rfl
          · exact nomatch hl
      · exact nomatch hl
    have h0 : Only (Orig R) ({} : Board) := by prov
    exact forM_only_of (ListNameOk R) (hi l e) (fun o x hr ho hx => Board.step_only ht hr ho hx) h0 (checkHead_only hv l hl) o ho

end

end Kiutils
