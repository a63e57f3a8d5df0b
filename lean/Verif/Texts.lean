import Verif.Py
/-!
# The texts of an object

Specification for C62 and C63: `texts o` are all the strings among the attributes of `o` and of the objects in it.
-/
namespace Kiutils

/-- All the strings in a value of the model. -/
class Texts (α : Type) where
  texts : α → List Str

export Texts (texts)

mutual
/-- The strings in a value. -/
def Val.strings : Val → List Str
  | .str s => [s]
  | .list l => Val.stringsL l
  | .int _ => []
  | .flt _ => []
/-- The strings in a list of values. -/
def Val.stringsL : List Val → List Str
  | [] => []
  | v :: r => v.strings ++ Val.stringsL r
end

instance : Texts Val := ⟨Val.strings⟩
instance : Texts Bool := ⟨fun _ => []⟩
instance : Texts Nat := ⟨fun _ => []⟩
instance : Texts Str := ⟨fun s => [s]⟩
instance {α} [Texts α] : Texts (Option α) := ⟨fun x => x.toList.flatMap texts⟩
instance {α} [Texts α] : Texts (List α) := ⟨fun l => l.flatMap texts⟩
instance {α β} [Texts α] [Texts β] : Texts (α × β) := ⟨fun p => texts p.1 ++ texts p.2⟩

/-- Every string in `a` has the property `Q`. -/
def Only {α : Type} [Texts α] (Q : Str → Prop) (a : α) : Prop := ∀ s ∈ texts a, Q s

section
variable {Q : Str → Prop}

theorem Only.some {α : Type} [Texts α] {a : α} (h : Only Q (Option.some a)) : Only Q a := fun s hs =>
  h s (by simpa [texts] using hs)
theorem Only.of_some {α : Type} [Texts α] {x : Option α} {a : α} (e : x = Option.some a) (h : Only Q x) : Only Q a := by
  subst e; exact h.some
theorem Only.mem {α : Type} [Texts α] {l : List α} {a : α} (h : Only Q l) (ha : a ∈ l) : Only Q a := fun s hs =>
  h s (List.mem_flatMap.2 ⟨a, ha, hs⟩)
theorem Only.of_mem {α : Type} [Texts α] {l l' : List α} {a : α} (e : l = l') (ha : a ∈ l') (h : Only Q l) : Only Q a := by
  subst e; exact h.mem ha
theorem Only.head {α : Type} [Texts α] {l : List α} {a : α} (h : Only Q (a :: l)) : Only Q a := h.mem (List.mem_cons_self ..)
theorem Only.tail {α : Type} [Texts α] {l : List α} {a : α} (h : Only Q (a :: l)) : Only Q l := fun s hs =>
  h s (by obtain ⟨b, hb, hs⟩ := List.mem_flatMap.1 hs; exact List.mem_flatMap.2 ⟨b, List.mem_cons_of_mem _ hb, hs⟩)
theorem Prod.fst_only {α β : Type} [Texts α] [Texts β] {p : α × β} (h : Only Q p) : Only Q p.1 := fun s hs =>
  h s (List.mem_append_left _ hs)
theorem Prod.snd_only {α β : Type} [Texts α] [Texts β] {p : α × β} (h : Only Q p) : Only Q p.2 := fun s hs =>
  h s (List.mem_append_right _ hs)

theorem List.zipIdx_only {α : Type} [Texts α] {l : List α} {n : Nat} (h : Only Q l) : Only Q (l.zipIdx n) := fun s hs => by
  obtain ⟨⟨a, k⟩, ha, hs⟩ := List.mem_flatMap.1 hs
  have := List.mem_append.1 (show s ∈ texts a ++ texts k from hs)
  exact h.mem (List.fst_mem_of_mem_zipIdx ha) s (this.elim id nofun)
end

open Lean Elab Command in
/-- Defines `texts` for a structure, field by field; the path of the file is not part of the content. Proves for each field that its
strings are among them, and that there are no others. -/
elab "derive_texts " n:ident : command => do
  let name ← liftCoreM <| realizeGlobalConstNoOverload n
  let env ← getEnv
  let fields := (getStructureFields env name).filter (· != `filePath)
  let o := mkIdent `o
  let mut t ← `(([] : List Str))
  for f in fields.reverse do
    let v := mkIdent (`o ++ f)
    t ← `(Texts.texts $v ++ $t)
  elabCommand (← `(instance : Texts $n := ⟨fun $o => $t⟩))
  for f in fields, k in List.range fields.size do
    let p := mkIdent (name ++ f)
    let thm := mkIdent (n.getId ++ Name.mkSimple (f.toString ++ "_only"))
    let mut pf ← `(List.mem_append_left _ hs)
    for _ in List.range k do pf ← `(List.mem_append_right _ $pf)
    elabCommand (← `(theorem $thm {Q : Str → Prop} {o : $n} (h : Only Q o) : Only Q ($p o) := fun s hs => h s $pf))
  let mut pf ← `(absurd hs List.not_mem_nil)
  for k in (List.range fields.size).reverse do
    let h := mkIdent (Name.mkSimple s!"h{k}")
    pf ← `((List.mem_append.1 hs).elim ($h s) fun hs => $pf)
  let mut stmt ← `(Only Q o)
  for f in fields.reverse do
    let v := mkIdent (name ++ f)
    stmt ← `(Only Q ($v o) → $stmt)
  let hs := (List.range fields.size).toArray.map fun k => mkIdent (Name.mkSimple s!"h{k}")
  let thm := mkIdent (n.getId ++ `of_only)
  elabCommand (← `(theorem $thm {Q : Str → Prop} {o : $n} : $stmt := fun $hs* s hs => $pf))

open Lean Meta Elab Tactic in
/-- Proves `Only Q e` from hypotheses about the object that `e` is part of. -/
partial def onlyGoal (g : MVarId) : MetaM (List MVarId) := g.withContext do
  if ← withReducible g.assumptionCore then return []
  let e := (← instantiateMVars (← g.getType)).consumeMData.appArg!
  let e := e.consumeMData.headBeta
  match e.getAppFn with
  | .const n _ =>
    let lem := n.getPrefix ++ Name.mkSimple (n.getString! ++ "_only")
    let lem := if n == ``List.zipIdx then ``List.zipIdx_only else if n == ``Prod.fst then ``Prod.fst_only else if n == ``Prod.snd then ``Prod.snd_only else lem
    unless (← getEnv).contains lem do return [g]
    let gs ← g.apply (← mkConstWithFreshMVarLevels lem)
    return (← gs.mapM fun g => do if ← g.isAssigned then pure [] else onlyGoal g).flatten
  | .fvar f =>
    for d in ← getLCtx do
      if d.isImplementationDetail then continue
      if d.type.isAppOf ``Only then
        let a := d.type.appArg!
        if a.isAppOfArity ``Option.some 2 && a.appArg! == .fvar f then
          let _ ← g.apply (← mkAppM ``Only.some #[mkFVar d.fvarId])
          return []
      let some (_, l, r) := d.type.eq? | continue
      if r.isAppOfArity ``List.cons 3 then
        if let some m ← member f r then
          let p := (← g.getType).getAppArgs[2]!
          let gs ← g.apply (← mkAppOptM ``Only.of_mem #[p, none, none, l, r, mkFVar f, mkFVar d.fvarId, m])
          return (← gs.mapM onlyGoal).flatten
      if r.isAppOfArity ``Option.some 2 && r.appArg! == .fvar f then
        let p := (← g.getType).getAppArgs[2]!
        let gs ← g.apply (← mkAppOptM ``Only.of_some #[p, none, none, l, r.appArg!, mkFVar d.fvarId])
        return (← gs.mapM onlyGoal).flatten
    return [g]
  | _ => return [g]
where
  member (f : FVarId) (l : Expr) : MetaM (Option Expr) := do
    unless l.isAppOfArity ``List.cons 3 do return none
    let #[_, a, r] := l.getAppArgs | return none
    if a == .fvar f then return some (← mkAppOptM ``List.Mem.head #[none, a, r])
    let some m ← member f r | return none
    return some (← mkAppOptM ``List.Mem.tail #[none, none, a, none, m])

end Kiutils
