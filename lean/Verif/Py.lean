import Lean.Elab.Command
import Verif.Sexpr
/-!
# Small pieces of Python used by all classes

Text combinators for `to_sexpr`, loop and indexing helpers for `from_sexpr`.
-/
namespace Kiutils

/-! ## Text (`to_sexpr`) -/

/-- `' '*indent` -/
def indents (n : Nat) : Str := List.replicate n ' '

/-- `endline = '\n' if newline else ''` -/
def endl (newline : Bool) : Str := if newline then ['\n'] else []

/-- `f(x) if x is not None else ''` -/
def optS {α : Type} (x : Option α) (f : α → Str) : Str :=
  match x with
  | none => []
  | some a => f a

/-- `s if b else ''` -/
def ifS (b : Bool) (s : Str) : Str := if b then s else []

/-- `for x in xs: expression += f(x)` -/
def forS {α : Type} (xs : List α) (f : α → Str) : Str := xs.flatMap f

/-- As `forS`, for an `f` that can raise. -/
def forSM {α : Type} (xs : List α) (f : α → PyM Str) : PyM Str :=
  match xs with
  | [] => .ok []
  | x :: r => f x >>= fun a => forSM r f >>= fun b => .ok (a ++ b)

/-- `f(x) if x is not None else ''` for an `f` that can raise. -/
def optSM {α : Type} (x : Option α) (f : α → PyM Str) : PyM Str :=
  match x with
  | none => .ok []
  | some a => f a

/-- `'yes' if b else 'no'` -/
def yesNo (b : Bool) : Str := if b then k!"yes" else k!"no"

/-- `'true' if b else 'false'` -/
def trueFalse (b : Bool) : Str := if b then k!"true" else k!"false"

/-- `dequote(v)` (strings.py 13–22) of an attribute: `str(v)` with the quotes escaped. -/
def dq (v : Val) : Str := dequote v.pyStr

/-! ## Lists (`from_sexpr`) -/

/-- The two checks at the start of most `from_sexpr` methods:

    if not isinstance(exp, list): raise Exception(…)
    if exp[0] != key: raise Exception(…)

Returns the elements of the list (including the head). -/
def checkHead (key : Str) (exp : Val) : PyM (List Val) :=
  match exp with
  | .list l =>
    match l with
    | [] => .error .indexError
    | h :: _ => if h.is key then .ok l else .error .exception
  | _ => .error .exception

/-- `exp[i]` for a list -/
def getI (l : List Val) (i : Nat) : PyM Val :=
  match l[i]? with
  | some v => .ok v
  | none => .error .indexError

/-- `for item in xs: body(object, item)` where the body returns the changed object. -/
def forM {σ : Type} (step : σ → Val → PyM σ) (o : σ) (xs : List Val) : PyM σ :=
  match xs with
  | [] => .ok o
  | x :: r => step o x >>= fun o' => forM step o' r

/-- `[f(x) for x in xs]`, also `for x in xs: acc.append(f(x))` started with an empty list. -/
def mapM' {β : Type} (f : Val → PyM β) (xs : List Val) : PyM (List β) :=
  match xs with
  | [] => .ok []
  | x :: r => f x >>= fun y => mapM' f r >>= fun ys => .ok (y :: ys)

/-- Python `==` of two hashable values (numbers are compared by value, so `1 == 1.0`). Lists are not hashable and never get
here. -/
def Val.keyEq (a b : Val) : Bool :=
  match a.canon, b.canon with
  | .int m, .int n => m == n
  | .flt f, .flt g => f == g
  | .str s, .str t => s == t
  | _, _ => false

/-- A Python dict in insertion order. -/
abbrev Dict (β : Type) := List (Val × β)

/-- `d.update({k: v})` / `d[k] = v` for a hashable key: replaces the value of an equal key in place, else appends. -/
def Dict.set {β : Type} (d : Dict β) (k : Val) (v : β) : Dict β :=
  match d with
  | [] => [(k, v)]
  | (k', v') :: r => if k'.keyEq k then (k', v) :: r else (k', v') :: Dict.set r k v

/-- `d.update({k: v})`; a list is not hashable. -/
def Dict.update {β : Type} (d : Dict β) (k : Val) (v : β) : PyM (Dict β) :=
  match k with
  | .list _ => .error .typeError
  | _ => .ok (d.set k v)

/-! ## Equality up to Python's `==` -/

/-- `canon o` replaces every float in `o` that is integral by the equal int. Python's `==` does not distinguish the two (and
neither does dataclass equality), and the reader always produces the int. -/
class Canon (α : Type) where
  canon : α → α

export Canon (canon)

instance : Canon Val := ⟨Val.canon⟩
instance : Canon Bool := ⟨id⟩
instance : Canon Nat := ⟨id⟩
instance : Canon Str := ⟨id⟩
instance {α} [Canon α] : Canon (Option α) := ⟨Option.map canon⟩
instance {α} [Canon α] : Canon (List α) := ⟨List.map canon⟩
instance {α β} [Canon α] [Canon β] : Canon (α × β) := ⟨fun p => (canon p.1, canon p.2)⟩

open Lean Elab Command in
/-- Defines `canon` for a structure, field by field. -/
elab "derive_canon " n:ident : command => do
  let name ← liftCoreM <| realizeGlobalConstNoOverload n
  let env ← getEnv
  let fields := getStructureFields env name
  let o := mkIdent `o
  let fs ← fields.mapM fun f => do
    let v := mkIdent (`o ++ f)
    let t ← `(Canon.canon $v)
    return t
  let ctor := mkIdent (name ++ `mk)
  elabCommand (← `(instance : Canon $n := ⟨fun $o => $ctor $fs*⟩))

end Kiutils
