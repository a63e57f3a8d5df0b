import Verif.Float64
/-!
# Parsed values and Python exceptions
-/
namespace Kiutils

/-- What `parse_sexp` returns and what `from_sexpr` stores in attributes: a Python int, float, str or list. -/
inductive Val where
  | int (n : Int)
  | flt (f : F64)
  | str (s : Str)
  | list (l : List Val)
deriving Repr

/-- The Python exceptions that the modelled code can raise. -/
inductive PyErr where
  /-- `raise Exception(…)` written in the code -/
  | exception
  | assertionError
  | indexError
  | typeError
  | attributeError
  | valueError
  | keyError
  | notImplemented
  /-- `OSError` with its subclasses: a file cannot be opened or written -/
  | osError
  /-- a number is too large for the conversion -/
  | overflowError
deriving DecidableEq, Repr

/-- A Python computation: a result or an exception. -/
abbrev PyM (α : Type) := Except PyErr α

namespace Val

/-- `v == s` for a string literal `s`. -/
def is : Val → Str → Bool
  | .str t, s => t == s
  | _, _ => false

/-- `isinstance(v, list)` -/
def isList : Val → Bool
  | .list _ => true
  | _ => false

/-- `isinstance(v, str)` -/
def isStr : Val → Bool
  | .str _ => true
  | _ => false

/-- `v[i]` for a non-negative index: lists and strings can be indexed, numbers cannot. -/
def idx : Val → Nat → PyM Val
  | .list l, i => match l[i]? with
    | some v => .ok v
    | none => .error .indexError
  | .str s, i => match s[i]? with
    | some c => .ok (.str [c])
    | none => .error .indexError
  | _, _ => .error .typeError

/-- `len(v)` -/
def len : Val → PyM Nat
  | .list l => .ok l.length
  | .str s => .ok s.length
  | _ => .error .typeError

/-- The elements over which `for x in v` iterates. -/
def elems : Val → PyM (List Val)
  | .list l => .ok l
  | .str s => .ok (s.map fun c => .str [c])
  | _ => .error .typeError

/-- The elements of `v[i:]`. -/
def slice (v : Val) (i : Nat) : PyM (List Val) := v.elems.map (·.drop i)

/-- The int that Python considers equal to a float, if there is one: `1.0 == 1`. Identity on everything else.
The reader makes the same replacement (`utils/sexpr.py` 33–34). -/
def canon : Val → Val
  | .flt f => if f.isInteger then .int f.toInt else .flt f
  | v => v

mutual
/-- `str(v)`, which is also what `f'{v}'` prints. Simplification: inside a list, strings are shown in single quotes without
escapes (the code only prints lists when it is fed malformed files; no theorem covers such output). -/
def pyStr : Val → Str
  | .int n => intStr n
  | .flt f => f.repr
  | .str s => s
  | .list l => '[' :: (pyStrL l ++ [']'])
/-- Elements of a list, separated by `, `. -/
def pyStrL : List Val → Str
  | [] => []
  | [v] => pyReprV v
  | v :: r => pyReprV v ++ ',' :: ' ' :: pyStrL r
/-- `repr(v)` -/
def pyReprV : Val → Str
  | .int n => intStr n
  | .flt f => f.repr
  | .str s => '\'' :: (s ++ ['\''])
  | .list l => '[' :: (pyStrL l ++ [']'])
end

end Val

/-- `str(x)` for an optional attribute: `None` prints as `None`. -/
def optPyStr : Option Val → Str
  | none => k!"None"
  | some v => v.pyStr

end Kiutils
