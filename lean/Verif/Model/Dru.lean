import Verif.Model.Common
/-!
# `src/kiutils/dru.py`
-/
namespace Kiutils

/-- `' '.join(l)`: raises `TypeError` if an element is not a string. -/
def joinSp (l : List Val) : PyM Str :=
  match l with
  | [] => .ok []
  | [.str s] => .ok s
  | .str s :: r => do return s ++ ' ' :: (← joinSp r)
  | _ => .error .typeError

/-- dru.py 25–69 -/
structure Constraint where
  type : Val := st k!"clearance"
  min : Option Val := none
  opt : Option Val := none
  max : Option Val := none
  elements : List Val := []
derive_canon Constraint

/-- Loop body, dru.py 94–98. The second comparison is reached for elements that are not lists, too: a number raises `TypeError`,
an empty string `IndexError`, and no other string has a first character equal to one of the keys. -/
def Constraint.step (o : Constraint) (item : Val) : PyM Constraint := do
  let o := if item.isList then o else { o with elements := o.elements ++ [item] }
  let k ← item.idx 0
  if k.is k!"min" then return { o with min := some (← item.idx 1) }
  else if k.is k!"opt" then return { o with opt := some (← item.idx 1) }
  else if k.is k!"max" then return { o with max := some (← item.idx 1) }
  else return o

/-- dru.py 71–99 -/
def Constraint.fromSexpr (exp : Val) : PyM Constraint := do
  let l ← checkHead k!"constraint" exp
  let type ← getI l 1
  forM Constraint.step { type := type } (l.drop 2)

/-- dru.py 101–120 -/
def Constraint.toSexpr (o : Constraint) (indent : Nat := 2) (newline : Bool := true) : PyM Str := do
  let min := optS o.min fun v => py!" (min \"{dq v}\")"
  let opt := optS o.opt fun v => py!" (opt \"{dq v}\")"
  let max := optS o.max fun v => py!" (max \"{dq v}\")"
  let joined ← joinSp o.elements
  let elements := if o.elements.isEmpty then [] else ' ' :: joined
  return py!"{indents indent}(constraint {o.type.pyStr}{min}{opt}{max}{elements}){endl newline}"

/-- dru.py 122–144 -/
structure Rule where
  name : Val := st k!""
  constraints : List Constraint := []
  condition : Val := st k!""
  layer : Option Val := none
  severity : Option Val := none
derive_canon Rule

/-- Loop body, dru.py 169–172 -/
def Rule.step (o : Rule) (item : Val) : PyM Rule := do
  let k ← item.idx 0
  if k.is k!"constraint" then return { o with constraints := o.constraints ++ [← Constraint.fromSexpr item] }
  else if k.is k!"condition" then return { o with condition := ← item.idx 1 }
  else if k.is k!"layer" then return { o with layer := some (← item.idx 1) }
  else if k.is k!"severity" then return { o with severity := some (← item.idx 1) }
  else return o

/-- dru.py 146–173 -/
def Rule.fromSexpr (exp : Val) : PyM Rule := do
  let l ← checkHead k!"rule" exp
  let name ← getI l 1
  forM Rule.step { name := name } (l.drop 2)

/-- dru.py 175–195. The constraints are indented twice. -/
def Rule.toSexpr (o : Rule) (indent : Nat := 0) : PyM Str := do
  let constraints ← forSM o.constraints fun c => do
    let text ← c.toSexpr (indent + 2)
    return py!"{indents indent}{text}"
  return py!"{indents indent}(rule \"{dq o.name}\"\n" ++
    (optS o.layer fun l => py!"{indents indent}  (layer \"{dq l}\")\n") ++
    constraints ++
    py!"{indents indent}  (condition \"{dq o.condition}\")" ++
    (optS o.severity fun s => py!"\n{indents indent}  (severity {dq s})") ++
    py!")\n"

/-- dru.py 197–209 -/
structure DesignRules where
  version : Val := .int 1
  rules : List Rule := []
  filePath : Option Str := none
derive_canon DesignRules

/-- Loop body, dru.py 236–237 -/
def DesignRules.step (o : DesignRules) (item : Val) : PyM DesignRules := do
  let k ← item.idx 0
  if k.is k!"version" then return { o with version := ← item.idx 1 }
  else if k.is k!"rule" then return { o with rules := o.rules ++ [← Rule.fromSexpr item] }
  else return o

/-- dru.py 211–238 -/
def DesignRules.fromSexpr (exp : Val) : PyM DesignRules :=
  match exp with
  | .list [] => .error .indexError
  | .list (.list [] :: _) => .error .indexError
  | .list (.list (h :: r) :: rest) =>
    if h.is k!"version" then forM DesignRules.step {} (.list (h :: r) :: rest) else .error .exception
  | _ => .error .exception

/-- dru.py 258–262: the text of the file is put into brackets and parsed. -/
def DesignRules.parseText (text : Str) : PyM DesignRules := do
  DesignRules.fromSexpr (← parseSexp ('(' :: (text ++ [')'])))

/-- dru.py 266–273 -/
def DesignRules.createNew : DesignRules := { version := .int 1 }

/-- dru.py 295–315 -/
def DesignRules.toSexpr (o : DesignRules) (indent : Nat := 0) (newline : Bool := false) : PyM Str := do
  let rules ← forSM o.rules fun r => do
    let text ← r.toSexpr indent
    return py!"{indents indent}{text}"
  let rules := if o.rules.isEmpty then [] else py!"{indents indent}\n{rules}"
  return py!"{indents indent}(version {o.version.pyStr})\n" ++ rules ++ endl newline

end Kiutils
