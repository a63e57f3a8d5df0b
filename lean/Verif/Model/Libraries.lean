import Verif.Model.Common
/-!
# `src/kiutils/libraries.py`
-/
namespace Kiutils

/-- libraries.py 22–43 -/
structure Library where
  name : Val := st k!""
  type : Val := st k!"KiCad"
  uri : Val := st k!""
  options : Val := st k!""
  description : Val := st k!""
  active : Bool := true
derive_canon Library

/-- Loop body, libraries.py 67–72 -/
def Library.step (o : Library) (item : Val) : PyM Library := do
  let k ← item.idx 0
  if k.is k!"name" then return { o with name := ← item.idx 1 }
  else if k.is k!"type" then return { o with type := ← item.idx 1 }
  else if k.is k!"uri" then return { o with uri := ← item.idx 1 }
  else if k.is k!"options" then return { o with options := ← item.idx 1 }
  else if k.is k!"descr" then return { o with description := ← item.idx 1 }
  else if k.is k!"disabled" then return { o with active := false }
  else return o

/-- libraries.py 45–73 -/
def Library.fromSexpr (exp : Val) : PyM Library := do
  forM Library.step {} (← checkHead k!"lib" exp)

/-- libraries.py 75–100 -/
def Library.toSexpr (o : Library) (indent : Nat := 2) (newline : Bool := true) : Str :=
  py!"{indents indent}(lib " ++
  py!"(name \"{dq o.name}\")" ++
  py!"(type \"{dq o.type}\")" ++
  py!"(uri \"{dq o.uri}\")" ++
  py!"(options \"{dq o.options}\")" ++
  py!"(descr \"{dq o.description}\")" ++
  (ifS (!o.active) py!"(disabled)") ++
  py!"){endl newline}"

/-- libraries.py 102–115 -/
structure LibTable where
  type : Val := st k!"sym_lib_table"
  libs : List Library := []
  filePath : Option Str := none
derive_canon LibTable

/-- Loop body, libraries.py 140 -/
def LibTable.step (o : LibTable) (item : Val) : PyM LibTable := do
  let k ← item.idx 0
  if k.is k!"lib" then return { o with libs := o.libs ++ [← Library.fromSexpr item] }
  else return o

/-- libraries.py 117–141 -/
def LibTable.fromSexpr (exp : Val) : PyM LibTable :=
  match exp with
  | .list [] => .error .indexError
  | .list (h :: r) =>
    if h.is k!"fp_lib_table" || h.is k!"sym_lib_table" then forM LibTable.step { type := h } (h :: r)
    else .error .exception
  | _ => .error .exception

/-- libraries.py 167–177 -/
def LibTable.createNew (type : Val := st k!"sym_lib_table") : LibTable := { type := type }

/-- libraries.py 199–216 -/
def LibTable.toSexpr (o : LibTable) (indent : Nat := 0) (newline : Bool := true) : Str :=
  py!"{indents indent}({o.type.pyStr}\n" ++
  (forS o.libs fun lib => lib.toSexpr) ++
  py!"{indents indent}){endl newline}"

end Kiutils
