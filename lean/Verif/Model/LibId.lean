import Verif.Py
/-!
# Library identifiers: the two regular expressions of `symbol.py`, `footprint.py` and `schitems.py`

`re.match` tries the lazy groups from the shortest match upwards; the search functions below do the same.
-/
namespace Kiutils

/-- The end of both patterns, after a lazy group: `(…+?)$`, where the group may only take characters `p`. `$` matches at the end
and before a line break that ends the string. Returns the group. -/
def groupEnd (p : Char → Bool) : Str → Option Str
  | [] => none
  | c :: r =>
    if !p c then none
    else if r == [] || r == ['\n'] then some [c]
    else (groupEnd p r).map (c :: ·)

/-- `.`: any character but a line break -/
def notNl (c : Char) : Bool := c != '\n'

/-- Search for `^(.+?):(.+?)$` (symbol.py 267, footprint.py, schitems.py); `pre` is what the first group has taken so far. -/
def matchNickAux (pre : Str) : Str → Option (Str × Str)
  | [] => none
  | c :: r =>
    match (if pre ≠ [] ∧ c = ':' then groupEnd notNl r else none) with
    | some e => some (pre, e)
    | none => if notNl c then matchNickAux (pre ++ [c]) r else none

/-- `re.match(r"^(.+?):(.+?)$", s)`: the two groups. -/
def matchNick (s : Str) : Option (Str × Str) := matchNickAux [] s

/-- `(\d+?)_(\d+?)$` at the start of a string; `pre` is what the first group has taken so far. -/
def matchIdsAux (pre : Str) : Str → Option (Str × Str)
  | [] => none
  | c :: r =>
    match (if pre ≠ [] ∧ c = '_' then groupEnd isDigit r else none) with
    | some e => some (pre, e)
    | none => if isDigit c then matchIdsAux (pre ++ [c]) r else none

/-- Search for `^(.+?)_(\d+?)_(\d+?)$` (symbol.py 275); `pre` is what the first group has taken so far. -/
def matchUnitAux (pre : Str) : Str → Option (Str × Str × Str)
  | [] => none
  | c :: r =>
    match (if pre ≠ [] ∧ c = '_' then matchIdsAux [] r else none) with
    | some (u, s) => some (pre, u, s)
    | none => if notNl c then matchUnitAux (pre ++ [c]) r else none

/-- `re.match(r"^(.+?)_(\d+?)_(\d+?)$", s)`: the three groups. -/
def matchUnit (s : Str) : Option (Str × Str × Str) := matchUnitAux [] s

end Kiutils
