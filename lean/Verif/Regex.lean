import Verif.Sexpr
import Verif.Model.LibId
/-!
# Regular expressions of Python's `re`, as far as the package uses them

Syntax, meaning by back-tracking search, and a reader for the notation. Nothing in the model depends on this file; it is the
specification against which `Verif/Props/Regex.lean` proves the hand-written scanners of `Verif/Sexpr.lean` and
`Verif/Model/LibId.lean`.
-/
namespace Kiutils

/-! ## Syntax -/

/-- What a character class lists. -/
inductive ReItem where
  | lit (c : Char)
  | space
  | digit

inductive Re where
  /-- matches without consuming anything -/
  | empty
  /-- `[…]` or `[^…]`, also for single characters and `\s`, `\d` outside of brackets -/
  | set (neg : Bool) (items : List ReItem)
  /-- `.`: any character but a line break -/
  | dot
  | seq (a b : Re)
  | alt (a b : Re)
  /-- `a?` -/
  | opt (a : Re)
  /-- `a*`, or `a*?` if not greedy -/
  | star (greedy : Bool) (a : Re)
  /-- `a+`, or `a+?` if not greedy -/
  | plus (greedy : Bool) (a : Re)
  /-- `(?P<name>a)`; a group `(a)` without a name is named by its number -/
  | group (name : Str) (a : Re)
  /-- `(?=a)` -/
  | ahead (a : Re)
  /-- `(?<=c)` for a single character -/
  | behind (neg : Bool) (items : List ReItem)
  /-- `^` without the flag `m` -/
  | start
  /-- `$` without the flag `m`: at the end, and before a line break at the end -/
  | finish

/-! ## Meaning -/

def ReItem.has (c : Char) : ReItem → Bool
  | .lit d => c == d
  | .space => isSpace c
  | .digit => isDigit c

/-- The character belongs to the class. -/
def Re.inSet (neg : Bool) (items : List ReItem) (c : Char) : Bool := items.any (·.has c) != neg

/-- A position in the text: the character before it, the text behind it, and the groups matched so far (latest last). -/
structure RePos where
  before : Option Char
  rest : Str
  groups : List (Str × Str)

/-- Consumes one character of which `p` holds. -/
def RePos.eat (p : Char → Bool) (s : RePos) : List RePos :=
  match s.rest with
  | c :: r => if p c then [{ s with before := some c, rest := r }] else []
  | [] => []

/-- The text between two positions. -/
def RePos.textTo (s t : RePos) : Str := s.rest.take (s.rest.length - t.rest.length)

/-- The ways to repeat `step`, in the order in which back-tracking tries them. A round that consumes nothing ends the
repetition. The number is fuel: the length of the text is always enough. -/
def Re.iterate (greedy : Bool) (step : RePos → List RePos) : Nat → RePos → List RePos
  | 0, s => [s]
  | n + 1, s =>
    let more := (step s).flatMap fun t => if t.rest.length < s.rest.length then Re.iterate greedy step n t else []
    if greedy then more ++ [s] else s :: more

/-- All ways to match, in the order in which back-tracking tries them. -/
def Re.run : Re → RePos → List RePos
  | .empty, s => [s]
  | .set neg items, s => s.eat (Re.inSet neg items)
  | .dot, s => s.eat (· != '\n')
  | .seq a b, s => (a.run s).flatMap b.run
  | .alt a b, s => a.run s ++ b.run s
  | .opt a, s => a.run s ++ [s]
  | .star greedy a, s => Re.iterate greedy a.run s.rest.length s
  | .plus greedy a, s => (a.run s).flatMap fun t => Re.iterate greedy a.run t.rest.length t
  | .group n a, s => (a.run s).map fun t => { t with groups := t.groups ++ [(n, s.textTo t)] }
  | .ahead a, s => match a.run s with
    | [] => []
    | t :: _ => [{ s with groups := t.groups }]
  | .behind neg items, s => match s.before with
    | some c => if Re.inSet neg items c then [s] else []
    | none => []
  | .start, s => if s.before.isNone then [s] else []
  | .finish, s => if s.rest == [] || s.rest == ['\n'] then [s] else []

/-- `re.match(r, s)`: the groups of the first way to match, `none` if there is none. -/
def Re.match? (r : Re) (s : Str) : Option (List (Str × Str)) := ((r.run ⟨none, s, []⟩).head?).map (·.groups)

/-- `re.finditer(r, s)`: the groups of all matches from left to right; each match starts the search for the next one.
Simplification: behind an empty match the search goes on one character further (no expression of the package matches the empty
text). The number is fuel: the length of the text plus one is always enough. -/
def Re.findFrom (r : Re) : Nat → Option Char → Str → List (List (Str × Str))
  | 0, _, _ => []
  | n + 1, before, s =>
    match (r.run ⟨before, s, []⟩).head? with
    | some t =>
      if t.rest.length < s.length then t.groups :: r.findFrom n t.before t.rest
      else match s with
        | [] => [t.groups]
        | c :: u => t.groups :: r.findFrom n (some c) u
    | none => match s with
      | [] => []
      | c :: u => r.findFrom n (some c) u

def Re.findIter (r : Re) (s : Str) : List (List (Str × Str)) := r.findFrom (s.length + 1) none s

/-- `m.group(name)` / `m.groupdict()[name]`: the text of a group, `none` if it did not take part in the match. -/
def groupText (name : Str) (groups : List (Str × Str)) : Option Str := (groups.reverse.find? (·.1 == name)).map (·.2)

/-! ## Notation -/

/-- Single characters that stand for themselves outside of brackets (the others have a meaning of their own). -/
def reOrdinary (c : Char) : Bool := !(k!"\\.[](){}*+?^$|".contains c)

/-- The escapes `\s`, `\d`; any other escaped character that is not a letter or digit stands for itself. -/
def reEscape (c : Char) : Option ReItem :=
  if c == 's' then some .space
  else if c == 'd' then some .digit
  else if c.isAlphanum then none
  else some (.lit c)

/-- The inside of `[…]` up to the closing bracket. `-` stands for itself at the end of the class; ranges are not supported. -/
def reClass (acc : List ReItem) : Str → Option (List ReItem × Str)
  | [] => none
  | ']' :: r => if acc.isEmpty then none else some (acc, r)
  | '\\' :: c :: r => match reEscape c with
    | some i => reClass (acc ++ [i]) r
    | none => none
  | '-' :: r => match r with
    | ']' :: _ => reClass (acc ++ [.lit '-']) r
    | _ => none
  | '[' :: _ => none
  | c :: r => reClass (acc ++ [.lit c]) r

/-- A repetition sign behind `a`, if there is one. -/
def reQuant (a : Re) : Str → Re × Str
  | '*' :: '?' :: r => (.star false a, r)
  | '*' :: r => (.star true a, r)
  | '+' :: '?' :: r => (.plus false a, r)
  | '+' :: r => (.plus true a, r)
  | '?' :: r => (.opt a, r)
  | r => (a, r)

/-- Sequence without a superfluous `empty`. -/
def reSeq : Option Re → Re → Re
  | none, b => b
  | some a, b => .seq a b

/-- Reads alternatives up to a closing bracket or the end. `verbose` is the flag `x`: white space outside of brackets is
ignored. `g` counts the unnamed groups, `alts` are the alternatives read so far, `acc` is the current one. Result: the
expression, the number of groups, and what is left. -/
def reParse (verbose : Bool) : Nat → Nat → Option Re → Option Re → Str → Option (Re × Nat × Str)
  | 0, _, _, _, _ => none
  | fuel + 1, g, alts, acc, s =>
    let done := fun (_ : Unit) => match alts with
      | none => acc.getD .empty
      | some a => .alt a (acc.getD .empty)
    let next := fun (g : Nat) (a : Re) (r : Str) =>
      let q := reQuant a r
      reParse verbose fuel g alts (some (reSeq acc q.1)) q.2
    let inner := fun (g : Nat) (r : Str) => match reParse verbose fuel g none none r with
      | some (a, g', ')' :: r') => some (a, g', r')
      | _ => none
    match s with
    | [] => some (done (), g, [])
    | ')' :: r => some (done (), g, ')' :: r)
    | '|' :: r => reParse verbose fuel g (some (done ())) none r
    | '(' :: '?' :: ':' :: r => match inner g r with
      | some (a, g', r') => next g' a r'
      | none => none
    | '(' :: '?' :: '=' :: r => match inner g r with
      | some (a, g', r') => next g' (.ahead a) r'
      | none => none
    | '(' :: '?' :: '<' :: '=' :: r => match inner g r with
      | some (.set neg items, g', r') => next g' (.behind neg items) r'
      | _ => none
    | '(' :: '?' :: 'P' :: '<' :: r =>
      match inner (g + 1) ((r.dropWhile (· != '>')).drop 1) with
      | some (a, g', r') => next g' (.group (r.takeWhile (· != '>')) a) r'
      | none => none
    | '(' :: '?' :: _ => none
    | '(' :: r => match inner (g + 1) r with
      | some (a, g', r') => next g' (.group (natStr (g + 1)) a) r'
      | none => none
    | '[' :: '^' :: r => match reClass [] r with
      | some (items, r') => next g (.set true items) r'
      | none => none
    | '[' :: r => match reClass [] r with
      | some (items, r') => next g (.set false items) r'
      | none => none
    | '\\' :: c :: r => match reEscape c with
      | some i => next g (.set false [i]) r
      | none => none
    | '.' :: r => next g .dot r
    | '^' :: r => next g .start r
    | '$' :: r => next g .finish r
    | c :: r =>
      if verbose && isSpace c then reParse verbose fuel g alts acc r
      else if reOrdinary c then next g (.set false [.lit c]) r
      else none

/-- The expression with the given notation. The flags `(?mx)` may stand in front; `m` only changes `^` and `$`, with which it is
not supported. -/
def Re.ofText (s : Str) : Option Re :=
  match s with
  | '(' :: '?' :: 'm' :: 'x' :: ')' :: r =>
    match reParse true (r.length + 1) 0 none none r with
    | some (a, _, []) => if r.contains '$' then none else some a
    | _ => none
  | _ => match reParse false (s.length + 1) 0 none none s with
    | some (a, _, []) => some a
    | _ => none

/-! ## The expressions of the package -/

/-- `term_regex`, sexpr.py 9–16, letter by letter -/
def termRegexText : Str := k!"(?mx)
    \\s*(?:
        (?P<brackl>\\()|
        (?P<brackr>\\))|
        (?P<num>[+-]?\\d+\\.\\d+(?=[\\ \\)])|\\-?\\d+(?=[\\ \\)]))|
        (?P<sq>\"(?:[^\"]|(?<=\\\\)\")*\"(?:(?=\\))|(?=\\s)))|
        (?P<s>[^(^)\\s]+)
       )"

/-- symbol.py 267, footprint.py 698, schitems.py 996 -/
def nickRegexText : Str := k!"^(.+?):(.+?)$"

/-- symbol.py 275 -/
def unitRegexText : Str := k!"^(.+?)_(\\d+?)_(\\d+?)$"

/-- `term_regex` as an expression -/
def termRegex : Re :=
  let numEnd := Re.ahead (.set false [.lit ' ', .lit ')'])
  let digits := Re.plus true (.set false [.digit])
  let brackl := Re.group k!"brackl" (.set false [.lit '('])
  let brackr := Re.group k!"brackr" (.set false [.lit ')'])
  let num := Re.group k!"num" (.alt
    (.seq (.seq (.seq (.seq (.opt (.set false [.lit '+', .lit '-'])) digits) (.set false [.lit '.'])) digits) numEnd)
    (.seq (.seq (.opt (.set false [.lit '-'])) digits) numEnd))
  let quote := Re.set false [.lit '"']
  let sq := Re.group k!"sq" (.seq (.seq (.seq quote
    (.star true (.alt (.set true [.lit '"']) (.seq (.behind false [.lit '\\']) quote)))) quote)
    (.alt (.ahead (.set false [.lit ')'])) (.ahead (.set false [.space]))))
  let s := Re.group k!"s" (.plus true (.set true [.lit '(', .lit '^', .lit ')', .space]))
  .seq (.star true (.set false [.space])) (.alt (.alt (.alt (.alt brackl brackr) num) sq) s)

def nickRegex : Re :=
  .seq (.seq (.seq (.seq .start (.group k!"1" (.plus false .dot))) (.set false [.lit ':'])) (.group k!"2" (.plus false .dot))) .finish

def unitRegex : Re :=
  let digits := Re.plus false (.set false [.digit])
  let us := Re.set false [.lit '_']
  .seq (.seq (.seq (.seq (.seq (.seq .start (.group k!"1" (.plus false .dot))) us) (.group k!"2" digits)) us) (.group k!"3" digits)) .finish

set_option maxRecDepth 10000 in
theorem termRegex_text : Re.ofText termRegexText = some termRegex := by rfl
theorem nickRegex_text : Re.ofText nickRegexText = some nickRegex := by rfl
theorem unitRegex_text : Re.ofText unitRegexText = some unitRegex := by rfl

end Kiutils
