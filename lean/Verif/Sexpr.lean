import Verif.Value
/-!
# The reader (`src/kiutils/utils/sexpr.py`) and `dequote` (`src/kiutils/utils/strings.py`)

`parse_sexp` (sexpr.py 18–43) runs `re.finditer(term_regex, sexp)` and feeds the matches to a stack machine.
The pattern (sexpr.py 9–16, verbose mode) is

    \s*(?: (?P<brackl>\() | (?P<brackr>\))
         | (?P<num>[+-]?\d+\.\d+(?=[\ \)])|\-?\d+(?=[\ \)]))
         | (?P<sq>"(?:[^"]|(?<=\\)")*"(?:(?=\))|(?=\s)))
         | (?P<s>[^(^)\s]+) )

Each alternative is modelled by a function on the remaining text that returns the matched text and the rest. Where the regular
expression can back-track, the model says why there is only one way to match (`num`) or tries the possibilities in the order of
the regex engine (`sq`).
-/
namespace Kiutils

/-- A token: a bracket or an atom with its value. -/
inductive Tok where
  | op
  | cl
  | atom (v : Val)

/-- What the scanner does with the input: skip one character, or match a token with source text `src`. -/
inductive Piece where
  | skip (c : Char)
  | tok (src : Str) (t : Tok)

/-! ## The alternatives -/

/-- A number as matched by `num`: optional sign, digits, optionally a point and digits. -/
structure NumLit where
  sign : Option Char
  ip : Str
  /-- digits after the point; `none` for the integer alternative -/
  fp : Option Str

/-- Source text of a number. -/
def NumLit.src (n : NumLit) : Str :=
  n.sign.toList ++ n.ip ++ (match n.fp with | none => [] | some f => '.' :: f)

/-- The look-ahead `(?=[\ \)])`. -/
def numEnd : Str → Bool
  | c :: _ => c == ' ' || c == ')'
  | [] => false

/-- Splits an optional leading sign accepted by `p` off. -/
def splitSign (p : Char → Bool) : Str → Option Char × Str
  | c :: r => if p c then (some c, r) else (none, c :: r)
  | [] => (none, [])

/-- First alternative of `num` (sexpr.py 13): `[+-]?\d+\.\d+(?=[\ \)])`. The runs `\d+` are maximal: giving back a digit leaves a
digit where the pattern needs `.` or the look-ahead needs a blank or bracket. -/
def matchFloat (s : Str) : Option (NumLit × Str) :=
  let sg := splitSign (fun c => c == '+' || c == '-') s
  let ip := sg.2.takeWhile isDigit
  match sg.2.dropWhile isDigit with
  | '.' :: r =>
    let fp := r.takeWhile isDigit
    let rest := r.dropWhile isDigit
    if !ip.isEmpty && !fp.isEmpty && numEnd rest then some (⟨sg.1, ip, some fp⟩, rest) else none
  | _ => none

/-- Second alternative of `num` (sexpr.py 13): `\-?\d+(?=[\ \)])`. -/
def matchInt (s : Str) : Option (NumLit × Str) :=
  let sg := splitSign (fun c => c == '-') s
  let ip := sg.2.takeWhile isDigit
  let rest := sg.2.dropWhile isDigit
  if !ip.isEmpty && numEnd rest then some (⟨sg.1, ip, none⟩, rest) else none

/-- The group `num`: the float alternative is tried first. -/
def matchNum (s : Str) : Option (NumLit × Str) := (matchFloat s).or (matchInt s)

/-- `v = float(value); if v.is_integer(): v = int(v)` (sexpr.py 33–34). -/
def NumLit.val (n : NumLit) : Val :=
  Val.canon (.flt (F64.ofDecimal (n.sign == some '-') n.ip (n.fp.getD [])))

/-- The look-ahead `(?:(?=\))|(?=\s))` after a closing quote. -/
def sqEnd : Str → Bool
  | c :: _ => c == ')' || isSpace c
  | [] => false

/-- The body and closing quote of `sq` (sexpr.py 14): `(?:[^"]|(?<=\\)")*"(?:(?=\))|(?=\s))`, greedy with back-tracking.
`prev` is the character before the current position. Returns the body and the text after the closing quote.
A quote preceded by a backslash is first taken as part of the body; only if that leads to no match it is tried as the closing
quote. -/
def matchSqBody (prev : Char) : Str → Option (Str × Str)
  | [] => none
  | c :: r =>
    if c != '"' then
      match matchSqBody c r with
      | some (b, rest) => some (c :: b, rest)
      | none => none
    else if prev == '\\' then
      match matchSqBody c r with
      | some (b, rest) => some (c :: b, rest)
      | none => if sqEnd r then some ([], r) else none
    else if sqEnd r then some ([], r) else none

/-- The group `sq`, quotes included. Returns the body. -/
def matchSq : Str → Option (Str × Str)
  | '"' :: r => matchSqBody '"' r
  | _ => none

/-- `value.replace(r'\"', '"')` (sexpr.py 37): left to right, non-overlapping. -/
def unescape : Str → Str
  | '\\' :: '"' :: r => '"' :: unescape r
  | c :: r => c :: unescape r
  | [] => []

/-- The character class `[^(^)\s]` of the group `s` (sexpr.py 15): it excludes `^` as well as brackets and white space. -/
def isBare (c : Char) : Bool := c != '(' && c != '^' && c != ')' && !isSpace c

/-- The alternatives of the pattern, tried in order at a position that is not white space.
Returns the source text, the token and the remaining text. -/
def tokenAt (s : Str) : Option (Str × Tok × Str) :=
  match s with
  | [] => none
  | c :: r =>
    if c == '(' then some (['('], .op, r)
    else if c == ')' then some ([')'], .cl, r)
    else match matchNum s with
      | some (n, rest) => some (n.src, .atom n.val, rest)
      | none =>
        match matchSq s with
        | some (b, rest) => some ('"' :: (b ++ ['"']), .atom (.str (unescape b)), rest)
        | none =>
          if isBare c then
            some (s.takeWhile isBare, .atom (.str (s.takeWhile isBare)), s.dropWhile isBare)
          else none

/-- `re.finditer`: skip white space, match a token, or — when no alternative matches (only at `^`) — move on by one character.
The first argument is fuel; the length of the text is always enough. -/
def scan : Nat → Str → List Piece
  | 0, _ => []
  | _ + 1, [] => []
  | fuel + 1, c :: r =>
    if isSpace c then .skip c :: scan fuel r
    else match tokenAt (c :: r) with
      | some (src, t, rest) => .tok src t :: scan fuel rest
      | none => .skip c :: scan fuel r

/-- The token of a piece, if it is one. -/
def Piece.tok? : Piece → Option Tok
  | .skip _ => none
  | .tok _ t => some t

/-- All tokens of a text. -/
def lex (s : Str) : List Tok := (scan s.length s).filterMap Piece.tok?

/-! ## The stack machine -/

/-- The loop of `parse_sexp` (sexpr.py 22–41) and its end (42–43): `stack` holds the unfinished outer lists, `out` the current
one. -/
def run (stack : List (List Val)) (out : List Val) : List Tok → PyM Val
  | [] =>
    match stack with
    | _ :: _ => .error .assertionError          -- assert not stack
    | [] => match out with
      | v :: _ => .ok v                         -- return out[0]
      | [] => .error .indexError
  | .op :: ts => run (out :: stack) [] ts
  | .cl :: ts =>
    match stack with
    | [] => .error .assertionError              -- assert stack
    | top :: stack' => run stack' (top ++ [.list out]) ts
  | .atom v :: ts => run stack (out ++ [v]) ts

/-- `parse_sexp` (sexpr.py 18–43). -/
def parseSexp (s : Str) : PyM Val := run [] [] (lex s)

/-! ## Quoting -/

/-- `dequote` (strings.py 13–22): `str(x).replace('"', '\\"')`. Backslashes are not escaped. -/
def dequote : Str → Str
  | [] => []
  | '"' :: r => '\\' :: '"' :: dequote r
  | c :: r => c :: dequote r

end Kiutils
