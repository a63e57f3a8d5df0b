/-!
# Basic vocabulary: Python strings, decimal digits, literals

Python `str` values are modelled as lists of Unicode scalar values. Lone surrogates, which a Python string may hold, are not
representable; this is the only simplification of this file.
-/
namespace Kiutils

/-- A Python `str`. -/
abbrev Str := List Char

open Lean in
/-- `k!"abc"` is the list of characters `['a', 'b', 'c']`. -/
macro:max "k!" s:str : term => do
  let cs := s.getString.toList.map (fun c => (Syntax.mkCharLit c : TSyntax `term))
  let a := cs.toArray
  `(([$a,*] : List Char))

/-- A run of literal text inside an f-string. It is the identity; it only keeps the run together in proofs. -/
def kw (s : Str) : Str := s

open Lean in
/-- Turns one literal chunk of an f-string into list concatenation in front of `acc`: brackets, blanks, line breaks and quotes
become single characters, everything between them one run. -/
def litChunk (s : String) (acc : TSyntax `term) : MacroM (TSyntax `term) := do
  let isSep (c : Char) : Bool := c == ' ' || c == '\n' || c == '(' || c == ')' || c == '"'
  let flush (run : List Char) (acc : TSyntax `term) : MacroM (TSyntax `term) := do
    if run.isEmpty then return acc
    let cs := (run.map (fun c => (Syntax.mkCharLit c : TSyntax `term))).toArray
    `(kw [$cs,*] ++ $acc)
  let mut acc := acc
  let mut run : List Char := []
  for c in s.toList.reverse do
    if isSep c then
      acc ← flush run acc
      run := []
      acc ← `($(Syntax.mkCharLit c) :: $acc)
    else
      run := c :: run
  flush run acc

open Lean in
/-- `py!"(a {x})"` is the Python f-string `f'(a {x})'`: the concatenation of the literal text and the interpolated strings. -/
syntax:max "py!" interpolatedStr(term) : term

open Lean in
macro_rules
  | `(py! $s) => do
    let chunks := s.raw.getArgs.toList.reverse
    let mut acc : TSyntax `term ← `(([] : List Char))
    let mut first := true
    for ch in chunks do
      match ch.isInterpolatedStrLit? with
      | some str =>
        if str.isEmpty then pure () else
          acc ← litChunk str acc
          first := false
      | none =>
        let t : TSyntax `term := ⟨ch⟩
        if first then acc ← `(($t : List Char)) else acc ← `(($t : List Char) ++ $acc)
        first := false
    return acc

/-! ## Characters, as Python's `re` classifies them -/

/-- Python's `\s` on `str` patterns: exactly the characters for which `str.isspace()` holds (Unicode 14, CPython 3.11). -/
def isSpace (c : Char) : Bool :=
  let n := c.toNat
  (n == 0x20) || (9 ≤ n && n ≤ 0xd) || (0x1c ≤ n && n ≤ 0x1f) || n == 0x85 || n == 0xa0 || n == 0x1680 ||
    (0x2000 ≤ n && n ≤ 0x200a) || n == 0x2028 || n == 0x2029 || n == 0x202f || n == 0x205f || n == 0x3000

/-- First character of each run of ten decimal digits other than ASCII (category `Nd`, Unicode 14, CPython 3.11). -/
def digitZeros : List Nat :=
  [0x660, 0x6f0, 0x7c0, 0x966, 0x9e6, 0xa66, 0xae6, 0xb66, 0xbe6, 0xc66, 0xce6, 0xd66, 0xde6, 0xe50, 0xed0,
   0xf20, 0x1040, 0x1090, 0x17e0, 0x1810, 0x1946, 0x19d0, 0x1a80, 0x1a90, 0x1b50, 0x1bb0, 0x1c40, 0x1c50, 0xa620, 0xa8d0,
   0xa900, 0xa9d0, 0xa9f0, 0xaa50, 0xabf0, 0xff10, 0x104a0, 0x10d30, 0x11066, 0x110f0, 0x11136, 0x111d0, 0x112f0, 0x11450,
   0x114d0, 0x11650, 0x116c0, 0x11730, 0x118e0, 0x11950, 0x11c50, 0x11d50, 0x11da0, 0x16a60, 0x16ac0, 0x16b50, 0x1d7ce,
   0x1d7d8, 0x1d7e2, 0x1d7ec, 0x1d7f6, 0x1e140, 0x1e2f0, 0x1e950, 0x1fbf0]

/-- The decimal value of a character matched by Python's `\d`; `none` for every other character. -/
def digitVal (c : Char) : Option Nat :=
  let n := c.toNat
  if 0x30 ≤ n && n ≤ 0x39 then some (n - 0x30)
  else if n < 0x660 then none
  else match digitZeros.find? (fun z => decide (z ≤ n) && decide (n < z + 10)) with
    | some z => some (n - z)
    | none => none

/-- Python's `\d`. -/
def isDigit (c : Char) : Bool := (digitVal c).isSome

/-! ## Decimal notation -/

/-- The ASCII digit of `d < 10`. -/
def digitChar (d : Nat) : Char := Char.ofNat (0x30 + d)

/-- Decimal digits of `n`, with fuel (structural, so that it computes in the kernel). -/
def natStrAux : Nat → Nat → Str
  | 0, _ => []
  | fuel + 1, n => if n < 10 then [digitChar n] else natStrAux fuel (n / 10) ++ [digitChar (n % 10)]

/-- `str(n)` for a non-negative Python int. -/
def natStr (n : Nat) : Str := natStrAux (n + 1) n

/-- `str(n)` for a Python int. -/
def intStr (n : Int) : Str := if n < 0 then '-' :: natStr n.natAbs else natStr n.natAbs

/-- Value of a string of decimal digits (`\d+`), as `int()` computes it. Non-digits count as 0; the function is only used on
strings of digits. -/
def digitsVal (s : Str) : Nat := s.foldl (fun a c => 10 * a + (digitVal c).getD 0) 0

end Kiutils
