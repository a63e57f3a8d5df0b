import Verif.Value
/-!
# `float(x)` and `f'{x:.pf}'` with the exceptions that they raise

Used by `PlotSettings.to_sexpr` (brditems.py 623, 625, 637) and `ColorRGBA.to_sexpr` (common.py 198). The rules are those of
CPython's `PyFloat_FromString`.
-/
namespace Kiutils

/-- The white space that `float()` strips: `str.isspace()` without the separators U+001C–U+001F. -/
def floatSpace (c : Char) : Bool := isSpace c && !(decide (0x1c ≤ c.toNat) && decide (c.toNat ≤ 0x1f))

/-- A text without white space at its ends. -/
def floatStrip (s : Str) : Str := ((s.dropWhile floatSpace).reverse.dropWhile floatSpace).reverse

/-- Removes underscores, each of which must stand between two digits; `prev` says whether the last character was a digit. -/
def dropUnderscores : Bool → Str → Option Str
  | _, [] => some []
  | prev, '_' :: r =>
    match r with
    | c :: _ => if prev && isDigit c then dropUnderscores false r else none
    | [] => none
  | _, c :: r => (dropUnderscores (isDigit c) r).map (c :: ·)

/-- ASCII lower case. -/
def asciiLower (c : Char) : Char := if 'A' ≤ c ∧ c ≤ 'Z' then Char.ofNat (c.toNat + 32) else c

/-- A text without its sign. -/
def unsign : Str → Str
  | '+' :: r => r
  | '-' :: r => r
  | r => r

/-- Behind the first digits: the digits behind a point, and the rest. -/
def fracPart : Str → Str × Str
  | '.' :: r => (r.takeWhile isDigit, r.dropWhile isDigit)
  | r => ([], r)

/-- The part of a decimal literal after the digits: nothing, or an exponent. -/
def floatExponent : Str → Option Int
  | [] => some 0
  | c :: r =>
    if c = 'e' ∨ c = 'E' then
      let neg := r.head? == some '-'
      let ds := unsign r
      if !ds.isEmpty && ds.all isDigit then some (if neg then -(digitsVal ds : Int) else digitsVal ds) else none
    else none

/-- A decimal literal without sign: `digits [. digits] [exponent]` with at least one digit. -/
def floatUnsigned (neg : Bool) (s : Str) : Option F64 :=
  let ip := s.takeWhile isDigit
  let fr := fracPart (s.dropWhile isDigit)
  if ip.isEmpty && fr.1.isEmpty then none
  else (floatExponent fr.2).map fun e =>
    let x : Int := e - (fr.1.length : Int)
    if 0 ≤ x then F64.ofRat neg (digitsVal (ip ++ fr.1) * 10 ^ x.toNat) 1
    else F64.ofRat neg (digitsVal (ip ++ fr.1)) (10 ^ (-x).toNat)

/-- `float(s)` of a text: `none` if Python raises `ValueError`, `some none` for not-a-number. -/
def floatOfText (s : Str) : Option (Option F64) :=
  match dropUnderscores false (floatStrip s) with
  | none => none
  | some s =>
    let neg := s.head? == some '-'
    let body := unsign s
    let low := body.map asciiLower
    if low = k!"nan" then some none
    else if low = k!"inf" ∨ low = k!"infinity" then some (some (.inf neg))
    else (floatUnsigned neg body).map some

/-- `float(n)` of an int: exact rounding, `OverflowError` beyond the range of doubles. -/
def floatOfInt (n : Int) : PyM F64 :=
  match F64.ofRat (decide (n < 0)) n.natAbs 1 with
  | .inf _ => .error .overflowError
  | f => .ok f

/-- `f'{float(v):.{p}f}'` -/
def floatFixed (p : Nat) : Val → PyM Str
  | .int n => (floatOfInt n).map (F64.fmtFixed p)
  | .flt f => .ok (F64.fmtFixed p f)
  | .str s => match floatOfText s with
    | some (some f) => .ok (F64.fmtFixed p f)
    | some none => .ok k!"nan"
    | none => .error .valueError
  | .list _ => .error .typeError

/-- `f'{v:.{p}f}'`: the format `f` is for numbers only. -/
def formatFixed (p : Nat) : Val → PyM Str
  | .int n => (floatOfInt n).map (F64.fmtFixed p)
  | .flt f => .ok (F64.fmtFixed p f)
  | .str _ => .error .valueError
  | .list _ => .error .typeError

end Kiutils
