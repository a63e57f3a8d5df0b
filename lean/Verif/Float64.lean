import Verif.Basic
/-!
# Python floats

A computable model of IEEE-754 binary64 as used by CPython: conversion from a decimal literal (round to nearest, ties to even),
`is_integer`, `int(x)`, `repr(x)` and `%.nf` formatting. NaN cannot arise from the literals that the reader accepts and is left
out.
-/
namespace Kiutils

/-- A double: `± man * 2^exp` (canonical: `man < 2^53`, `exp ≥ -1074`, `man ≥ 2^52` unless `exp = -1074`), or an infinity. -/
inductive F64 where
  | fin (neg : Bool) (man : Nat) (exp : Int)
  | inf (neg : Bool)
deriving DecidableEq, Repr

namespace F64

/-- Numerator and denominator of `(n/d) / 2^e`. -/
def scale (n d : Nat) (e : Int) : Nat × Nat :=
  if e < 0 then (n * 2 ^ (-e).toNat, d) else (n, d * 2 ^ e.toNat)

/-- `n/d` rounded to the nearest integer, ties to even. -/
def roundDiv (n d : Nat) : Nat :=
  let q := n / d
  let r := n % d
  if 2 * r < d then q else if 2 * r > d then q + 1 else if q % 2 = 0 then q else q + 1

/-- Exponent of the double nearest to `n/d` (`n, d > 0`). -/
def expOf (n d : Nat) : Int :=
  let e0 : Int := (n.log2 : Int) - (d.log2 : Int) - 52
  let ab := scale n d e0
  let e1 := if ab.1 / ab.2 < 2 ^ 52 then e0 - 1 else e0
  max e1 (-1074)

/-- The double nearest to `± n/d`: what `float()` returns for a literal of that value. -/
def ofRat (neg : Bool) (n d : Nat) : F64 :=
  if n = 0 then .fin neg 0 (-1074)
  else
    let e := expOf n d
    let ab := scale n d e
    let m := roundDiv ab.1 ab.2
    let me : Nat × Int := if m = 2 ^ 53 then (2 ^ 52, e + 1) else (m, e)
    if me.2 > 971 then .inf neg else .fin neg me.1 me.2

/-- `float()` of the literal `[-]ip.fp` (or `[-]ip` when `fp` is empty); `ip`, `fp` are strings of decimal digits. -/
def ofDecimal (neg : Bool) (ip fp : Str) : F64 := ofRat neg (digitsVal (ip ++ fp)) (10 ^ fp.length)

/-- `x.is_integer()`. -/
def isInteger : F64 → Bool
  | .fin _ m e => decide (0 ≤ e) || decide (m % 2 ^ (-e).toNat = 0)
  | .inf _ => false

/-- `int(x)` (truncation; only used on integral values, where it is exact). -/
def toInt : F64 → Int
  | .fin neg m e =>
    let a : Nat := if 0 ≤ e then m * 2 ^ e.toNat else m / 2 ^ (-e).toNat
    if neg then -(a : Int) else a
  | .inf _ => 0

/-- Absolute value as a fraction. -/
def num (m : Nat) (e : Int) : Nat := if 0 ≤ e then m * 2 ^ e.toNat else m
/-- See `num`. -/
def den (e : Int) : Nat := if 0 ≤ e then 1 else 2 ^ (-e).toNat

/-- The decimal exponent `p` with `10^p ≤ n/d < 10^(p+1)`. -/
def decExpNeg : Nat → Nat → Nat → Nat → Int
  | 0, _, _, j => -(j : Int)
  | fuel + 1, n, d, j => if d ≤ n * 10 ^ j then -(j : Int) else decExpNeg fuel n d (j + 1)
/-- See `decExpNeg`. -/
def decExp (n d : Nat) : Int :=
  if d ≤ n then ((natStr (n / d)).length : Int) - 1 else decExpNeg 400 n d 1

/-- Nearest `k`-digit decimal `D * 10^s` of `n/d` with decimal exponent `p`: the digits and the position of the point. -/
def nearDec (n d : Nat) (p : Int) (k : Nat) : Nat × Int :=
  let s : Int := p - k + 1
  let D := if s < 0 then roundDiv (n * 10 ^ (-s).toNat) d else roundDiv n (d * 10 ^ s.toNat)
  if D = 10 ^ k then (10 ^ (k - 1), p + 1) else (D, p)

/-- The double denoted by a `k`-digit decimal with leading-digit exponent `p`. -/
def ofDec (neg : Bool) (D : Nat) (p : Int) (k : Nat) : F64 :=
  let s : Int := p - k + 1
  if s < 0 then ofRat neg D (10 ^ (-s).toNat) else ofRat neg (D * 10 ^ s.toNat) 1

/-- The `k`-digit decimal just above `n/d` (see `nearDec`). -/
def upDec (n d : Nat) (p : Int) (k : Nat) : Nat × Int :=
  let s : Int := p - k + 1
  let D := (if s < 0 then n * 10 ^ (-s).toNat / d else n / (d * 10 ^ s.toNat)) + 1
  if D = 10 ^ k then (10 ^ (k - 1), p + 1) else (D, p)

/-- Search for the shortest decimal that reads back as the double: digits, exponent of the leading digit. Of two decimals of
the same length the nearer one is taken; at powers of two, where the doubles above are farther apart than those below, it can be
the farther one that reads back. CPython uses David Gay's algorithm, which is specified by this result. -/
def shortest (neg : Bool) (m : Nat) (e : Int) : Nat → Nat → Nat × Int
  | 0, _ => (m, 0)
  | fuel + 1, k =>
    let n := num m e
    let d := den e
    let p := decExp n d
    let c := nearDec n d p k
    let u := upDec n d p k
    if ofDec neg c.1 c.2 k = .fin neg m e then c
    else if ofDec neg u.1 u.2 k = .fin neg m e then u
    else shortest neg m e fuel (k + 1)

/-- Drops trailing zeros of a digit string. -/
def stripZeros (s : Str) : Str := (s.reverse.dropWhile (· == '0')).reverse

/-- `repr(x)`, which is also `str(x)` and `f'{x}'`: fixed notation for exponents -4 … 15, scientific notation otherwise. -/
def repr : F64 → Str
  | .inf neg => if neg then k!"-inf" else k!"inf"
  | .fin neg m e =>
    let sign : Str := if neg then ['-'] else []
    if m = 0 then sign ++ k!"0.0"
    else
      let c := shortest neg m e 17 1
      let ds := stripZeros (natStr c.1)
      let decpt : Int := c.2 + 1
      if decpt ≤ -4 ∨ decpt > 16 then
        let x := c.2
        let mant : Str := match ds with
          | [] => []
          | [a] => [a]
          | a :: r => a :: '.' :: r
        let ex := natStr x.natAbs
        sign ++ mant ++ 'e' :: (if x < 0 then '-' else '+') :: (if ex.length < 2 then '0' :: ex else ex)
      else if decpt ≤ 0 then
        sign ++ k!"0." ++ List.replicate (-decpt).toNat '0' ++ ds
      else
        let n := decpt.toNat
        if ds.length ≤ n then sign ++ ds ++ List.replicate (n - ds.length) '0' ++ k!".0"
        else sign ++ ds.take n ++ '.' :: ds.drop n

/-- `f'{x:.{p}f}'`: the exact value rounded half-even to `p` decimals. -/
def fmtFixed (p : Nat) : F64 → Str
  | .inf neg => if neg then k!"-inf" else k!"inf"
  | .fin neg m e =>
    let sign : Str := if neg then ['-'] else []
    let N := roundDiv (num m e * 10 ^ p) (den e)
    let ds := natStr N
    let ds := List.replicate (p + 1 - ds.length) '0' ++ ds
    let n := ds.length - p
    if p = 0 then sign ++ ds else sign ++ ds.take n ++ '.' :: ds.drop n

end F64
end Kiutils
