import Verif.Model.Footprint
/-!
# The default time stamp of footprints

The dataclass `Footprint` computes the default of `tedit` when the module is imported.
-/
namespace Kiutils

/-- `remove_prefix`, utils/strings.py 25–36 -/
def removePrefix (input pre : Str) : Str := if pre.isPrefixOf input then input.drop pre.length else input

/-- The hexadecimal digit of `d < 16`, in small letters. -/
def hexChar (d : Nat) : Char := if d < 10 then Char.ofNat (0x30 + d) else Char.ofNat (0x57 + d)

/-- Hexadecimal digits of `n`, with fuel (as `natStrAux`). -/
def hexAux : Nat → Nat → Str
  | 0, _ => []
  | fuel + 1, n => if n < 16 then [hexChar n] else hexAux fuel (n / 16) ++ [hexChar (n % 16)]

/-- Python's `hex(n)` -/
def pyHex (n : Int) : Str :=
  if n < 0 then '-' :: '0' :: 'x' :: hexAux (n.natAbs + 1) n.natAbs else '0' :: 'x' :: hexAux (n.natAbs + 1) n.natAbs

/-- The default of `Footprint.tedit`, footprint.py 729; `now` is `calendar.timegm(datetime.datetime.now().utctimetuple())`, the
seconds since 1970 of the local clock at the import of the module. -/
def Footprint.defaultTedit (now : Int) : Val := .str (removePrefix (pyHex now) k!"0x")

end Kiutils
