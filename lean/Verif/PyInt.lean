import Verif.PyStr
/-!
# Python's `int(str)`

Used through argparse `type=int` (e.g. `/repo/pykickstart/sections.py:671`) and by
`/repo/pykickstart/version.py:196`.  Simplification: only ASCII digits are recognised
(CPython also accepts other Unicode decimal digits).
-/
namespace Ks

/-- Numeric value of an ASCII digit. -/
def digitVal (c : Char) : Nat := c.toNat - 48

/-- Rest of a base-10 literal after its first digit; a single `_` may separate digits. -/
def intDigits (acc : Nat) : Str → Option Nat
  | [] => some acc
  | c :: t =>
    if isDigit c then intDigits (acc * 10 + digitVal c) t
    else if c = '_' then
      match t with
      | d :: t' => if isDigit d then intDigits (acc * 10 + digitVal d) t' else none
      | [] => none
    else none

/-- Unsigned base-10 literal. -/
def natLit : Str → Option Nat
  | c :: t => if isDigit c then intDigits (digitVal c) t else none
  | [] => none

/-- Blanks `int()` ignores around the number: `str.isspace` except U+001C-U+001F. -/
def intSpace (c : Char) : Bool := isSpace c && !(28 ≤ c.toNat && c.toNat ≤ 31)

/-- The text `int()` looks at. -/
def intStrip (s : Str) : Str := ((s.dropWhile intSpace).reverse.dropWhile intSpace).reverse

/-- `int(s)`; `none` is `ValueError`. -/
def pyInt (s : Str) : Option Int :=
  match intStrip s with
  | '-' :: r => (natLit r).map (fun n => -(n : Int))
  | '+' :: r => (natLit r).map (fun n => (n : Int))
  | r => (natLit r).map (fun n => (n : Int))

end Ks
