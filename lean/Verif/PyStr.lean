/-!
# Python `str` operations used by pykickstart

Strings are lists of Unicode scalar values.  Every function below mirrors one CPython
`str` method on that representation; the citation names the places in `/repo` that call it.
-/
namespace Ks

/-- A Python `str`. Lone surrogates (not representable by `Char`) are not modelled. -/
abbrev Str := List Char

/-- `c!"abc"` is the literal list of characters `['a','b','c']`. -/
syntax:max (name := charListLit) "c!" str : term
macro_rules
  | `(c! $s:str) => do
    let lits : List (Lean.TSyntax `term) :=
      s.getString.toList.map fun c => ⟨(Lean.Syntax.mkCharLit c).raw⟩
    let mut acc ← `(([] : List Char))
    for c in lits.reverse do
      acc ← `(List.cons $c $acc)
    return acc

deriving instance DecidableEq for Except

/-- `str.isspace` on one character: the complete CPython table (`Py_UNICODE_ISSPACE`). -/
def isSpace (c : Char) : Bool :=
  let n := c.toNat
  (9 ≤ n && n ≤ 13) || (28 ≤ n && n ≤ 32) || n == 0x85 || n == 0xa0 || n == 0x1680 ||
  (0x2000 ≤ n && n ≤ 0x200a) || n == 0x2028 || n == 0x2029 || n == 0x202f || n == 0x205f ||
  n == 0x3000

/-- Line boundaries of `str.splitlines` (CPython `Py_UNICODE_ISLINEBREAK`). -/
def isLineBreak (c : Char) : Bool :=
  let n := c.toNat
  (10 ≤ n && n ≤ 13) || (28 ≤ n && n ≤ 30) || n == 0x85 || n == 0x2028 || n == 0x2029

/-- `str.isspace()`: non-empty and all white space (parser.py:704). -/
def strIsSpace (s : Str) : Bool := !s.isEmpty && s.all isSpace

/-- `str.lstrip()`. -/
def lstrip (s : Str) : Str := s.dropWhile isSpace

/-- `str.rstrip()`. -/
def rstrip (s : Str) : Str := (s.reverse.dropWhile isSpace).reverse

/-- `str.strip()`. -/
def strip (s : Str) : Str := rstrip (lstrip s)

/-- `str.startswith(p)`. -/
def startsWith (s p : Str) : Bool := p.isPrefixOf s

/-- `str.endswith(p)`. -/
def endsWith (s p : Str) : Bool := p.isSuffixOf s

/-- `str.splitlines(True)` (parser.py:114,128,800; version.py:180). -/
def splitLines : Str → List Str
  | [] => []
  | [c] => [[c]]
  | c :: d :: t =>
    if c = '\r' ∧ d = '\n' then [c, d] :: splitLines t
    else if isLineBreak c then [c] :: splitLines (d :: t)
    else match splitLines (d :: t) with
      | [] => [[c]]
      | l :: ls => (c :: l) :: ls

/-- `str.split(sep)` for a one-character separator (options.py:58, parser.py:91). -/
def splitOn (sep : Char) : Str → List Str
  | [] => [[]]
  | c :: t =>
    if c = sep then [] :: splitOn sep t
    else match splitOn sep t with
      | [] => [[c]]
      | l :: ls => (c :: l) :: ls

/-- `str.split()`: maximal runs of non-white-space (parser.py:447,647). -/
def splitWs : Str → List Str
  | [] => []
  | c :: t =>
    if isSpace c then splitWs t
    else match t with
      | [] => [[c]]
      | d :: _ =>
        if isSpace d then [c] :: splitWs t
        else match splitWs t with
          | [] => [[c]]
          | w :: ws => (c :: w) :: ws

/-- `str.partition(sep)` for a one-character separator: (head, separator found?, tail). -/
def partition (sep : Char) : Str → Str × Bool × Str
  | [] => ([], false, [])
  | c :: t =>
    if c = sep then ([], true, t)
    else let (h, f, r) := partition sep t; (c :: h, f, r)

/-- `sep.join(parts)`. -/
def joinWith (sep : Str) : List Str → Str
  | [] => []
  | [x] => x
  | x :: y :: t => x ++ sep ++ joinWith sep (y :: t)

/-- ASCII part of `str.lower` on one character. -/
def lowerC (c : Char) : Char :=
  if 'A'.toNat ≤ c.toNat ∧ c.toNat ≤ 'Z'.toNat then Char.ofNat (c.toNat + 32) else c

/-- ASCII part of `str.upper` on one character. -/
def upperC (c : Char) : Char :=
  if 'a'.toNat ≤ c.toNat ∧ c.toNat ≤ 'z'.toNat then Char.ofNat (c.toNat - 32) else c

/-- `str.lower()`, ASCII letters only.  Simplification: other letters are left alone.  Every use in the
modelled code compares the result with ASCII literals, but a few letters outside ASCII (`İ`, `ı`, `ſ`, the
Kelvin sign) have ASCII letters as their lower or upper case: Python accepts some words with them that the
model refuses (see DESIGN.md). -/
def lower (s : Str) : Str := s.map lowerC

/-- `str.upper()`, ASCII letters only (same simplification). -/
def upper (s : Str) : Str := s.map upperC

/-- Python's `<` on `str` (code point order). -/
def strLt (a b : Str) : Bool := decide (a < b)

/-- Decimal digits of a natural number, most significant first. -/
def natDigits (n : Nat) : Str :=
  if h : n < 10 then [Char.ofNat (48 + n)]
  else natDigits (n / 10) ++ [Char.ofNat (48 + n % 10)]
termination_by n

/-- `"%d" % n` / `str(n)` for a Python int. -/
def intStr : Int → Str
  | .ofNat n => natDigits n
  | .negSucc n => '-' :: natDigits (n + 1)

/-- ASCII decimal digit. -/
def isDigit (c : Char) : Bool := 48 ≤ c.toNat && c.toNat ≤ 57

end Ks
