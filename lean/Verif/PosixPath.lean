import Verif.PyStr
/-!
# `os.path` functions used by pykickstart (CPython 3.11 `Lib/posixpath.py`)
-/
namespace Ks

/-- The component loop of `posixpath.normpath` (`Lib/posixpath.py:340-360`):
`new_comps` is kept reversed in `acc`. -/
def normComps (abs : Bool) : List Str → List Str → List Str
  | acc, [] => acc.reverse
  | acc, c :: cs =>
    if c = [] ∨ c = c!"." then normComps abs acc cs
    else if c ≠ c!".." ∨ (abs = false ∧ acc = []) ∨ (acc ≠ [] ∧ acc.head? = some c!"..") then
      normComps abs (c :: acc) cs
    else normComps abs acc.tail cs

/-- `posixpath.normpath` (called by `options.py:73`).  A path starting with exactly two
slashes keeps both (POSIX). -/
def normpath (p : Str) : Str :=
  if p = [] then c!"." else
  let initial : Nat :=
    if startsWith p c!"/" then
      if startsWith p c!"//" ∧ ¬ startsWith p c!"///" then 2 else 1
    else 0
  let comps := normComps (decide (initial ≠ 0)) [] (splitOn '/' p)
  let path := List.replicate initial '/' ++ joinWith c!"/" comps
  if path = [] then c!"." else path

/-- index just after the last `/`: `(head, tail)` with `head` ending in the last slash. -/
def splitLastSlash (p : Str) : Str × Str :=
  let r := p.reverse
  ((r.dropWhile (· ≠ '/')).reverse, (r.takeWhile (· ≠ '/')).reverse)

/-- `posixpath.dirname` (`parser.py:818`). -/
def dirname (p : Str) : Str :=
  let head := (splitLastSlash p).1
  if head ≠ [] ∧ ¬ head.all (· = '/') then (head.reverse.dropWhile (· = '/')).reverse
  else head

/-- `posixpath.join(a, b)` (`parser.py:815-816`). -/
def pathJoin (a b : Str) : Str :=
  if startsWith b c!"/" then b
  else if a = [] ∨ endsWith a c!"/" then a ++ b
  else a ++ c!"/" ++ b

/-- `posixpath.abspath` with the current directory as a parameter (`parser.py:820`). -/
def abspath (cwd p : Str) : Str :=
  normpath (if startsWith p c!"/" then p else pathJoin cwd p)

end Ks
