import Verif.Commands.Base
/-!
# What the first line of a command does: how it is specified
-/
namespace Ks

/-- A set of versions, as ranges of version numbers that contain their ends. -/
abbrev Versions := List (Nat × Nat)

/-- The version is in one of the ranges. -/
def Versions.has (vs : Versions) (v : Nat) : Bool := vs.any fun r => decide (r.1 ≤ v) && decide (v ≤ r.2)

/-- Arguments, which may contain a string, that are written after the arguments of a base line, and the attributes
that they give values to, or `none` if the line is refused. -/
structure LineSpec where
  versions : Versions
  args : Str → List Str
  sets : Option (Str → List (Str × Val))

/-- An option without a value. -/
def flag (versions : Versions) (o : Str) (k : Str) (v : Val) : LineSpec := ⟨versions, fun _ => [o], some fun _ => [(k, v)]⟩

/-- An option whose value is stored as it is. -/
def text (versions : Versions) (o : Str) (k : Str) : LineSpec := ⟨versions, fun x => [o ++ c!"=" ++ x], some fun x => [(k, .str x)]⟩

/-- An option whose value is a list with commas. -/
def items (versions : Versions) (o : Str) (k : Str) : LineSpec := ⟨versions, fun x => [o ++ c!"=" ++ x], some fun x => [(k, .list (commaSplit x))]⟩

/-- Fixed arguments. -/
def fixed (versions : Versions) (args : List Str) (sets : List (Str × Val)) : LineSpec := ⟨versions, fun _ => args, some fun _ => sets⟩

/-- Fixed arguments that are refused. -/
def wrong (versions : Versions) (args : List Str) : LineSpec := ⟨versions, fun _ => args, none⟩

/-- The lines of a command that begin with the arguments `base`: the attributes that the base line alone gives values
to, and what further arguments do. -/
structure CommandLines where
  cmd : Str
  base : List Str
  start : List (Versions × List (Str × Val))
  lines : List LineSpec

/-- The attributes with new values, one after the other. -/
def assigned (l : List (Str × Val)) (ns : Ns) : Ns := l.foldl (fun n x => n.set x.1 x.2) ns

end Ks
