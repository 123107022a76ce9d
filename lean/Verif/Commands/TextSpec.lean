import Verif.Commands.LineSpec
/-!
# What a command writes after its first line: how it is specified
-/
namespace Ks

/-- In these versions a first line with these arguments, which may contain a string, is accepted, and the command then
writes this text. -/
structure TextSpec where
  versions : Versions
  args : Str → List Str
  text : Str → Str

/-- What a command writes after its first lines. -/
structure CommandTexts where
  cmd : Str
  texts : List TextSpec

end Ks
