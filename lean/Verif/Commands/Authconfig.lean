import Verif.Commands.Base
/-!
# `/repo/pykickstart/commands/authconfig.py`

Written by `scripts/gen_commands.py` from the text of that file; see there and
`Verif/Commands/Base.lean` for how a class is represented.
-/
namespace Ks.Cmd

/-- `commands/authconfig.py:33-35` `__init__` -/
def FC3_Authconfig.init : Ns := [(c!"authconfig", .str [])]
/-- `commands/authconfig.py:49-62` `_getParser` -/
def FC3_Authconfig.op : OptParser :=
  OptParser.empty
    |>.add { names := [c!"options"] }
/-- `commands/authconfig.py:37-43` `__str__` -/
def FC3_Authconfig.strOut : Out :=
  [(.tru c!"authconfig", [.lit c!"# System authorization information\nauth ", .fld c!"authconfig", .lit c!"\n"])]
/-- `commands/authconfig.py:45-47` `parse` -/
def FC3_Authconfig.parse (_k : Info) (_args : List Str) : M Unit := do
  let x1 ← M.currentLine
  let x2 ← M.currentCmd
  M.set c!"authconfig" (Val.str (strip (x1.drop x2.length)))
/-- `commands/authconfig.py:29-62` -/
def FC3_Authconfig.info : Info := { op := FC3_Authconfig.op }
/-- `commands/authconfig.py:29-62` -/
def FC3_Authconfig.cls : Command := plainCmd c!"FC3_Authconfig" (some 0) FC3_Authconfig.init (FC3_Authconfig.parse FC3_Authconfig.info) (FC3_Authconfig.strOut.render)

/-- `commands/authconfig.py:65-86`: `__init__` is inherited. -/
def F28_Authconfig.init : Ns := FC3_Authconfig.init
/-- `commands/authconfig.py:75-86` `_getParser` -/
def F28_Authconfig.op : OptParser := FC3_Authconfig.op
/-- `commands/authconfig.py:69-73` `parse` -/
def F28_Authconfig.parse (k : Info) (args : List Str) : M Unit := do
  M.warn (.deprecation c!"The authconfig command will be deprecated, use authselect instead.")
  FC3_Authconfig.parse k args
/-- `commands/authconfig.py:65-86` -/
def F28_Authconfig.info : Info := { op := F28_Authconfig.op }
/-- `commands/authconfig.py:65-86` -/
def F28_Authconfig.cls : Command := plainCmd c!"F28_Authconfig" (some 0) F28_Authconfig.init (F28_Authconfig.parse F28_Authconfig.info) (FC3_Authconfig.strOut.render)

end Ks.Cmd
