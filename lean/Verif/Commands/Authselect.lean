import Verif.Commands.Base
/-!
# `/repo/pykickstart/commands/authselect.py`

Written by `scripts/gen_commands.py` from the text of that file; see there and
`Verif/Commands/Base.lean` for how a class is represented.
-/
namespace Ks.Cmd

/-- `commands/authselect.py:29-31` `__init__` -/
def F28_Authselect.init : Ns := [(c!"authselect", .str [])]
/-- `commands/authselect.py:45-56` `_getParser` -/
def F28_Authselect.op : OptParser :=
  OptParser.empty
    |>.add { names := [c!"options"] }
/-- `commands/authselect.py:33-39` `__str__` -/
def F28_Authselect.strOut : Out :=
  [(.tru c!"authselect", [.lit c!"# System authorization information\nauthselect ", .fld c!"authselect", .lit c!"\n"])]
/-- `commands/authselect.py:41-43` `parse` -/
def F28_Authselect.parse (_k : Info) (_args : List Str) : M Unit := do
  let x1 ← M.currentLine
  let x2 ← M.currentCmd
  M.set c!"authselect" (Val.str (strip (x1.drop x2.length)))
/-- `commands/authselect.py:25-56` -/
def F28_Authselect.info : Info := { op := F28_Authselect.op }
/-- `commands/authselect.py:25-56` -/
def F28_Authselect.cls : Command := plainCmd c!"F28_Authselect" (some 0) F28_Authselect.init (F28_Authselect.parse F28_Authselect.info) (F28_Authselect.strOut.render)

end Ks.Cmd
