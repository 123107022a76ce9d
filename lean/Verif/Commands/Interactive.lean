import Verif.Commands.Base
/-!
# `/repo/pykickstart/commands/interactive.py`

Written by `scripts/gen_commands.py` from the text of that file; see there and
`Verif/Commands/Base.lean` for how a class is represented.
-/
namespace Ks.Cmd

/-- `commands/interactive.py:28-31` `__init__` -/
def FC3_Interactive.init : Ns := [(c!"interactive", .bool false)]
/-- `commands/interactive.py:41-44` `_getParser` -/
def FC3_Interactive.op : OptParser := OptParser.empty
/-- `commands/interactive.py:33-39` `__str__` -/
def FC3_Interactive.strOut : Out :=
  [(.tru c!"interactive", [.lit c!"# Use interactive kickstart installation method\ninteractive\n"])]
/-- `commands/interactive.py:46-49` `parse` -/
def FC3_Interactive.parse (k : Info) (args : List Str) : M Unit := do
  let _ ← M.parseArgs k.op args
  M.set c!"interactive" (Val.bool true)
/-- `commands/interactive.py:24-49` -/
def FC3_Interactive.info : Info := { op := FC3_Interactive.op }
/-- `commands/interactive.py:24-49` -/
def FC3_Interactive.cls : Command := plainCmd c!"FC3_Interactive" (some 0) FC3_Interactive.init (FC3_Interactive.parse FC3_Interactive.info) (FC3_Interactive.strOut.render)

/-- `commands/interactive.py:52-53` `__init__` -/
def F14_Interactive.init : Ns := []
/-- `commands/interactive.py:55-58` `_getParser` -/
def F14_Interactive.op : OptParser := FC3_Interactive.op
/-- `commands/interactive.py:51-58` -/
def F14_Interactive.cls : Command := deprecatedCmd c!"F14_Interactive" F14_Interactive.init

/-- `base.py:229-235` `__init__` -/
def F15_Interactive.init : Ns := []
/-- `commands/interactive.py:61-64` `_getParser` -/
def F15_Interactive.op : OptParser := F14_Interactive.op
/-- `commands/interactive.py:60-64` -/
def F15_Interactive.cls : Command := removedCmd c!"F15_Interactive" F15_Interactive.init

end Ks.Cmd
