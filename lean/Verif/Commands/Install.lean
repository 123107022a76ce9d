import Verif.Commands.Upgrade
/-!
# `/repo/pykickstart/commands/install.py`

Written by `scripts/gen_commands.py` from the text of that file; see there and
`Verif/Commands/Base.lean` for how a class is represented.
-/
namespace Ks.Cmd

/-- `commands/install.py:25-56`: `__init__` is inherited. -/
def F20_Install.init : Ns := F11_Upgrade.init
/-- `commands/install.py:34-49` `_getParser` -/
def F20_Install.op : OptParser := F11_Upgrade.op
/-- `commands/install.py:51-56` `parse` -/
def F20_Install.parse (k : Info) (args : List Str) : M Unit := do
  F11_Upgrade.parse k args
  M.set c!"upgrade" (Val.bool false)
/-- `commands/install.py:25-56` -/
def F20_Install.info : Info := { op := F20_Install.op }
/-- `commands/install.py:25-56` -/
def F20_Install.cls : Command := plainCmd c!"F20_Install" (some 0) F20_Install.init (F20_Install.parse F20_Install.info) (F11_Upgrade.strOut.render)

/-- `commands/install.py:60-61` `__init__` -/
def F29_Install.init : Ns := []
/-- `commands/install.py:63-66` `_getParser` -/
def F29_Install.op : OptParser := F20_Install.op
/-- `commands/install.py:59-66` -/
def F29_Install.cls : Command := deprecatedCmd c!"F29_Install" F29_Install.init

/-- `base.py:229-235` `__init__` -/
def F34_Install.init : Ns := []
/-- `commands/install.py:70-73` `_getParser` -/
def F34_Install.op : OptParser := F29_Install.op
/-- `commands/install.py:69-73` -/
def F34_Install.cls : Command := removedCmd c!"F34_Install" F34_Install.init

end Ks.Cmd
