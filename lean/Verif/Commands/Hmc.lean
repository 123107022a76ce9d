import Verif.Commands.Base
/-!
# `/repo/pykickstart/commands/hmc.py`

Written by `scripts/gen_commands.py` from the text of that file; see there and
`Verif/Commands/Base.lean` for how a class is represented.
-/
namespace Ks.Cmd

/-- `base.py:64-106` `__init__` -/
def RHEL7_Hmc.init : Ns := []
/-- `commands/hmc.py:39-42` `_getParser` -/
def RHEL7_Hmc.op : OptParser := OptParser.empty
/-- `commands/hmc.py:31-37` `__str__` -/
def RHEL7_Hmc.strOut : Out :=
  [(.tru c!"seen", [.lit c!"# Use installation media via SE/HMC\nhmc\n"])]
/-- `commands/hmc.py:44-49` `parse` -/
def RHEL7_Hmc.parse (_k : Info) (args : List Str) : M Unit := do
  M.failIf (!args.isEmpty) c!"Kickstart command %s does not take any arguments"
/-- `commands/hmc.py:27-49` -/
def RHEL7_Hmc.info : Info := { op := RHEL7_Hmc.op }
/-- `commands/hmc.py:27-49` -/
def RHEL7_Hmc.cls : Command := plainCmd c!"RHEL7_Hmc" (some 0) RHEL7_Hmc.init (RHEL7_Hmc.parse RHEL7_Hmc.info) (RHEL7_Hmc.strOut.render)

/-- `commands/hmc.py:51-52`: `__init__` is inherited. -/
def F28_Hmc.init : Ns := RHEL7_Hmc.init
/-- `commands/hmc.py:51-52` -/
def F28_Hmc.info : Info := { op := RHEL7_Hmc.op }
/-- `commands/hmc.py:51-52` -/
def F28_Hmc.cls : Command := plainCmd c!"F28_Hmc" (some 0) F28_Hmc.init (RHEL7_Hmc.parse F28_Hmc.info) (RHEL7_Hmc.strOut.render)

end Ks.Cmd
