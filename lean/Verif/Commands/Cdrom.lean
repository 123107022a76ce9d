import Verif.Commands.Base
/-!
# `/repo/pykickstart/commands/cdrom.py`

Written by `scripts/gen_commands.py` from the text of that file; see there and
`Verif/Commands/Base.lean` for how a class is represented.
-/
namespace Ks.Cmd

/-- `base.py:64-106` `__init__` -/
def FC3_Cdrom.init : Ns := []
/-- `commands/cdrom.py:45-48` `_getParser` -/
def FC3_Cdrom.op : OptParser := OptParser.empty
/-- `commands/cdrom.py:31-37` `__str__` -/
def FC3_Cdrom.strOut : Out :=
  [(.tru c!"seen", [.lit c!"# Use CDROM installation media\ncdrom\n"])]
/-- `commands/cdrom.py:39-43` `parse` -/
def FC3_Cdrom.parse (_k : Info) (args : List Str) : M Unit := do
  M.failIf (!args.isEmpty) c!"Kickstart command %s does not take any arguments"
/-- `commands/cdrom.py:27-48` -/
def FC3_Cdrom.info : Info := { op := FC3_Cdrom.op }
/-- `commands/cdrom.py:27-48` -/
def FC3_Cdrom.cls : Command := plainCmd c!"FC3_Cdrom" (some 0) FC3_Cdrom.init (FC3_Cdrom.parse FC3_Cdrom.info) (FC3_Cdrom.strOut.render)

end Ks.Cmd
