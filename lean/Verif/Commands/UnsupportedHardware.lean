import Verif.Commands.Base
/-!
# `/repo/pykickstart/commands/unsupported_hardware.py`

Written by `scripts/gen_commands.py` from the text of that file; see there and
`Verif/Commands/Base.lean` for how a class is represented.
-/
namespace Ks.Cmd

/-- `commands/unsupported_hardware.py:28-31` `__init__` -/
def RHEL6_UnsupportedHardware.init : Ns := [(c!"unsupported_hardware", .bool false)]
/-- `commands/unsupported_hardware.py:41-43` `_getParser` -/
def RHEL6_UnsupportedHardware.op : OptParser := OptParser.empty
/-- `commands/unsupported_hardware.py:33-39` `__str__` -/
def RHEL6_UnsupportedHardware.strOut : Out :=
  [(.tru c!"unsupported_hardware", [.lit c!"unsupported_hardware\n"])]
/-- `commands/unsupported_hardware.py:45-48` `parse` -/
def RHEL6_UnsupportedHardware.parse (k : Info) (args : List Str) : M Unit := do
  let _ ← M.parseArgs k.op args
  M.set c!"unsupported_hardware" (Val.bool true)
/-- `commands/unsupported_hardware.py:24-48` -/
def RHEL6_UnsupportedHardware.info : Info := { op := RHEL6_UnsupportedHardware.op }
/-- `commands/unsupported_hardware.py:24-48` -/
def RHEL6_UnsupportedHardware.cls : Command := plainCmd c!"RHEL6_UnsupportedHardware" (some 0) RHEL6_UnsupportedHardware.init (RHEL6_UnsupportedHardware.parse RHEL6_UnsupportedHardware.info) (RHEL6_UnsupportedHardware.strOut.render)

end Ks.Cmd
