import Verif.Commands.Base
/-!
# `/repo/pykickstart/commands/deviceprobe.py`

Written by `scripts/gen_commands.py` from the text of that file; see there and
`Verif/Commands/Base.lean` for how a class is represented.
-/
namespace Ks.Cmd

/-- `commands/deviceprobe.py:29-31` `__init__` -/
def FC3_DeviceProbe.init : Ns := [(c!"deviceprobe", .str [])]
/-- `commands/deviceprobe.py:45-46` `_getParser` -/
def FC3_DeviceProbe.op : OptParser := OptParser.empty
/-- `commands/deviceprobe.py:33-39` `__str__` -/
def FC3_DeviceProbe.strOut : Out :=
  [(.tru c!"deviceprobe", [.lit c!"deviceprobe ", .fld c!"deviceprobe", .lit c!"\n"])]
/-- `commands/deviceprobe.py:41-43` `parse` -/
def FC3_DeviceProbe.parse (_k : Info) (args : List Str) : M Unit := do
  M.set c!"deviceprobe" (Val.str (joinWith c!" " args))
/-- `commands/deviceprobe.py:25-46` -/
def FC3_DeviceProbe.info : Info := { op := FC3_DeviceProbe.op }
/-- `commands/deviceprobe.py:25-46` -/
def FC3_DeviceProbe.cls : Command := plainCmd c!"FC3_DeviceProbe" (some 0) FC3_DeviceProbe.init (FC3_DeviceProbe.parse FC3_DeviceProbe.info) (FC3_DeviceProbe.strOut.render)

/-- `commands/deviceprobe.py:51-52` `__init__` -/
def F29_DeviceProbe.init : Ns := []
/-- `commands/deviceprobe.py:54-57` `_getParser` -/
def F29_DeviceProbe.op : OptParser := FC3_DeviceProbe.op
/-- `commands/deviceprobe.py:49-57` -/
def F29_DeviceProbe.cls : Command := deprecatedCmd c!"F29_DeviceProbe" F29_DeviceProbe.init

/-- `base.py:229-235` `__init__` -/
def F34_DeviceProbe.init : Ns := []
/-- `commands/deviceprobe.py:60-63` `_getParser` -/
def F34_DeviceProbe.op : OptParser := F29_DeviceProbe.op
/-- `commands/deviceprobe.py:59-63` -/
def F34_DeviceProbe.cls : Command := removedCmd c!"F34_DeviceProbe" F34_DeviceProbe.init

end Ks.Cmd
