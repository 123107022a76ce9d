import Verif.Commands.Base
/-!
# `/repo/pykickstart/commands/device.py`

Written by `scripts/gen_commands.py` from the text of that file; see there and
`Verif/Commands/Base.lean` for how a class is represented.
-/
namespace Ks.Cmd

/-- `commands/device.py:32-35` `__init__` -/
def F8_DeviceData.init : Ns := [(c!"lineno", .int 0), (c!"moduleName", .str []), (c!"moduleOpts", .str [])]
/-- `commands/device.py:46-55` `__str__` -/
def F8_DeviceData.strOut : Out :=
  [(.tru c!"moduleName", [.lit c!"device ", .fld c!"moduleName"]),
    (.and (.tru c!"moduleName") (.tru c!"moduleOpts"), [.lit c!" --opts=\"", .fld c!"moduleOpts", .lit c!"\""]),
    (.tt, [.lit c!"\n"])]
/-- `commands/device.py:37-41` `__eq__` -/
def F8_DeviceData.eq : Ns → Ns → Bool := sameAttrs [c!"moduleName"]
/-- `commands/device.py:28-55` -/
def F8_DeviceData.cls : DataCls := { init := F8_DeviceData.init, str := F8_DeviceData.strOut.render, eq := F8_DeviceData.eq }

/-- `commands/device.py:61-67` `__init__` -/
def FC3_Device.init : Ns := [(c!"type", .str []), (c!"moduleName", .str []), (c!"moduleOpts", .str [])]
/-- `commands/device.py:89-109` `_getParser` -/
def FC3_Device.op : OptParser :=
  OptParser.empty
    |>.add { names := [c!"--opts"], dest := some c!"moduleOpts", default := some (.str []) }
/-- `commands/device.py:78-87` `__str__` -/
def FC3_Device.strOut : Out :=
  [(.tru c!"moduleName", [.lit c!"device ", .fld c!"type", .lit c!" ", .fld c!"moduleName"]),
    (.and (.tru c!"moduleName") (.tru c!"moduleOpts"), [.lit c!" --opts=\"", .fld c!"moduleOpts", .lit c!"\""]),
    (.tt, [.lit c!"\n"])]
/-- `commands/device.py:111-123` `parse` -/
def FC3_Device.parse (k : Info) (args : List Str) : M Unit := do
  let r ← M.parseKnown k.op args
  let ns := r.1
  let extra := r.2
  M.failIf (decide (extra.length ≠ 2)) c!"device command requires two arguments: module type and name"
  M.failIf (extra.any (fun arg => startsWith arg c!"-")) c!"Unexpected arguments to %(command)s command: %(options)s"
  M.set c!"moduleOpts" (ns.getD c!"moduleOpts")
  let x1 ← M.lift ((Val.list extra).index 0)
  M.set c!"type" (x1)
  let x2 ← M.lift ((Val.list extra).index 1)
  M.set c!"moduleName" (x2)
/-- `commands/device.py:57-123` -/
def FC3_Device.info : Info := { op := FC3_Device.op }
/-- `commands/device.py:57-123` -/
def FC3_Device.cls : Command := plainCmd c!"FC3_Device" (some 0) FC3_Device.init (FC3_Device.parse FC3_Device.info) (FC3_Device.strOut.render)

/-- `commands/device.py:129-131` `__init__` -/
def F8_Device.init : Ns := FC3_Device.init
/-- `commands/device.py:140-158` `parse` -/
def F8_Device.parse (k : Info) (args : List Str) : M Ns := do
  let r ← M.parseKnown k.op args
  let ns := r.1
  let extra := r.2
  M.failIf (decide (extra.length ≠ 1)) c!"%(command)s command requires a single argument: %(argument)s"
  M.failIf (extra.any (fun arg => startsWith arg c!"-")) c!"Unexpected arguments to %(command)s command: %(options)s"
  let dd := k.dc.init
  let dd := setToObj ns dd
  let x1 ← M.lineno
  let dd := dd.set c!"lineno" (Val.int x1)
  let x2 ← M.lift ((Val.list extra).index 0)
  let dd := dd.set c!"moduleName" (x2)
  let x3 ← M.dataList
  M.when (x3.any (fun d => k.dc.eq d dd)) (do
    M.warn (.parse c!"A module with the name %s has already been defined."))
  return dd
/-- `commands/device.py:125-165` -/
def F8_Device.info (dc : DataCls) : Info := { dc := dc, op := FC3_Device.op }
/-- `commands/device.py:125-165` -/
def F8_Device.cls (dc : DataCls) : Command := listCmd c!"F8_Device" (some 0) F8_Device.init dc (F8_Device.parse (F8_Device.info dc)) (listStr)

/-- `commands/device.py:168-169` `__init__` -/
def F24_Device.init : Ns := []
/-- `commands/device.py:171-174` `_getParser` -/
def F24_Device.op : OptParser := FC3_Device.op
/-- `commands/device.py:167-174` -/
def F24_Device.cls : Command := deprecatedCmd c!"F24_Device" F24_Device.init

/-- `base.py:229-235` `__init__` -/
def F34_Device.init : Ns := []
/-- `commands/device.py:177-180` `_getParser` -/
def F34_Device.op : OptParser := F24_Device.op
/-- `commands/device.py:176-180` -/
def F34_Device.cls : Command := removedCmd c!"F34_Device" F34_Device.init

end Ks.Cmd
