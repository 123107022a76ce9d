import Verif.Commands.Base
/-!
# `/repo/pykickstart/commands/dmraid.py`

Written by `scripts/gen_commands.py` from the text of that file; see there and
`Verif/Commands/Base.lean` for how a class is represented.
-/
namespace Ks.Cmd

/-- `commands/dmraid.py:33-38` `__init__` -/
def FC6_DmRaidData.init : Ns := [(c!"lineno", .int 0), (c!"name", .str []), (c!"devices", .list []), (c!"dmset", .none)]
/-- `commands/dmraid.py:49-56` `__str__` -/
def FC6_DmRaidData.strOut : Out :=
  [(.tt, [.lit c!"dmraid --name=", .fld c!"name", .each c!" --dev=\"" c!"devices" c!"\"", .lit c!"\n"])]
/-- `commands/dmraid.py:40-44` `__eq__` -/
def FC6_DmRaidData.eq : Ns → Ns → Bool := sameAttrs [c!"name", c!"devices"]
/-- `commands/dmraid.py:29-56` -/
def FC6_DmRaidData.cls : DataCls := { init := FC6_DmRaidData.init, str := FC6_DmRaidData.strOut.render, eq := FC6_DmRaidData.eq }

/-- `commands/dmraid.py:62-66` `__init__` -/
def FC6_DmRaid.init : Ns := []
/-- `commands/dmraid.py:75-80` `_getParser` -/
def FC6_DmRaid.op : OptParser :=
  OptParser.empty
    |>.add { names := [c!"--name"], required := true }
    |>.add { names := [c!"--dev"], dest := some c!"devices", kind := .append, required := true }
/-- `commands/dmraid.py:82-93` `parse` -/
def FC6_DmRaid.parse (k : Info) (args : List Str) : M Ns := do
  let dm := k.dc.init
  let ns ← M.parseArgs k.op args
  let dm := setToObj ns dm
  let x1 ← M.lift (Val.last ((dm.getD c!"name").split '/'))
  let dm := dm.set c!"name" (x1)
  let x2 ← M.lineno
  let dm := dm.set c!"lineno" (Val.int x2)
  let x3 ← M.dataList
  M.when (x3.any (fun d => k.dc.eq d dm)) (do
    M.warn (.parse c!"A DM RAID device with the name %(name)s and devices %(devices)s has already been defined."))
  return dm
/-- `commands/dmraid.py:58-100` -/
def FC6_DmRaid.info (dc : DataCls) : Info := { dc := dc, op := FC6_DmRaid.op }
/-- `commands/dmraid.py:58-100` -/
def FC6_DmRaid.cls (dc : DataCls) : Command := listCmd c!"FC6_DmRaid" (some 60) FC6_DmRaid.init dc (FC6_DmRaid.parse (FC6_DmRaid.info dc)) (listStr)

/-- `commands/dmraid.py:103-104` `__init__` -/
def F24_DmRaid.init : Ns := []
/-- `commands/dmraid.py:106-109` `_getParser` -/
def F24_DmRaid.op : OptParser := FC6_DmRaid.op
/-- `commands/dmraid.py:102-109` -/
def F24_DmRaid.cls : Command := deprecatedCmd c!"F24_DmRaid" F24_DmRaid.init

/-- `base.py:229-235` `__init__` -/
def F34_DmRaid.init : Ns := []
/-- `commands/dmraid.py:112-115` `_getParser` -/
def F34_DmRaid.op : OptParser := F24_DmRaid.op
/-- `commands/dmraid.py:111-115` -/
def F34_DmRaid.cls : Command := removedCmd c!"F34_DmRaid" F34_DmRaid.init

end Ks.Cmd
