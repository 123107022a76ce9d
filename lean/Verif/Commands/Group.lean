import Verif.Commands.Base
/-!
# `/repo/pykickstart/commands/group.py`

Written by `scripts/gen_commands.py` from the text of that file; see there and
`Verif/Commands/Base.lean` for how a class is represented.
-/
namespace Ks.Cmd

/-- `commands/group.py:32-35` `__init__` -/
def F12_GroupData.init : Ns := [(c!"lineno", .int 0), (c!"name", .str []), (c!"gid", .none)]
/-- `commands/group.py:46-55` `__str__` -/
def F12_GroupData.strOut : Out :=
  [(.tt, [.lit c!"group"]),
    (.tru c!"name", [.lit c!" --name=", .fld c!"name"]),
    (.tru c!"gid", [.lit c!" --gid=", .fld c!"gid"]),
    (.tt, [.lit c!"\n"])]
/-- `commands/group.py:37-41` `__eq__` -/
def F12_GroupData.eq : Ns → Ns → Bool := sameAttrs [c!"name"]
/-- `commands/group.py:28-55` -/
def F12_GroupData.cls : DataCls := { init := F12_GroupData.init, str := F12_GroupData.strOut.render, eq := F12_GroupData.eq }

/-- `commands/group.py:61-65` `__init__` -/
def F12_Group.init : Ns := []
/-- `commands/group.py:74-85` `_getParser` -/
def F12_Group.op : OptParser :=
  OptParser.empty
    |>.add { names := [c!"--name"], required := true }
    |>.add { names := [c!"--gid"], ty := .int }
/-- `commands/group.py:87-97` `parse` -/
def F12_Group.parse (k : Info) (args : List Str) : M Ns := do
  let gd := k.dc.init
  let ns ← M.parseArgs k.op args
  let gd := setToObj ns gd
  let x1 ← M.lineno
  let gd := gd.set c!"lineno" (Val.int x1)
  let x2 ← M.dataList
  M.when (x2.any (fun d => k.dc.eq d gd)) (do
    M.warn (.parse c!"A group with the name %s has already been defined."))
  return gd
/-- `commands/group.py:57-104` -/
def F12_Group.info (dc : DataCls) : Info := { dc := dc, op := F12_Group.op }
/-- `commands/group.py:57-104` -/
def F12_Group.cls (dc : DataCls) : Command := listCmd c!"F12_Group" (some 0) F12_Group.init dc (F12_Group.parse (F12_Group.info dc)) (listStr)

end Ks.Cmd
