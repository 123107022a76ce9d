import Verif.Commands.Base
/-!
# `/repo/pykickstart/commands/fcoe.py`

Written by `scripts/gen_commands.py` from the text of that file; see there and
`Verif/Commands/Base.lean` for how a class is represented.
-/
namespace Ks.Cmd

/-- `commands/fcoe.py:32-34` `__init__` -/
def F12_FcoeData.init : Ns := [(c!"lineno", .int 0), (c!"nic", .none)]
/-- `commands/fcoe.py:45-51` `_getArgsAsStr` -/
def F12_FcoeData.args : Out :=
  [(.tru c!"nic", [.lit c!" --nic=", .fld c!"nic"])]
/-- `commands/fcoe.py:53-56` `__str__` -/
def F12_FcoeData.strOut (args : Out) : Out :=
  [(.tt, [.lit c!"fcoe"])] ++
    args ++
    [(.tt, [.lit c!"\n"])]
/-- `commands/fcoe.py:36-40` `__eq__` -/
def F12_FcoeData.eq : Ns → Ns → Bool := sameAttrs [c!"nic"]
/-- `commands/fcoe.py:28-56` -/
def F12_FcoeData.cls : DataCls := { init := F12_FcoeData.init, str := (F12_FcoeData.strOut F12_FcoeData.args).render, eq := F12_FcoeData.eq }

/-- `commands/fcoe.py:62-64` `__init__` -/
def F13_FcoeData.init : Ns := Ns.updated F12_FcoeData.init [(c!"dcb", .bool false)]
/-- `commands/fcoe.py:66-72` `_getArgsAsStr` -/
def F13_FcoeData.args : Out :=
  F12_FcoeData.args ++
    [(.tru c!"dcb", [.lit c!" --dcb"])]
/-- `commands/fcoe.py:58-72` -/
def F13_FcoeData.cls : DataCls := { init := F13_FcoeData.init, str := (F12_FcoeData.strOut F13_FcoeData.args).render, eq := F12_FcoeData.eq }

/-- `commands/fcoe.py:78-80` `__init__` -/
def RHEL7_FcoeData.init : Ns := Ns.updated F13_FcoeData.init [(c!"autovlan", .bool false)]
/-- `commands/fcoe.py:82-88` `_getArgsAsStr` -/
def RHEL7_FcoeData.args : Out :=
  F13_FcoeData.args ++
    [(.tru c!"autovlan", [.lit c!" --autovlan"])]
/-- `commands/fcoe.py:74-88` -/
def RHEL7_FcoeData.cls : DataCls := { init := RHEL7_FcoeData.init, str := (F12_FcoeData.strOut RHEL7_FcoeData.args).render, eq := F12_FcoeData.eq }

/-- `commands/fcoe.py:94-96` `__init__` -/
def F28_FcoeData.init : Ns := Ns.updated F13_FcoeData.init [(c!"autovlan", .bool false)]
/-- `commands/fcoe.py:98-104` `_getArgsAsStr` -/
def F28_FcoeData.args : Out :=
  F13_FcoeData.args ++
    [(.tru c!"autovlan", [.lit c!" --autovlan"])]
/-- `commands/fcoe.py:90-104` -/
def F28_FcoeData.cls : DataCls := { init := F28_FcoeData.init, str := (F12_FcoeData.strOut F28_FcoeData.args).render, eq := F12_FcoeData.eq }

/-- `commands/fcoe.py:106-107`: `__init__` is inherited. -/
def RHEL8_FcoeData.init : Ns := F28_FcoeData.init
/-- `commands/fcoe.py:106-107` -/
def RHEL8_FcoeData.cls : DataCls := { init := RHEL8_FcoeData.init, str := (F12_FcoeData.strOut F28_FcoeData.args).render, eq := F12_FcoeData.eq }

/-- `commands/fcoe.py:113-116` `__init__` -/
def F12_Fcoe.init : Ns := []
/-- `commands/fcoe.py:125-132` `_getParser` -/
def F12_Fcoe.op : OptParser :=
  OptParser.empty
    |>.add { names := [c!"--nic"], required := true }
/-- `commands/fcoe.py:134-145` `parse` -/
def F12_Fcoe.parse (k : Info) (args : List Str) : M Ns := do
  let zd := k.dc.init
  let ns ← M.parseArgs k.op args
  let zd := setToObj ns zd
  let x1 ← M.lineno
  let zd := zd.set c!"lineno" (Val.int x1)
  let x2 ← M.dataList
  M.when (x2.any (fun d => k.dc.eq d zd)) (do
    M.warn (.parse c!"A FCOE device with the name %s has already been defined."))
  return zd
/-- `commands/fcoe.py:109-152` -/
def F12_Fcoe.info (dc : DataCls) : Info := { dc := dc, op := F12_Fcoe.op }
/-- `commands/fcoe.py:109-152` -/
def F12_Fcoe.cls (dc : DataCls) : Command := listCmd c!"F12_Fcoe" (some 71) F12_Fcoe.init dc (F12_Fcoe.parse (F12_Fcoe.info dc)) (listStr)

/-- `commands/fcoe.py:154-167`: `__init__` is inherited. -/
def F13_Fcoe.init : Ns := F12_Fcoe.init
/-- `commands/fcoe.py:158-167` `_getParser` -/
def F13_Fcoe.op : OptParser :=
  F12_Fcoe.op
    |>.add { names := [c!"--dcb"], kind := .storeConst, nargs := .n 0, const := .bool true, default := some (.bool false) }
/-- `commands/fcoe.py:154-167` -/
def F13_Fcoe.info (dc : DataCls) : Info := { dc := dc, op := F13_Fcoe.op }
/-- `commands/fcoe.py:154-167` -/
def F13_Fcoe.cls (dc : DataCls) : Command := listCmd c!"F13_Fcoe" (some 71) F13_Fcoe.init dc (F12_Fcoe.parse (F13_Fcoe.info dc)) (listStr)

/-- `commands/fcoe.py:169-179`: `__init__` is inherited. -/
def RHEL7_Fcoe.init : Ns := F13_Fcoe.init
/-- `commands/fcoe.py:173-179` `_getParser` -/
def RHEL7_Fcoe.op : OptParser :=
  F13_Fcoe.op
    |>.add { names := [c!"--autovlan"], kind := .storeConst, nargs := .n 0, const := .bool true, default := some (.bool false) }
/-- `commands/fcoe.py:169-179` -/
def RHEL7_Fcoe.info (dc : DataCls) : Info := { dc := dc, op := RHEL7_Fcoe.op }
/-- `commands/fcoe.py:169-179` -/
def RHEL7_Fcoe.cls (dc : DataCls) : Command := listCmd c!"RHEL7_Fcoe" (some 71) RHEL7_Fcoe.init dc (F12_Fcoe.parse (RHEL7_Fcoe.info dc)) (listStr)

/-- `commands/fcoe.py:181-191`: `__init__` is inherited. -/
def F28_Fcoe.init : Ns := F13_Fcoe.init
/-- `commands/fcoe.py:185-191` `_getParser` -/
def F28_Fcoe.op : OptParser :=
  F13_Fcoe.op
    |>.add { names := [c!"--autovlan"], kind := .storeConst, nargs := .n 0, const := .bool true, default := some (.bool false) }
/-- `commands/fcoe.py:181-191` -/
def F28_Fcoe.info (dc : DataCls) : Info := { dc := dc, op := F28_Fcoe.op }
/-- `commands/fcoe.py:181-191` -/
def F28_Fcoe.cls (dc : DataCls) : Command := listCmd c!"F28_Fcoe" (some 71) F28_Fcoe.init dc (F12_Fcoe.parse (F28_Fcoe.info dc)) (listStr)

/-- `commands/fcoe.py:193-194`: `__init__` is inherited. -/
def RHEL8_Fcoe.init : Ns := F28_Fcoe.init
/-- `commands/fcoe.py:193-194` -/
def RHEL8_Fcoe.info (dc : DataCls) : Info := { dc := dc, op := F28_Fcoe.op }
/-- `commands/fcoe.py:193-194` -/
def RHEL8_Fcoe.cls (dc : DataCls) : Command := listCmd c!"RHEL8_Fcoe" (some 71) RHEL8_Fcoe.init dc (F12_Fcoe.parse (RHEL8_Fcoe.info dc)) (listStr)

end Ks.Cmd
