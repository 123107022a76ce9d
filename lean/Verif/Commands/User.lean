import Verif.Commands.Base
/-!
# `/repo/pykickstart/commands/user.py`

Written by `scripts/gen_commands.py` from the text of that file; see there and
`Verif/Commands/Base.lean` for how a class is represented.
-/
namespace Ks.Cmd

/-- `commands/user.py:33-41` `__init__` -/
def FC6_UserData.init : Ns := [(c!"lineno", .int 0), (c!"groups", .list []), (c!"homedir", .str []), (c!"isCrypted", .bool false), (c!"name", .str []), (c!"password", .str []), (c!"shell", .str []), (c!"uid", .none)]
/-- `commands/user.py:61-84` `_getArgsAsStr` -/
def FC6_UserData.args : Out :=
  [(.tru c!"groups", [.lit c!" --groups=", .join c!"," c!"groups"]),
    (.tru c!"homedir", [.lit c!" --homedir=", .fld c!"homedir"]),
    (.tru c!"name", [.lit c!" --name=", .fld c!"name"]),
    (.and (.tru c!"password") (.contains c!"password" '#'), [.lit c!" --password=\"", .fld c!"password", .lit c!"\""]),
    (.and (.tru c!"password") (.not (.contains c!"password" '#')), [.lit c!" --password=", .fld c!"password"]),
    (.tru c!"isCrypted", [.lit c!" --iscrypted"]),
    (.tru c!"shell", [.lit c!" --shell=", .fld c!"shell"]),
    (.tru c!"uid", [.lit c!" --uid=", .fld c!"uid"])]
/-- `commands/user.py:52-59` `__str__` -/
def FC6_UserData.strOut (args : Out) : Out :=
  [(Out.anyCond args, [.lit c!"user"])] ++
    Out.guard (Out.anyCond args) args ++
    [(Out.anyCond args, [.lit c!"\n"])]
/-- `commands/user.py:43-47` `__eq__` -/
def FC6_UserData.eq : Ns → Ns → Bool := sameAttrs [c!"name"]
/-- `commands/user.py:29-84` -/
def FC6_UserData.cls : DataCls := { init := FC6_UserData.init, str := (FC6_UserData.strOut FC6_UserData.args).render, eq := FC6_UserData.eq }

/-- `commands/user.py:90-92` `__init__` -/
def F8_UserData.init : Ns := Ns.updated FC6_UserData.init [(c!"lock", .bool false)]
/-- `commands/user.py:94-100` `_getArgsAsStr` -/
def F8_UserData.args : Out :=
  FC6_UserData.args ++
    [(.tru c!"lock", [.lit c!" --lock"])]
/-- `commands/user.py:86-100` -/
def F8_UserData.cls : DataCls := { init := F8_UserData.init, str := (FC6_UserData.strOut F8_UserData.args).render, eq := FC6_UserData.eq }

/-- `commands/user.py:106-108` `__init__` -/
def F12_UserData.init : Ns := Ns.updated F8_UserData.init [(c!"gecos", .str [])]
/-- `commands/user.py:110-116` `_getArgsAsStr` -/
def F12_UserData.args : Out :=
  F8_UserData.args ++
    [(.tru c!"gecos", [.lit c!" --gecos=\"", .fld c!"gecos", .lit c!"\""])]
/-- `commands/user.py:102-116` -/
def F12_UserData.cls : DataCls := { init := F12_UserData.init, str := (FC6_UserData.strOut F12_UserData.args).render, eq := FC6_UserData.eq }

/-- `commands/user.py:122-124` `__init__` -/
def F19_UserData.init : Ns := Ns.updated F12_UserData.init [(c!"gid", .none)]
/-- `commands/user.py:126-132` `_getArgsAsStr` -/
def F19_UserData.args : Out :=
  F12_UserData.args ++
    [(.tru c!"gid", [.lit c!" --gid=", .fld c!"gid"])]
/-- `commands/user.py:118-132` -/
def F19_UserData.cls : DataCls := { init := F19_UserData.init, str := (FC6_UserData.strOut F19_UserData.args).render, eq := FC6_UserData.eq }

/-- `commands/user.py:139-143` `__init__` -/
def FC6_User.init : Ns := []
/-- `commands/user.py:152-192` `_getParser` -/
def FC6_User.op : OptParser :=
  OptParser.empty
    |>.add { names := [c!"--groups"], ty := .comma }
    |>.add { names := [c!"--homedir"] }
    |>.add { names := [c!"--iscrypted"], dest := some c!"isCrypted", kind := .storeConst, nargs := .n 0, const := .bool true, default := some (.bool false) }
    |>.add { names := [c!"--name"], required := true }
    |>.add { names := [c!"--password"] }
    |>.add { names := [c!"--shell"] }
    |>.add { names := [c!"--uid"], ty := .int }
/-- `commands/user.py:194-204` `parse` -/
def FC6_User.parse (k : Info) (args : List Str) : M Ns := do
  let ud := k.dc.init
  let ns ← M.parseArgs k.op args
  let ud := setToObj ns ud
  let x1 ← M.lineno
  let ud := ud.set c!"lineno" (Val.int x1)
  let x2 ← M.dataList
  M.when (x2.any (fun d => k.dc.eq d ud)) (do
    M.warn (.parse c!"A user with the name %s has already been defined."))
  return ud
/-- `commands/user.py:135-211` -/
def FC6_User.info (dc : DataCls) : Info := { dc := dc, op := FC6_User.op }
/-- `commands/user.py:135-211` -/
def FC6_User.cls (dc : DataCls) : Command := listCmd c!"FC6_User" (some 0) FC6_User.init dc (FC6_User.parse (FC6_User.info dc)) (listStr)

/-- `commands/user.py:213-228`: `__init__` is inherited. -/
def F8_User.init : Ns := FC6_User.init
/-- `commands/user.py:217-228` `_getParser` -/
def F8_User.op : OptParser :=
  FC6_User.op
    |>.add { names := [c!"--lock"], kind := .storeConst, nargs := .n 0, const := .bool true, default := some (.bool false) }
    |>.add { names := [c!"--plaintext"], dest := some c!"isCrypted", kind := .storeConst, nargs := .n 0, const := .bool false, default := some (.bool true) }
/-- `commands/user.py:213-228` -/
def F8_User.info (dc : DataCls) : Info := { dc := dc, op := F8_User.op }
/-- `commands/user.py:213-228` -/
def F8_User.cls (dc : DataCls) : Command := listCmd c!"F8_User" (some 0) F8_User.init dc (FC6_User.parse (F8_User.info dc)) (listStr)

/-- `commands/user.py:230-242`: `__init__` is inherited. -/
def F12_User.init : Ns := F8_User.init
/-- `commands/user.py:234-242` `_getParser` -/
def F12_User.op : OptParser :=
  F8_User.op
    |>.add { names := [c!"--gecos"] }
/-- `commands/user.py:230-242` -/
def F12_User.info (dc : DataCls) : Info := { dc := dc, op := F12_User.op }
/-- `commands/user.py:230-242` -/
def F12_User.cls (dc : DataCls) : Command := listCmd c!"F12_User" (some 0) F12_User.init dc (FC6_User.parse (F12_User.info dc)) (listStr)

/-- `commands/user.py:244-253`: `__init__` is inherited. -/
def F19_User.init : Ns := F12_User.init
/-- `commands/user.py:248-253` `_getParser` -/
def F19_User.op : OptParser :=
  F12_User.op
    |>.add { names := [c!"--gid"], ty := .int }
/-- `commands/user.py:244-253` -/
def F19_User.info (dc : DataCls) : Info := { dc := dc, op := F19_User.op }
/-- `commands/user.py:244-253` -/
def F19_User.cls (dc : DataCls) : Command := listCmd c!"F19_User" (some 0) F19_User.init dc (FC6_User.parse (F19_User.info dc)) (listStr)

/-- `commands/user.py:255-264`: `__init__` is inherited. -/
def F24_User.init : Ns := F19_User.init
/-- `commands/user.py:259-264` `_getParser` -/
def F24_User.op : OptParser :=
  F19_User.op
    |>.add { names := [c!"--groups"], ty := .comma }
/-- `commands/user.py:255-264` -/
def F24_User.info (dc : DataCls) : Info := { dc := dc, op := F24_User.op }
/-- `commands/user.py:255-264` -/
def F24_User.cls (dc : DataCls) : Command := listCmd c!"F24_User" (some 0) F24_User.init dc (FC6_User.parse (F24_User.info dc)) (listStr)

end Ks.Cmd
