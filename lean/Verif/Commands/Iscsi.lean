import Verif.Commands.Base
/-!
# `/repo/pykickstart/commands/iscsi.py`

Written by `scripts/gen_commands.py` from the text of that file; see there and
`Verif/Commands/Base.lean` for how a class is represented.
-/
namespace Ks.Cmd

/-- `commands/iscsi.py:29-35` `__init__` -/
def FC6_IscsiData.init : Ns := [(c!"lineno", .int 0), (c!"ipaddr", .str []), (c!"port", .int 3260), (c!"target", .str []), (c!"user", .none), (c!"password", .none)]
/-- `commands/iscsi.py:37-51` `_getArgsAsStr` -/
def FC6_IscsiData.args : Out :=
  [(.tru c!"target", [.lit c!" --target=", .fld c!"target"]),
    (.tru c!"ipaddr", [.lit c!" --ipaddr=", .fld c!"ipaddr"]),
    (.not (.eq c!"port" (.int 3260)), [.lit c!" --port=", .fld c!"port"]),
    (.tru c!"user", [.lit c!" --user=", .fld c!"user"]),
    (.tru c!"password", [.lit c!" --password=", .fld c!"password"])]
/-- `commands/iscsi.py:53-56` `__str__` -/
def FC6_IscsiData.strOut (args : Out) : Out :=
  [(.tt, [.lit c!"iscsi"])] ++
    args ++
    [(.tt, [.lit c!"\n"])]
/-- `commands/iscsi.py:25-56` -/
def FC6_IscsiData.cls : DataCls := { init := FC6_IscsiData.init, str := (FC6_IscsiData.strOut FC6_IscsiData.args).render, eq := fun _ _ => false }

/-- `commands/iscsi.py:62-65` `__init__` -/
def F10_IscsiData.init : Ns := Ns.updated FC6_IscsiData.init [(c!"user_in", .none), (c!"password_in", .none)]
/-- `commands/iscsi.py:67-75` `_getArgsAsStr` -/
def F10_IscsiData.args : Out :=
  FC6_IscsiData.args ++
    [(.tru c!"user_in", [.lit c!" --reverse-user=", .fld c!"user_in"]),
    (.tru c!"password_in", [.lit c!" --reverse-password=", .fld c!"password_in"])]
/-- `commands/iscsi.py:58-75` -/
def F10_IscsiData.cls : DataCls := { init := F10_IscsiData.init, str := (FC6_IscsiData.strOut F10_IscsiData.args).render, eq := fun _ _ => false }

/-- `commands/iscsi.py:81-83` `__init__` -/
def RHEL6_IscsiData.init : Ns := Ns.updated F10_IscsiData.init [(c!"iface", .none)]
/-- `commands/iscsi.py:85-91` `_getArgsAsStr` -/
def RHEL6_IscsiData.args : Out :=
  F10_IscsiData.args ++
    [(.tru c!"iface", [.lit c!" --iface=", .fld c!"iface"])]
/-- `commands/iscsi.py:77-91` -/
def RHEL6_IscsiData.cls : DataCls := { init := RHEL6_IscsiData.init, str := (FC6_IscsiData.strOut RHEL6_IscsiData.args).render, eq := fun _ _ => false }

/-- `commands/iscsi.py:93-94`: `__init__` is inherited. -/
def F17_IscsiData.init : Ns := RHEL6_IscsiData.init
/-- `commands/iscsi.py:93-94` -/
def F17_IscsiData.cls : DataCls := { init := F17_IscsiData.init, str := (FC6_IscsiData.strOut RHEL6_IscsiData.args).render, eq := fun _ _ => false }

/-- `commands/iscsi.py:100-104` `__init__` -/
def FC6_Iscsi.init : Ns := []
/-- `commands/iscsi.py:113-148` `_getParser` -/
def FC6_Iscsi.op : OptParser :=
  OptParser.empty
    |>.add { names := [c!"--target"] }
    |>.add { names := [c!"--ipaddr"], required := true }
    |>.add { names := [c!"--port"], ty := .int }
    |>.add { names := [c!"--user"] }
    |>.add { names := [c!"--password"] }
/-- `commands/iscsi.py:150-155` `parse` -/
def FC6_Iscsi.parse (k : Info) (args : List Str) : M Ns := do
  let ns ← M.parseArgs k.op args
  let dd := k.dc.init
  let dd := setToObj ns dd
  let x1 ← M.lineno
  let dd := dd.set c!"lineno" (Val.int x1)
  return dd
/-- `commands/iscsi.py:96-162` -/
def FC6_Iscsi.info (dc : DataCls) : Info := { dc := dc, op := FC6_Iscsi.op }
/-- `commands/iscsi.py:96-162` -/
def FC6_Iscsi.cls (dc : DataCls) : Command := listCmd c!"FC6_Iscsi" (some 71) FC6_Iscsi.init dc (FC6_Iscsi.parse (FC6_Iscsi.info dc)) (listStr)

/-- `commands/iscsi.py:164-177`: `__init__` is inherited. -/
def F10_Iscsi.init : Ns := FC6_Iscsi.init
/-- `commands/iscsi.py:168-177` `_getParser` -/
def F10_Iscsi.op : OptParser :=
  FC6_Iscsi.op
    |>.add { names := [c!"--reverse-user"], dest := some c!"user_in" }
    |>.add { names := [c!"--reverse-password"], dest := some c!"password_in" }
/-- `commands/iscsi.py:164-177` -/
def F10_Iscsi.info (dc : DataCls) : Info := { dc := dc, op := F10_Iscsi.op }
/-- `commands/iscsi.py:164-177` -/
def F10_Iscsi.cls (dc : DataCls) : Command := listCmd c!"F10_Iscsi" (some 71) F10_Iscsi.init dc (FC6_Iscsi.parse (F10_Iscsi.info dc)) (listStr)

/-- `commands/iscsi.py:179-190`: `__init__` is inherited. -/
def RHEL6_Iscsi.init : Ns := F10_Iscsi.init
/-- `commands/iscsi.py:183-190` `_getParser` -/
def RHEL6_Iscsi.op : OptParser :=
  F10_Iscsi.op
    |>.add { names := [c!"--iface"] }
/-- `commands/iscsi.py:179-190` -/
def RHEL6_Iscsi.info (dc : DataCls) : Info := { dc := dc, op := RHEL6_Iscsi.op }
/-- `commands/iscsi.py:179-190` -/
def RHEL6_Iscsi.cls (dc : DataCls) : Command := listCmd c!"RHEL6_Iscsi" (some 71) RHEL6_Iscsi.init dc (FC6_Iscsi.parse (RHEL6_Iscsi.info dc)) (listStr)

/-- `commands/iscsi.py:192-204`: `__init__` is inherited. -/
def F17_Iscsi.init : Ns := RHEL6_Iscsi.init
/-- `commands/iscsi.py:193-204` `_getParser` -/
def F17_Iscsi.op : OptParser := RHEL6_Iscsi.op
/-- `commands/iscsi.py:192-204` -/
def F17_Iscsi.info (dc : DataCls) : Info := { dc := dc, op := F17_Iscsi.op }
/-- `commands/iscsi.py:192-204` -/
def F17_Iscsi.cls (dc : DataCls) : Command := listCmd c!"F17_Iscsi" (some 71) F17_Iscsi.init dc (FC6_Iscsi.parse (F17_Iscsi.info dc)) (listStr)

end Ks.Cmd
