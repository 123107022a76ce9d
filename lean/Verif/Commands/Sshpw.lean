import Verif.Commands.Base
/-!
# `/repo/pykickstart/commands/sshpw.py`

Written by `scripts/gen_commands.py` from the text of that file; see there and
`Verif/Commands/Base.lean` for how a class is represented.
-/
namespace Ks.Cmd

/-- `commands/sshpw.py:32-37` `__init__` -/
def F13_SshPwData.init : Ns := [(c!"lineno", .int 0), (c!"username", .none), (c!"isCrypted", .bool false), (c!"password", .str []), (c!"lock", .bool false)]
/-- `commands/sshpw.py:56-68` `_getArgsAsStr` -/
def F13_SshPwData.args : Out :=
  [(.tt, [.lit c!" --username=", .fld c!"username"]),
    (.tru c!"lock", [.lit c!" --lock"]),
    (.tru c!"isCrypted", [.lit c!" --iscrypted"]),
    (.not (.tru c!"isCrypted"), [.lit c!" --plaintext"]),
    (.tt, [.lit c!" ", .fld c!"password"])]
/-- `commands/sshpw.py:48-54` `__str__` -/
def F13_SshPwData.strOut (args : Out) : Out :=
  [(.tt, [.lit c!"sshpw"])] ++
    args ++
    [(.tt, [.lit c!"\n"])]
/-- `commands/sshpw.py:39-43` `__eq__` -/
def F13_SshPwData.eq : Ns → Ns → Bool := sameAttrs [c!"username"]
/-- `commands/sshpw.py:28-68` -/
def F13_SshPwData.cls : DataCls := { init := F13_SshPwData.init, str := (F13_SshPwData.strOut F13_SshPwData.args).render, eq := F13_SshPwData.eq }

/-- `commands/sshpw.py:74-76` `__init__` -/
def F24_SshPwData.init : Ns := Ns.updated F13_SshPwData.init [(c!"sshkey", .bool false)]
/-- `commands/sshpw.py:78-93` `_getArgsAsStr` -/
def F24_SshPwData.args : Out :=
  [(.tt, [.lit c!" --username=", .fld c!"username"]),
    (.tru c!"sshkey", [.lit c!" --sshkey"]),
    (.and (.not (.tru c!"sshkey")) (.tru c!"lock"), [.lit c!" --lock"]),
    (.and (.not (.tru c!"sshkey")) (.tru c!"isCrypted"), [.lit c!" --iscrypted"]),
    (.and (.not (.tru c!"sshkey")) (.not (.tru c!"isCrypted")), [.lit c!" --plaintext"]),
    (.tt, [.lit c!" ", .fld c!"password"])]
/-- `commands/sshpw.py:70-93` -/
def F24_SshPwData.cls : DataCls := { init := F24_SshPwData.init, str := (F13_SshPwData.strOut F24_SshPwData.args).render, eq := F13_SshPwData.eq }

/-- `commands/sshpw.py:99-103` `__init__` -/
def F13_SshPw.init : Ns := []
/-- `commands/sshpw.py:112-153` `_getParser` -/
def F13_SshPw.op : OptParser :=
  OptParser.empty
    |>.add { names := [c!"--username"], required := true }
    |>.add { names := [c!"--iscrypted"], dest := some c!"isCrypted", kind := .storeConst, nargs := .n 0, const := .bool true, default := some (.bool false) }
    |>.add { names := [c!"--plaintext"], dest := some c!"isCrypted", kind := .storeConst, nargs := .n 0, const := .bool false, default := some (.bool true) }
    |>.add { names := [c!"--lock"], kind := .storeConst, nargs := .n 0, const := .bool true, default := some (.bool false) }
    |>.add { names := [c!"password"], nargs := .star }
/-- `commands/sshpw.py:155-172` `parse` -/
def F13_SshPw.parse (k : Info) (args : List Str) : M Ns := do
  let ud := k.dc.init
  let r ← M.parseKnown k.op args
  let ns := r.1
  let extra := r.2
  M.failIf (!((ns.getD c!"password").truthy)) c!"A single argument is expected for the %s command"
  M.failIf (!extra.isEmpty) c!"Unexpected arguments to %(command)s command: %(options)s"
  let ud := setToObj ns ud
  let ud := ud.set c!"password" (Val.str (joinWith c!" " (ns.getD c!"password").items))
  let x1 ← M.lineno
  let ud := ud.set c!"lineno" (Val.int x1)
  let x2 ← M.dataList
  M.when (x2.any (fun d => k.dc.eq d ud)) (do
    M.warn (.parse c!"An ssh user with the name %s has already been defined."))
  return ud
/-- `commands/sshpw.py:95-179` -/
def F13_SshPw.info (dc : DataCls) : Info := { dc := dc, op := F13_SshPw.op }
/-- `commands/sshpw.py:95-179` -/
def F13_SshPw.cls (dc : DataCls) : Command := listCmd c!"F13_SshPw" (some 0) F13_SshPw.init dc (F13_SshPw.parse (F13_SshPw.info dc)) (listStr)

/-- `commands/sshpw.py:181-191`: `__init__` is inherited. -/
def F24_SshPw.init : Ns := F13_SshPw.init
/-- `commands/sshpw.py:185-191` `_getParser` -/
def F24_SshPw.op : OptParser :=
  F13_SshPw.op
    |>.add { names := [c!"--sshkey"], kind := .storeConst, nargs := .n 0, const := .bool true, default := some (.bool false) }
/-- `commands/sshpw.py:181-191` -/
def F24_SshPw.info (dc : DataCls) : Info := { dc := dc, op := F24_SshPw.op }
/-- `commands/sshpw.py:181-191` -/
def F24_SshPw.cls (dc : DataCls) : Command := listCmd c!"F24_SshPw" (some 0) F24_SshPw.init dc (F13_SshPw.parse (F24_SshPw.info dc)) (listStr)

end Ks.Cmd
