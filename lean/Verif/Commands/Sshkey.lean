import Verif.Commands.Base
/-!
# `/repo/pykickstart/commands/sshkey.py`

Written by `scripts/gen_commands.py` from the text of that file; see there and
`Verif/Commands/Base.lean` for how a class is represented.
-/
namespace Ks.Cmd

/-- `commands/sshkey.py:32-35` `__init__` -/
def F22_SshKeyData.init : Ns := [(c!"lineno", .int 0), (c!"username", .none), (c!"key", .str [])]
/-- `commands/sshkey.py:54-59` `_getArgsAsStr` -/
def F22_SshKeyData.args : Out :=
  [(.tt, [.lit c!" --username=", .fld c!"username", .lit c!" \"", .fld c!"key", .lit c!"\""])]
/-- `commands/sshkey.py:46-52` `__str__` -/
def F22_SshKeyData.strOut (args : Out) : Out :=
  [(.tt, [.lit c!"sshkey"])] ++
    args ++
    [(.tt, [.lit c!"\n"])]
/-- `commands/sshkey.py:37-41` `__eq__` -/
def F22_SshKeyData.eq : Ns → Ns → Bool := sameAttrs [c!"username"]
/-- `commands/sshkey.py:28-59` -/
def F22_SshKeyData.cls : DataCls := { init := F22_SshKeyData.init, str := (F22_SshKeyData.strOut F22_SshKeyData.args).render, eq := F22_SshKeyData.eq }

/-- `commands/sshkey.py:65-69` `__init__` -/
def F22_SshKey.init : Ns := []
/-- `commands/sshkey.py:78-93` `_getParser` -/
def F22_SshKey.op : OptParser :=
  OptParser.empty
    |>.add { names := [c!"--username"], required := true }
    |>.add { names := [c!"sshkey"], nargs := .n 1 }
/-- `commands/sshkey.py:95-111` `parse` -/
def F22_SshKey.parse (k : Info) (args : List Str) : M Ns := do
  let ud := k.dc.init
  let r ← M.parseKnown k.op args
  let ns := r.1
  let extra := r.2
  M.assert (decide ((ns.getD c!"sshkey").len = 1))
  M.failIf (!extra.isEmpty) c!"Unexpected arguments to %(command)s command: %(options)s"
  let ud := setToObj ns ud
  let x1 ← M.lift ((ns.getD c!"sshkey").index 0)
  let ud := ud.set c!"key" (x1)
  let x2 ← M.lineno
  let ud := ud.set c!"lineno" (Val.int x2)
  let x3 ← M.dataList
  M.when (x3.any (fun d => k.dc.eq d ud)) (do
    M.warn (.parse c!"An ssh user with the name %s has already been defined."))
  return ud
/-- `commands/sshkey.py:61-118` -/
def F22_SshKey.info (dc : DataCls) : Info := { dc := dc, op := F22_SshKey.op }
/-- `commands/sshkey.py:61-118` -/
def F22_SshKey.cls (dc : DataCls) : Command := listCmd c!"F22_SshKey" (some 0) F22_SshKey.init dc (F22_SshKey.parse (F22_SshKey.info dc)) (listStr)

end Ks.Cmd
