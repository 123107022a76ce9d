import Verif.Commands.Base
/-!
# `/repo/pykickstart/commands/key.py`

Written by `scripts/gen_commands.py` from the text of that file; see there and
`Verif/Commands/Base.lean` for how a class is represented.
-/
namespace Ks.Cmd

/-- `commands/key.py:32-36` `__init__` -/
def RHEL5_Key.init : Ns := [(c!"key", .str []), (c!"skip", .bool false)]
/-- `commands/key.py:48-52` `_getParser` -/
def RHEL5_Key.op : OptParser :=
  OptParser.empty
    |>.add { names := [c!"--skip"], kind := .storeConst, nargs := .n 0, const := .bool true, default := some (.bool false) }
/-- `commands/key.py:38-46` `__str__` -/
def RHEL5_Key.strOut : Out :=
  [(.eq c!"key" (.int (-99)), [.lit c!"key --skip\n"]),
    (.and (.not (.eq c!"key" (.int (-99)))) (.tru c!"key"), [.lit c!"key ", .fld c!"key", .lit c!"\n"])]
/-- `commands/key.py:54-68` `parse` -/
def RHEL5_Key.parse (k : Info) (args : List Str) : M Unit := do
  let r ← M.parseKnown k.op args
  let ns := r.1
  let extra := r.2
  M.setToSelf ns
  let self ← M.self
  if (self.getD c!"skip").truthy then do
    M.set c!"key" (Val.int (-99))
  else do
    M.failIf (decide (extra.length ≠ 1)) c!"Kickstart command %s requires one argument"
    M.failIf (extra.any (fun arg => startsWith arg c!"-")) c!"Unexpected arguments to %(command)s command: %(options)s"
    let x1 ← M.lift ((Val.list extra).index 0)
    M.set c!"key" (x1)
  return ()
/-- `commands/key.py:28-68` -/
def RHEL5_Key.info : Info := { op := RHEL5_Key.op }
/-- `commands/key.py:28-68` -/
def RHEL5_Key.cls : Command := plainCmd c!"RHEL5_Key" (some 0) RHEL5_Key.init (RHEL5_Key.parse RHEL5_Key.info) (RHEL5_Key.strOut.render)

end Ks.Cmd
