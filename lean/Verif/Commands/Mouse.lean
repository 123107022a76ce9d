import Verif.Commands.Base
/-!
# `/repo/pykickstart/commands/mouse.py`

Written by `scripts/gen_commands.py` from the text of that file; see there and
`Verif/Commands/Base.lean` for how a class is represented.
-/
namespace Ks.Cmd

/-- `commands/mouse.py:31-37` `__init__` -/
def RHEL3_Mouse.init : Ns := [(c!"device", .str []), (c!"emulthree", .bool false), (c!"mouse", .str [])]
/-- `commands/mouse.py:52-59` `_getParser` -/
def RHEL3_Mouse.op : OptParser :=
  OptParser.empty
    |>.add { names := [c!"--device"], default := some (.str []) }
    |>.add { names := [c!"--emulthree"], kind := .storeConst, nargs := .n 0, const := .bool true, default := some (.bool false) }
/-- `commands/mouse.py:39-50` `__str__` -/
def RHEL3_Mouse.strOut : Out :=
  [(.tru c!"mouse", [.lit c!"# System mouse\nmouse "]),
    (.and (.tru c!"mouse") (.tru c!"device"), [.lit c!"--device=", .fld c!"device", .lit c!" "]),
    (.and (.tru c!"mouse") (.tru c!"emulthree"), [.lit c!"--emulthree "]),
    (.tru c!"mouse", [.fld c!"mouse", .lit c!"\n"])]
/-- `commands/mouse.py:61-72` `parse` -/
def RHEL3_Mouse.parse (k : Info) (args : List Str) : M Unit := do
  let r ← M.parseKnown k.op args
  let ns := r.1
  let extra := r.2
  M.failIf (decide (extra.length ≠ 1)) c!"Kickstart command %s requires one argument"
  M.failIf (extra.any (fun arg => startsWith arg c!"-")) c!"Unexpected arguments to %(command)s command: %(options)s"
  M.setToSelf ns
  let x1 ← M.lift ((Val.list extra).index 0)
  M.set c!"mouse" (x1)
/-- `commands/mouse.py:27-72` -/
def RHEL3_Mouse.info : Info := { op := RHEL3_Mouse.op }
/-- `commands/mouse.py:27-72` -/
def RHEL3_Mouse.cls : Command := plainCmd c!"RHEL3_Mouse" (some 0) RHEL3_Mouse.init (RHEL3_Mouse.parse RHEL3_Mouse.info) (RHEL3_Mouse.strOut.render)

/-- `commands/mouse.py:75-76` `__init__` -/
def FC3_Mouse.init : Ns := []
/-- `commands/mouse.py:78-81` `_getParser` -/
def FC3_Mouse.op : OptParser := RHEL3_Mouse.op
/-- `commands/mouse.py:74-81` -/
def FC3_Mouse.cls : Command := deprecatedCmd c!"FC3_Mouse" FC3_Mouse.init

/-- `base.py:229-235` `__init__` -/
def F7_Mouse.init : Ns := []
/-- `commands/mouse.py:84-87` `_getParser` -/
def F7_Mouse.op : OptParser := FC3_Mouse.op
/-- `commands/mouse.py:83-87` -/
def F7_Mouse.cls : Command := removedCmd c!"F7_Mouse" F7_Mouse.init

end Ks.Cmd
