import Verif.Commands.Base
/-!
# `/repo/pykickstart/commands/reboot.py`

Written by `scripts/gen_commands.py` from the text of that file; see there and
`Verif/Commands/Base.lean` for how a class is represented.
-/
namespace Ks.Cmd

/-- `commands/reboot.py:30-32` `__init__` -/
def FC3_Reboot.init : Ns := [(c!"action", .none)]
/-- `commands/reboot.py:57-78` `_getParser` -/
def FC3_Reboot.op : OptParser := OptParser.empty
/-- `commands/reboot.py:34-35` `_getArgsAsStr` -/
def FC3_Reboot.args : Out :=
  []
/-- `commands/reboot.py:37-47` `__str__` -/
def FC3_Reboot.strOut (args : Out) : Out :=
  [(.eq c!"action" (.int 1), [.lit c!"# Reboot after installation\nreboot"])] ++
    Out.guard (.eq c!"action" (.int 1)) args ++
    [(.eq c!"action" (.int 1), [.lit c!"\n"]),
    (.and (.not (.eq c!"action" (.int 1))) (.eq c!"action" (.int 2)), [.lit c!"# Shutdown after installation\nshutdown"])] ++
    Out.guard (.and (.not (.eq c!"action" (.int 1))) (.eq c!"action" (.int 2))) args ++
    [(.and (.not (.eq c!"action" (.int 1))) (.eq c!"action" (.int 2)), [.lit c!"\n"])]
/-- `commands/reboot.py:49-55` `parse` -/
def FC3_Reboot.parse (_k : Info) (_args : List Str) : M Unit := do
  let x1 ← M.currentCmd
  if decide (x1 = c!"reboot") then do
    M.set c!"action" (Val.int 1)
  else do
    let x2 ← M.currentCmd
    M.when ([c!"shutdown", c!"poweroff"].contains x2) (do
      M.set c!"action" (Val.int 2))
  return ()
/-- `commands/reboot.py:26-78` -/
def FC3_Reboot.info : Info := { op := FC3_Reboot.op }
/-- `commands/reboot.py:26-78` -/
def FC3_Reboot.cls : Command := plainCmd c!"FC3_Reboot" (some 0) FC3_Reboot.init (FC3_Reboot.parse FC3_Reboot.info) ((FC3_Reboot.strOut FC3_Reboot.args).render)

/-- `commands/reboot.py:85-89` `__init__` -/
def FC6_Reboot.init : Ns := Ns.updated FC3_Reboot.init [(c!"eject", .bool false)]
/-- `commands/reboot.py:99-105` `_getParser` -/
def FC6_Reboot.op : OptParser :=
  FC3_Reboot.op
    |>.add { names := [c!"--eject"], kind := .storeConst, nargs := .n 0, const := .bool true, default := some (.bool false) }
/-- `commands/reboot.py:91-97` `_getArgsAsStr` -/
def FC6_Reboot.args : Out :=
  FC3_Reboot.args ++
    [(.tru c!"eject", [.lit c!" --eject"])]
/-- `commands/reboot.py:107-111` `parse` -/
def FC6_Reboot.parse (k : Info) (args : List Str) : M Unit := do
  FC3_Reboot.parse k args
  let ns ← M.parseArgs k.op args
  M.setToSelf ns
/-- `commands/reboot.py:81-111` -/
def FC6_Reboot.info : Info := { op := FC6_Reboot.op }
/-- `commands/reboot.py:81-111` -/
def FC6_Reboot.cls : Command := plainCmd c!"FC6_Reboot" (some 0) FC6_Reboot.init (FC6_Reboot.parse FC6_Reboot.info) ((FC3_Reboot.strOut FC6_Reboot.args).render)

/-- `commands/reboot.py:117-119` `__init__` -/
def F18_Reboot.init : Ns := FC6_Reboot.init
/-- `commands/reboot.py:136-151` `_getParser` -/
def F18_Reboot.op : OptParser := FC6_Reboot.op
/-- `commands/reboot.py:121-128` `__str__` -/
def F18_Reboot.strOut (args : Out) : Out :=
  Out.guard (.not (.eq c!"action" (.int 0))) (FC3_Reboot.strOut args) ++
    [(.eq c!"action" (.int 0), [.lit c!"# Halt after installation\nhalt"])] ++
    Out.guard (.eq c!"action" (.int 0)) args ++
    [(.eq c!"action" (.int 0), [.lit c!"\n"])]
/-- `commands/reboot.py:130-134` `parse` -/
def F18_Reboot.parse (k : Info) (args : List Str) : M Unit := do
  FC6_Reboot.parse k args
  let x1 ← M.currentCmd
  M.when (decide (x1 = c!"halt")) (do
    M.set c!"action" (Val.int 0))
  return ()
/-- `commands/reboot.py:113-151` -/
def F18_Reboot.info : Info := { op := F18_Reboot.op }
/-- `commands/reboot.py:113-151` -/
def F18_Reboot.cls : Command := plainCmd c!"F18_Reboot" (some 0) F18_Reboot.init (F18_Reboot.parse F18_Reboot.info) ((F18_Reboot.strOut FC6_Reboot.args).render)

/-- `commands/reboot.py:157-161` `__init__` -/
def F23_Reboot.init : Ns := Ns.updated F18_Reboot.init [(c!"kexec", .bool false)]
/-- `commands/reboot.py:171-177` `_getParser` -/
def F23_Reboot.op : OptParser :=
  F18_Reboot.op
    |>.add { names := [c!"--kexec"], kind := .storeConst, nargs := .n 0, const := .bool true, default := some (.bool false) }
/-- `commands/reboot.py:163-169` `_getArgsAsStr` -/
def F23_Reboot.args : Out :=
  FC6_Reboot.args ++
    [(.tru c!"kexec", [.lit c!" --kexec"])]
/-- `commands/reboot.py:153-177` -/
def F23_Reboot.info : Info := { op := F23_Reboot.op }
/-- `commands/reboot.py:153-177` -/
def F23_Reboot.cls : Command := plainCmd c!"F23_Reboot" (some 0) F23_Reboot.init (F18_Reboot.parse F23_Reboot.info) ((F18_Reboot.strOut F23_Reboot.args).render)

end Ks.Cmd
