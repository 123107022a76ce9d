import Verif.Commands.Base
/-!
# `/repo/pykickstart/commands/upgrade.py`

Written by `scripts/gen_commands.py` from the text of that file; see there and
`Verif/Commands/Base.lean` for how a class is represented.
-/
namespace Ks.Cmd

/-- `commands/upgrade.py:32-35` `__init__` -/
def FC3_Upgrade.init : Ns := [(c!"upgrade", .none)]
/-- `commands/upgrade.py:50-59` `_getParser` -/
def FC3_Upgrade.op : OptParser := OptParser.empty
/-- `commands/upgrade.py:37-48` `__str__` -/
def FC3_Upgrade.strOut : Out :=
  [(.and (.not (.eq c!"upgrade" .none)) (.tru c!"upgrade"), [.lit c!"# Upgrade existing installation\nupgrade\n"]),
    (.and (.not (.eq c!"upgrade" .none)) (.not (.tru c!"upgrade")), [.lit c!"# Install OS instead of upgrade\ninstall\n"])]
/-- `commands/upgrade.py:61-69` `parse` -/
def FC3_Upgrade.parse (k : Info) (args : List Str) : M Unit := do
  let _ ← M.parseArgs k.op args
  let x1 ← M.currentCmd
  if decide (x1 = c!"upgrade") then do
    M.set c!"upgrade" (Val.bool true)
  else do
    M.set c!"upgrade" (Val.bool false)
  return ()
/-- `commands/upgrade.py:28-69` -/
def FC3_Upgrade.info : Info := { op := FC3_Upgrade.op }
/-- `commands/upgrade.py:28-69` -/
def FC3_Upgrade.cls : Command := plainCmd c!"FC3_Upgrade" (some 0) FC3_Upgrade.init (FC3_Upgrade.parse FC3_Upgrade.info) (FC3_Upgrade.strOut.render)

/-- `commands/upgrade.py:75-79` `__init__` -/
def F11_Upgrade.init : Ns := Ns.updated FC3_Upgrade.init [(c!"root_device", .none)]
/-- `commands/upgrade.py:90-98` `_getParser` -/
def F11_Upgrade.op : OptParser :=
  FC3_Upgrade.op
    |>.add { names := [c!"--root-device"], dest := some c!"root_device" }
/-- `commands/upgrade.py:81-88` `__str__` -/
def F11_Upgrade.strOut : Out :=
  [(.and (.tru c!"upgrade") (.not (.eq c!"root_device" .none)), [.lit c!"# Upgrade existing installation\nupgrade --root-device=", .fld c!"root_device", .lit c!"\n"])] ++
    Out.guard (.not (.and (.tru c!"upgrade") (.not (.eq c!"root_device" .none)))) (FC3_Upgrade.strOut)
/-- `commands/upgrade.py:100-113` `parse` -/
def F11_Upgrade.parse (k : Info) (args : List Str) : M Unit := do
  let ns ← M.parseArgs k.op args
  M.failIf ((ns.getD c!"root_device").pyEq (Val.str [])) c!"Kickstart command %(command)s does not accept empty parameter %(parameter)s"
  M.set c!"root_device" (ns.getD c!"root_device")
  let x1 ← M.currentCmd
  if decide (x1 = c!"upgrade") then do
    M.set c!"upgrade" (Val.bool true)
  else do
    M.set c!"upgrade" (Val.bool false)
  return ()
/-- `commands/upgrade.py:71-113` -/
def F11_Upgrade.info : Info := { op := F11_Upgrade.op }
/-- `commands/upgrade.py:71-113` -/
def F11_Upgrade.cls : Command := plainCmd c!"F11_Upgrade" (some 0) F11_Upgrade.init (F11_Upgrade.parse F11_Upgrade.info) (F11_Upgrade.strOut.render)

/-- `commands/upgrade.py:116-117` `__init__` -/
def F20_Upgrade.init : Ns := []
/-- `commands/upgrade.py:119-130` `_getParser` -/
def F20_Upgrade.op : OptParser := F11_Upgrade.op
/-- `commands/upgrade.py:115-130` -/
def F20_Upgrade.cls : Command := deprecatedCmd c!"F20_Upgrade" F20_Upgrade.init

/-- `base.py:229-235` `__init__` -/
def F29_Upgrade.init : Ns := []
/-- `commands/upgrade.py:133-136` `_getParser` -/
def F29_Upgrade.op : OptParser := F20_Upgrade.op
/-- `commands/upgrade.py:132-136` -/
def F29_Upgrade.cls : Command := removedCmd c!"F29_Upgrade" F29_Upgrade.init

end Ks.Cmd
