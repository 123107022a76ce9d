import Verif.Commands.Base
/-!
# `/repo/pykickstart/commands/autostep.py`

Written by `scripts/gen_commands.py` from the text of that file; see there and
`Verif/Commands/Base.lean` for how a class is represented.
-/
namespace Ks.Cmd

/-- `commands/autostep.py:28-33` `__init__` -/
def FC3_AutoStep.init : Ns := [(c!"autostep", .bool false), (c!"autoscreenshot", .bool false)]
/-- `commands/autostep.py:46-60` `_getParser` -/
def FC3_AutoStep.op : OptParser :=
  OptParser.empty
    |>.add { names := [c!"--autoscreenshot"], kind := .storeConst, nargs := .n 0, const := .bool true, default := some (.bool false) }
/-- `commands/autostep.py:35-44` `__str__` -/
def FC3_AutoStep.strOut : Out :=
  [(.and (.tru c!"autostep") (.tru c!"autoscreenshot"), [.lit c!"autostep --autoscreenshot\n"]),
    (.and (.tru c!"autostep") (.not (.tru c!"autoscreenshot")), [.lit c!"autostep\n"])]
/-- `commands/autostep.py:62-66` `parse` -/
def FC3_AutoStep.parse (k : Info) (args : List Str) : M Unit := do
  let ns ← M.parseArgs k.op args
  M.setToSelf ns
  M.set c!"autostep" (Val.bool true)
/-- `commands/autostep.py:24-66` -/
def FC3_AutoStep.info : Info := { op := FC3_AutoStep.op }
/-- `commands/autostep.py:24-66` -/
def FC3_AutoStep.cls : Command := plainCmd c!"FC3_AutoStep" (some 0) FC3_AutoStep.init (FC3_AutoStep.parse FC3_AutoStep.info) (FC3_AutoStep.strOut.render)

/-- `commands/autostep.py:69-70` `__init__` -/
def F34_AutoStep.init : Ns := []
/-- `commands/autostep.py:72-75` `_getParser` -/
def F34_AutoStep.op : OptParser := FC3_AutoStep.op
/-- `commands/autostep.py:68-75` -/
def F34_AutoStep.cls : Command := deprecatedCmd c!"F34_AutoStep" F34_AutoStep.init

end Ks.Cmd
