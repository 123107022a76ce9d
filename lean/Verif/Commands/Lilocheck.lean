import Verif.Commands.Base
/-!
# `/repo/pykickstart/commands/lilocheck.py`

Written by `scripts/gen_commands.py` from the text of that file; see there and
`Verif/Commands/Base.lean` for how a class is represented.
-/
namespace Ks.Cmd

/-- `commands/lilocheck.py:28-31` `__init__` -/
def FC3_LiloCheck.init : Ns := [(c!"check", .bool false)]
/-- `commands/lilocheck.py:41-43` `_getParser` -/
def FC3_LiloCheck.op : OptParser := OptParser.empty
/-- `commands/lilocheck.py:33-39` `__str__` -/
def FC3_LiloCheck.strOut : Out :=
  [(.tru c!"check", [.lit c!"lilocheck\n"])]
/-- `commands/lilocheck.py:45-48` `parse` -/
def FC3_LiloCheck.parse (k : Info) (args : List Str) : M Unit := do
  let _ ← M.parseArgs k.op args
  M.set c!"check" (Val.bool true)
/-- `commands/lilocheck.py:24-48` -/
def FC3_LiloCheck.info : Info := { op := FC3_LiloCheck.op }
/-- `commands/lilocheck.py:24-48` -/
def FC3_LiloCheck.cls : Command := plainCmd c!"FC3_LiloCheck" (some 0) FC3_LiloCheck.init (FC3_LiloCheck.parse FC3_LiloCheck.info) (FC3_LiloCheck.strOut.render)

/-- `base.py:229-235` `__init__` -/
def FC4_LiloCheck.init : Ns := []
/-- `commands/lilocheck.py:51-54` `_getParser` -/
def FC4_LiloCheck.op : OptParser := FC3_LiloCheck.op
/-- `commands/lilocheck.py:50-54` -/
def FC4_LiloCheck.cls : Command := removedCmd c!"FC4_LiloCheck" FC4_LiloCheck.init

end Ks.Cmd
