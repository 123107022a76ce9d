import Verif.Commands.Base
/-!
# `/repo/pykickstart/commands/mediacheck.py`

Written by `scripts/gen_commands.py` from the text of that file; see there and
`Verif/Commands/Base.lean` for how a class is represented.
-/
namespace Ks.Cmd

/-- `commands/mediacheck.py:28-31` `__init__` -/
def FC4_MediaCheck.init : Ns := [(c!"mediacheck", .bool false)]
/-- `commands/mediacheck.py:40-46` `_getParser` -/
def FC4_MediaCheck.op : OptParser := OptParser.empty
/-- `commands/mediacheck.py:33-38` `__str__` -/
def FC4_MediaCheck.strOut : Out :=
  [(.tru c!"mediacheck", [.lit c!"mediacheck\n"])]
/-- `commands/mediacheck.py:48-51` `parse` -/
def FC4_MediaCheck.parse (k : Info) (args : List Str) : M Unit := do
  let _ ← M.parseArgs k.op args
  M.set c!"mediacheck" (Val.bool true)
/-- `commands/mediacheck.py:24-51` -/
def FC4_MediaCheck.info : Info := { op := FC4_MediaCheck.op }
/-- `commands/mediacheck.py:24-51` -/
def FC4_MediaCheck.cls : Command := plainCmd c!"FC4_MediaCheck" (some 0) FC4_MediaCheck.init (FC4_MediaCheck.parse FC4_MediaCheck.info) (FC4_MediaCheck.strOut.render)

end Ks.Cmd
