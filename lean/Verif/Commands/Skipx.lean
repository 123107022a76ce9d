import Verif.Commands.Base
/-!
# `/repo/pykickstart/commands/skipx.py`

Written by `scripts/gen_commands.py` from the text of that file; see there and
`Verif/Commands/Base.lean` for how a class is represented.
-/
namespace Ks.Cmd

/-- `commands/skipx.py:28-31` `__init__` -/
def FC3_SkipX.init : Ns := [(c!"skipx", .bool false)]
/-- `commands/skipx.py:41-45` `_getParser` -/
def FC3_SkipX.op : OptParser := OptParser.empty
/-- `commands/skipx.py:33-39` `__str__` -/
def FC3_SkipX.strOut : Out :=
  [(.tru c!"skipx", [.lit c!"# Do not configure the X Window System\nskipx\n"])]
/-- `commands/skipx.py:47-50` `parse` -/
def FC3_SkipX.parse (k : Info) (args : List Str) : M Unit := do
  let _ ← M.parseArgs k.op args
  M.set c!"skipx" (Val.bool true)
/-- `commands/skipx.py:24-50` -/
def FC3_SkipX.info : Info := { op := FC3_SkipX.op }
/-- `commands/skipx.py:24-50` -/
def FC3_SkipX.cls : Command := plainCmd c!"FC3_SkipX" (some 0) FC3_SkipX.init (FC3_SkipX.parse FC3_SkipX.info) (FC3_SkipX.strOut.render)

end Ks.Cmd
