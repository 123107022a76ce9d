import Verif.Commands.Base
/-!
# `/repo/pykickstart/commands/zerombr.py`

Written by `scripts/gen_commands.py` from the text of that file; see there and
`Verif/Commands/Base.lean` for how a class is represented.
-/
namespace Ks.Cmd

/-- `commands/zerombr.py:33-36` `__init__` -/
def FC3_ZeroMbr.init : Ns := [(c!"zerombr", .bool false)]
/-- `commands/zerombr.py:46-56` `_getParser` -/
def FC3_ZeroMbr.op : OptParser := OptParser.empty
/-- `commands/zerombr.py:38-44` `__str__` -/
def FC3_ZeroMbr.strOut : Out :=
  [(.tru c!"zerombr", [.lit c!"# Clear the Master Boot Record\nzerombr\n"])]
/-- `commands/zerombr.py:58-65` `parse` -/
def FC3_ZeroMbr.parse (k : Info) (args : List Str) : M Unit := do
  let r ← M.parseKnown k.op args
  let extra := r.2
  M.when (!extra.isEmpty) (do
    M.warn (.deprecation c!"Ignoring deprecated option on line %s:  The zerombr command no longer takes any options.  In future releases, this will result in a fatal error from kickstart.  Please modify your kickstart file to remove any options."))
  M.set c!"zerombr" (Val.bool true)
/-- `commands/zerombr.py:29-65` -/
def FC3_ZeroMbr.info : Info := { op := FC3_ZeroMbr.op }
/-- `commands/zerombr.py:29-65` -/
def FC3_ZeroMbr.cls : Command := plainCmd c!"FC3_ZeroMbr" (some 110) FC3_ZeroMbr.init (FC3_ZeroMbr.parse FC3_ZeroMbr.info) (FC3_ZeroMbr.strOut.render)

/-- `commands/zerombr.py:67-74`: `__init__` is inherited. -/
def F9_ZeroMbr.init : Ns := FC3_ZeroMbr.init
/-- `commands/zerombr.py:71-74` `parse` -/
def F9_ZeroMbr.parse (k : Info) (args : List Str) : M Unit := do
  let _ ← M.parseArgs k.op args
  M.set c!"zerombr" (Val.bool true)
/-- `commands/zerombr.py:67-74` -/
def F9_ZeroMbr.info : Info := { op := FC3_ZeroMbr.op }
/-- `commands/zerombr.py:67-74` -/
def F9_ZeroMbr.cls : Command := plainCmd c!"F9_ZeroMbr" (some 110) F9_ZeroMbr.init (F9_ZeroMbr.parse F9_ZeroMbr.info) (FC3_ZeroMbr.strOut.render)

end Ks.Cmd
