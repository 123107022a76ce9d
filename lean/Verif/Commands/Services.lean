import Verif.Commands.Base
/-!
# `/repo/pykickstart/commands/services.py`

Written by `scripts/gen_commands.py` from the text of that file; see there and
`Verif/Commands/Base.lean` for how a class is represented.
-/
namespace Ks.Cmd

/-- `commands/services.py:31-36` `__init__` -/
def FC6_Services.init : Ns := [(c!"disabled", .list []), (c!"enabled", .list [])]
/-- `commands/services.py:52-69` `_getParser` -/
def FC6_Services.op : OptParser :=
  OptParser.empty
    |>.add { names := [c!"--disabled"], ty := .comma }
    |>.add { names := [c!"--enabled"], ty := .comma }
/-- `commands/services.py:38-50` `__str__` -/
def FC6_Services.strOut : Out :=
  [(.or (.tru c!"disabled") (.tru c!"enabled"), [.lit c!"# System services\nservices"]),
    (.and (.or (.tru c!"disabled") (.tru c!"enabled")) (.tru c!"disabled"), [.lit c!" --disabled=\"", .join c!"," c!"disabled", .lit c!"\""]),
    (.and (.or (.tru c!"disabled") (.tru c!"enabled")) (.tru c!"enabled"), [.lit c!" --enabled=\"", .join c!"," c!"enabled", .lit c!"\""]),
    (.or (.tru c!"disabled") (.tru c!"enabled"), [.lit c!"\n"])]
/-- `commands/services.py:71-78` `parse` -/
def FC6_Services.parse (k : Info) (args : List Str) : M Unit := do
  let ns ← M.parseArgs k.op args
  M.setToSelf ns
  let self ← M.self
  M.failIf (!((self.getD c!"disabled").truthy || (self.getD c!"enabled").truthy)) c!"One of --disabled or --enabled must be provided."
/-- `commands/services.py:27-78` -/
def FC6_Services.info : Info := { op := FC6_Services.op }
/-- `commands/services.py:27-78` -/
def FC6_Services.cls : Command := plainCmd c!"FC6_Services" (some 0) FC6_Services.init (FC6_Services.parse FC6_Services.info) (FC6_Services.strOut.render)

end Ks.Cmd
