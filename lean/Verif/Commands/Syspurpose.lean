import Verif.Commands.Base
/-!
# `/repo/pykickstart/commands/syspurpose.py`

Written by `scripts/gen_commands.py` from the text of that file; see there and
`Verif/Commands/Base.lean` for how a class is represented.
-/
namespace Ks.Cmd

/-- `commands/syspurpose.py:32-39` `__init__` -/
def RHEL8_Syspurpose.init : Ns := [(c!"role", .none), (c!"sla", .none), (c!"usage", .none), (c!"addons", .none)]
/-- `commands/syspurpose.py:60-80` `_getParser` -/
def RHEL8_Syspurpose.op : OptParser :=
  OptParser.empty
    |>.add { names := [c!"--role"] }
    |>.add { names := [c!"--sla"] }
    |>.add { names := [c!"--usage"] }
    |>.add { names := [c!"--addon"], dest := some c!"addons", kind := .append }
/-- `commands/syspurpose.py:41-58` `__str__` -/
def RHEL8_Syspurpose.strOut : Out :=
  [(.or (.tru c!"role") (.or (.tru c!"sla") (.or (.tru c!"usage") (.tru c!"addons"))), [.lit c!"# Intended system purpose\nsyspurpose"]),
    (.and (.or (.tru c!"role") (.or (.tru c!"sla") (.or (.tru c!"usage") (.tru c!"addons")))) (.tru c!"role"), [.lit c!" --role=\"", .fld c!"role", .lit c!"\""]),
    (.and (.or (.tru c!"role") (.or (.tru c!"sla") (.or (.tru c!"usage") (.tru c!"addons")))) (.tru c!"sla"), [.lit c!" --sla=\"", .fld c!"sla", .lit c!"\""]),
    (.and (.or (.tru c!"role") (.or (.tru c!"sla") (.or (.tru c!"usage") (.tru c!"addons")))) (.tru c!"usage"), [.lit c!" --usage=\"", .fld c!"usage", .lit c!"\""]),
    (.and (.or (.tru c!"role") (.or (.tru c!"sla") (.or (.tru c!"usage") (.tru c!"addons")))) (.tru c!"addons"), [.each c!" --addon=\"" c!"addons" c!"\""]),
    (.or (.tru c!"role") (.or (.tru c!"sla") (.or (.tru c!"usage") (.tru c!"addons"))), [.lit c!"\n"])]
/-- `commands/syspurpose.py:82-90` `parse` -/
def RHEL8_Syspurpose.parse (k : Info) (args : List Str) : M Unit := do
  let r ← M.parseKnown k.op args
  let ns := r.1
  let extra := r.2
  M.failIf (decide (extra.length > 0)) c!"The syspurpose command does not take positional arguments!"
  M.setToSelf ns
/-- `commands/syspurpose.py:28-90` -/
def RHEL8_Syspurpose.info : Info := { op := RHEL8_Syspurpose.op }
/-- `commands/syspurpose.py:28-90` -/
def RHEL8_Syspurpose.cls : Command := plainCmd c!"RHEL8_Syspurpose" (some 0) RHEL8_Syspurpose.init (RHEL8_Syspurpose.parse RHEL8_Syspurpose.info) (RHEL8_Syspurpose.strOut.render)

end Ks.Cmd
