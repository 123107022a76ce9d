import Verif.Commands.Base
/-!
# `/repo/pykickstart/commands/iscsiname.py`

Written by `scripts/gen_commands.py` from the text of that file; see there and
`Verif/Commands/Base.lean` for how a class is represented.
-/
namespace Ks.Cmd

/-- `commands/iscsiname.py:32-35` `__init__` -/
def FC6_IscsiName.init : Ns := [(c!"iscsiname", .str [])]
/-- `commands/iscsiname.py:45-53` `_getParser` -/
def FC6_IscsiName.op : OptParser :=
  OptParser.empty
    |>.add { names := [c!"iqn"], nargs := .n 1 }
/-- `commands/iscsiname.py:37-43` `__str__` -/
def FC6_IscsiName.strOut : Out :=
  [(.tru c!"iscsiname", [.lit c!"iscsiname ", .fld c!"iscsiname", .lit c!"\n"])]
/-- `commands/iscsiname.py:55-64` `parse` -/
def FC6_IscsiName.parse (k : Info) (args : List Str) : M Unit := do
  let r ← M.parseKnown k.op args
  let _ns := r.1
  let extra := r.2
  M.assert (decide ((_ns.getD c!"iqn").len = 1))
  M.failIf (!extra.isEmpty) c!"Unexpected arguments to %(command)s command: %(options)s"
  let x1 ← M.lift ((_ns.getD c!"iqn").index 0)
  M.set c!"iscsiname" (x1)
/-- `commands/iscsiname.py:28-64` -/
def FC6_IscsiName.info : Info := { op := FC6_IscsiName.op }
/-- `commands/iscsiname.py:28-64` -/
def FC6_IscsiName.cls : Command := plainCmd c!"FC6_IscsiName" (some 70) FC6_IscsiName.init (FC6_IscsiName.parse FC6_IscsiName.info) (FC6_IscsiName.strOut.render)

end Ks.Cmd
