import Verif.Commands.Base
/-!
# `/repo/pykickstart/commands/rescue.py`

Written by `scripts/gen_commands.py` from the text of that file; see there and
`Verif/Commands/Base.lean` for how a class is represented.
-/
namespace Ks.Cmd

/-- `commands/rescue.py:31-37` `__init__` -/
def F10_Rescue.init : Ns := [(c!"rescue", .bool false), (c!"nomount", .bool false), (c!"romount", .bool false)]
/-- `commands/rescue.py:54-71` `_getParser` -/
def F10_Rescue.op : OptParser :=
  OptParser.empty
    |>.add { names := [c!"--nomount"], kind := .storeConst, nargs := .n 0, const := .bool true, default := some (.bool false) }
    |>.add { names := [c!"--romount"], kind := .storeConst, nargs := .n 0, const := .bool true, default := some (.bool false) }
/-- `commands/rescue.py:39-52` `__str__` -/
def F10_Rescue.strOut : Out :=
  [(.tru c!"rescue", [.lit c!"# Start rescue mode\nrescue"]),
    (.and (.tru c!"rescue") (.tru c!"nomount"), [.lit c!" --nomount"]),
    (.and (.tru c!"rescue") (.tru c!"romount"), [.lit c!" --romount"]),
    (.tru c!"rescue", [.lit c!"\n"])]
/-- `commands/rescue.py:73-81` `parse` -/
def F10_Rescue.parse (k : Info) (args : List Str) : M Unit := do
  let ns ← M.parseArgs k.op args
  M.failIf ((ns.getD c!"nomount").truthy && (ns.getD c!"romount").truthy) c!"Only one of --nomount and --romount may be specified for rescue command."
  M.setToSelf ns
  M.set c!"rescue" (Val.bool true)
/-- `commands/rescue.py:27-81` -/
def F10_Rescue.info : Info := { op := F10_Rescue.op }
/-- `commands/rescue.py:27-81` -/
def F10_Rescue.cls : Command := plainCmd c!"F10_Rescue" (some 0) F10_Rescue.init (F10_Rescue.parse F10_Rescue.info) (F10_Rescue.strOut.render)

end Ks.Cmd
