import Verif.Commands.Base
/-!
# `/repo/pykickstart/commands/reqpart.py`

Written by `scripts/gen_commands.py` from the text of that file; see there and
`Verif/Commands/Base.lean` for how a class is represented.
-/
namespace Ks.Cmd

/-- `commands/reqpart.py:31-36` `__init__` -/
def F23_ReqPart.init : Ns := [(c!"reqpart", .bool false), (c!"addBoot", .bool false)]
/-- `commands/reqpart.py:52-73` `_getParser` -/
def F23_ReqPart.op : OptParser :=
  OptParser.empty
    |>.add { names := [c!"--add-boot"], dest := some c!"addBoot", kind := .storeConst, nargs := .n 0, const := .bool true, default := some (.bool false) }
/-- `commands/reqpart.py:38-44` `_getArgsAsStr` -/
def F23_ReqPart.args : Out :=
  [(.tru c!"addBoot", [.lit c!" --add-boot"])]
/-- `commands/reqpart.py:46-50` `__str__` -/
def F23_ReqPart.strOut (args : Out) : Out :=
  [(.tru c!"reqpart", [.lit c!"reqpart"])] ++
    Out.guard (.tru c!"reqpart") args ++
    [(.tru c!"reqpart", [.lit c!"\n"])]
/-- `commands/reqpart.py:75-89` `parse` -/
def F23_ReqPart.parse (k : Info) (args : List Str) : M Unit := do
  M.failIfM (M.seenCmd c!"autopart") c!"The %s and reqpart commands can't be used at the same time"
  M.failIfM (M.usedCmd c!"mount") c!"The mount and reqpart commands can't be used at the same time"
  let ns ← M.parseArgs k.op args
  M.setToSelf ns
  M.set c!"reqpart" (Val.bool true)
/-- `commands/reqpart.py:27-89` -/
def F23_ReqPart.info : Info := { op := F23_ReqPart.op }
/-- `commands/reqpart.py:27-89` -/
def F23_ReqPart.cls : Command := plainCmd c!"F23_ReqPart" (some 100) F23_ReqPart.init (F23_ReqPart.parse F23_ReqPart.info) ((F23_ReqPart.strOut F23_ReqPart.args).render)

/-- `commands/reqpart.py:91-92`: `__init__` is inherited. -/
def RHEL7_ReqPart.init : Ns := F23_ReqPart.init
/-- `commands/reqpart.py:91-92` -/
def RHEL7_ReqPart.info : Info := { op := F23_ReqPart.op }
/-- `commands/reqpart.py:91-92` -/
def RHEL7_ReqPart.cls : Command := plainCmd c!"RHEL7_ReqPart" (some 100) RHEL7_ReqPart.init (F23_ReqPart.parse RHEL7_ReqPart.info) ((F23_ReqPart.strOut F23_ReqPart.args).render)

end Ks.Cmd
