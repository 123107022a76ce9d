import Verif.Commands.Base
/-!
# `/repo/pykickstart/commands/ostreesetup.py`

Written by `scripts/gen_commands.py` from the text of that file; see there and
`Verif/Commands/Base.lean` for how a class is represented.
-/
namespace Ks.Cmd

/-- `commands/ostreesetup.py:27-34` `__init__` -/
def F21_OSTreeSetup.init : Ns := [(c!"osname", .none), (c!"remote", .none), (c!"url", .none), (c!"ref", .none), (c!"nogpg", .bool false)]
/-- `commands/ostreesetup.py:59-75` `_getParser` -/
def F21_OSTreeSetup.op : OptParser :=
  OptParser.empty
    |>.add { names := [c!"--osname"], required := true }
    |>.add { names := [c!"--remote"] }
    |>.add { names := [c!"--url"], required := true }
    |>.add { names := [c!"--ref"], required := true }
    |>.add { names := [c!"--nogpg"], kind := .storeConst, nargs := .n 0, const := .bool true, default := some (.bool false) }
/-- `commands/ostreesetup.py:45-57` `_getArgsAsStr` -/
def F21_OSTreeSetup.args : Out :=
  [(.tru c!"osname", [.lit c!"--osname=\"", .fld c!"osname", .lit c!"\""]),
    (.tru c!"remote", [.lit c!" --remote=\"", .fld c!"remote", .lit c!"\""]),
    (.tru c!"url", [.lit c!" --url=\"", .fld c!"url", .lit c!"\""]),
    (.tru c!"ref", [.lit c!" --ref=\"", .fld c!"ref", .lit c!"\""]),
    (.tru c!"nogpg", [.lit c!" --nogpg"])]
/-- `commands/ostreesetup.py:36-43` `__str__` -/
def F21_OSTreeSetup.strOut (args : Out) : Out :=
  [(.tru c!"osname", [.lit c!"# OSTree setup\nostreesetup "])] ++
    Out.guard (.tru c!"osname") args ++
    [(.tru c!"osname", [.lit c!"\n"])]
/-- `commands/ostreesetup.py:77-86` `parse` -/
def F21_OSTreeSetup.parse (k : Info) (args : List Str) : M Unit := do
  let ns ← M.parseArgs k.op args
  M.setToSelf ns
  let self ← M.self
  M.when (!((self.getD c!"remote").truthy)) (do
    M.set c!"remote" (self.getD c!"osname"))
  let self ← M.self
  M.failIf (!([c!"file:", c!"http:", c!"https:"].any (Val.startsWith (self.getD c!"url")))) c!"ostree repos must use file, HTTP or HTTPS protocol."
/-- `commands/ostreesetup.py:23-86` -/
def F21_OSTreeSetup.info : Info := { op := F21_OSTreeSetup.op }
/-- `commands/ostreesetup.py:23-86` -/
def F21_OSTreeSetup.cls : Command := plainCmd c!"F21_OSTreeSetup" (some 0) F21_OSTreeSetup.init (F21_OSTreeSetup.parse F21_OSTreeSetup.info) ((F21_OSTreeSetup.strOut F21_OSTreeSetup.args).render)

/-- `commands/ostreesetup.py:88-89`: `__init__` is inherited. -/
def RHEL7_OSTreeSetup.init : Ns := F21_OSTreeSetup.init
/-- `commands/ostreesetup.py:88-89` -/
def RHEL7_OSTreeSetup.info : Info := { op := F21_OSTreeSetup.op }
/-- `commands/ostreesetup.py:88-89` -/
def RHEL7_OSTreeSetup.cls : Command := plainCmd c!"RHEL7_OSTreeSetup" (some 0) RHEL7_OSTreeSetup.init (F21_OSTreeSetup.parse RHEL7_OSTreeSetup.info) ((F21_OSTreeSetup.strOut F21_OSTreeSetup.args).render)

/-- `commands/ostreesetup.py:91-92`: `__init__` is inherited. -/
def RHEL8_OSTreeSetup.init : Ns := F21_OSTreeSetup.init
/-- `commands/ostreesetup.py:91-92` -/
def RHEL8_OSTreeSetup.info : Info := { op := F21_OSTreeSetup.op }
/-- `commands/ostreesetup.py:91-92` -/
def RHEL8_OSTreeSetup.cls : Command := plainCmd c!"RHEL8_OSTreeSetup" (some 0) RHEL8_OSTreeSetup.init (F21_OSTreeSetup.parse RHEL8_OSTreeSetup.info) ((F21_OSTreeSetup.strOut F21_OSTreeSetup.args).render)

end Ks.Cmd
