import Verif.Commands.Base
/-!
# `/repo/pykickstart/commands/monitor.py`

Written by `scripts/gen_commands.py` from the text of that file; see there and
`Verif/Commands/Base.lean` for how a class is represented.
-/
namespace Ks.Cmd

/-- `commands/monitor.py:28-34` `__init__` -/
def FC3_Monitor.init : Ns := [(c!"hsync", .str []), (c!"monitor", .str []), (c!"vsync", .str [])]
/-- `commands/monitor.py:51-72` `_getParser` -/
def FC3_Monitor.op : OptParser :=
  OptParser.empty
    |>.add { names := [c!"--hsync"] }
    |>.add { names := [c!"--monitor"] }
    |>.add { names := [c!"--vsync"] }
/-- `commands/monitor.py:36-49` `__str__` -/
def FC3_Monitor.strOut : Out :=
  [(.or (.tru c!"hsync") (.or (.tru c!"monitor") (.tru c!"vsync")), [.lit c!"monitor"]),
    (.tru c!"hsync", [.lit c!" --hsync=", .fld c!"hsync"]),
    (.tru c!"monitor", [.lit c!" --monitor=\"", .fld c!"monitor", .lit c!"\""]),
    (.tru c!"vsync", [.lit c!" --vsync=", .fld c!"vsync"]),
    (.or (.tru c!"hsync") (.or (.tru c!"monitor") (.tru c!"vsync")), [.lit c!"\n"])]
/-- `commands/monitor.py:74-77` `parse` -/
def FC3_Monitor.parse (k : Info) (args : List Str) : M Unit := do
  let ns ← M.parseArgs k.op args
  M.setToSelf ns
/-- `commands/monitor.py:24-77` -/
def FC3_Monitor.info : Info := { op := FC3_Monitor.op }
/-- `commands/monitor.py:24-77` -/
def FC3_Monitor.cls : Command := plainCmd c!"FC3_Monitor" (some 0) FC3_Monitor.init (FC3_Monitor.parse FC3_Monitor.info) (FC3_Monitor.strOut.render)

/-- `commands/monitor.py:83-85` `__init__` -/
def FC6_Monitor.init : Ns := Ns.updated FC3_Monitor.init [(c!"probe", .bool true)]
/-- `commands/monitor.py:104-109` `_getParser` -/
def FC6_Monitor.op : OptParser :=
  FC3_Monitor.op
    |>.add { names := [c!"--noprobe"], dest := some c!"probe", kind := .storeConst, nargs := .n 0, const := .bool false, default := some (.bool true) }
/-- `commands/monitor.py:87-102` `__str__` -/
def FC6_Monitor.strOut : Out :=
  [(.or (.tru c!"hsync") (.or (.tru c!"monitor") (.or (.not (.tru c!"probe")) (.tru c!"vsync"))), [.lit c!"monitor"]),
    (.tru c!"hsync", [.lit c!" --hsync=", .fld c!"hsync"]),
    (.tru c!"monitor", [.lit c!" --monitor=\"", .fld c!"monitor", .lit c!"\""]),
    (.not (.tru c!"probe"), [.lit c!" --noprobe"]),
    (.tru c!"vsync", [.lit c!" --vsync=", .fld c!"vsync"]),
    (.or (.tru c!"hsync") (.or (.tru c!"monitor") (.or (.not (.tru c!"probe")) (.tru c!"vsync"))), [.lit c!"\n"])]
/-- `commands/monitor.py:79-109` -/
def FC6_Monitor.info : Info := { op := FC6_Monitor.op }
/-- `commands/monitor.py:79-109` -/
def FC6_Monitor.cls : Command := plainCmd c!"FC6_Monitor" (some 0) FC6_Monitor.init (FC3_Monitor.parse FC6_Monitor.info) (FC6_Monitor.strOut.render)

/-- `commands/monitor.py:112-113` `__init__` -/
def F10_Monitor.init : Ns := []
/-- `commands/monitor.py:115-118` `_getParser` -/
def F10_Monitor.op : OptParser := FC6_Monitor.op
/-- `commands/monitor.py:111-118` -/
def F10_Monitor.cls : Command := deprecatedCmd c!"F10_Monitor" F10_Monitor.init

/-- `base.py:229-235` `__init__` -/
def F18_Monitor.init : Ns := []
/-- `commands/monitor.py:121-124` `_getParser` -/
def F18_Monitor.op : OptParser := F10_Monitor.op
/-- `commands/monitor.py:120-124` -/
def F18_Monitor.cls : Command := removedCmd c!"F18_Monitor" F18_Monitor.init

end Ks.Cmd
