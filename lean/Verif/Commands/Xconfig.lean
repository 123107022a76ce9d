import Verif.Commands.Base
/-!
# `/repo/pykickstart/commands/xconfig.py`

Written by `scripts/gen_commands.py` from the text of that file; see there and
`Verif/Commands/Base.lean` for how a class is represented.
-/
namespace Ks.Cmd

/-- `commands/xconfig.py:28-42` `__init__` -/
def FC3_XConfig.init : Ns := [(c!"card", .str []), (c!"defaultdesktop", .str []), (c!"depth", .int 0), (c!"hsync", .str []), (c!"monitor", .str []), (c!"noProbe", .bool false), (c!"resolution", .str []), (c!"server", .str []), (c!"startX", .bool false), (c!"videoRam", .str []), (c!"vsync", .str [])]
/-- `commands/xconfig.py:75-99` `_getParser` -/
def FC3_XConfig.op : OptParser :=
  OptParser.empty
    |>.add { names := [c!"--card"] }
    |>.add { names := [c!"--defaultdesktop"] }
    |>.add { names := [c!"--depth"], ty := .int }
    |>.add { names := [c!"--hsync"] }
    |>.add { names := [c!"--monitor"] }
    |>.add { names := [c!"--noprobe"], dest := some c!"noProbe", kind := .storeConst, nargs := .n 0, const := .bool true, default := some (.bool false) }
    |>.add { names := [c!"--resolution"] }
    |>.add { names := [c!"--server"] }
    |>.add { names := [c!"--startxonboot"], dest := some c!"startX", kind := .storeConst, nargs := .n 0, const := .bool true, default := some (.bool false) }
    |>.add { names := [c!"--videoram"], dest := some c!"videoRam" }
    |>.add { names := [c!"--vsync"] }
/-- `commands/xconfig.py:44-73` `__str__` -/
def FC3_XConfig.strOut : Out :=
  [(.or (.tru c!"card") (.or (.tru c!"defaultdesktop") (.or (.not (.eq c!"depth" (.int 0))) (.or (.tru c!"hsync") (.or (.tru c!"monitor") (.or (.tru c!"noProbe") (.or (.tru c!"resolution") (.or (.tru c!"server") (.or (.tru c!"startX") (.or (.tru c!"videoRam") (.tru c!"vsync")))))))))), [.lit c!"# X Window System configuration information\nxconfig "]),
    (.tru c!"card", [.lit c!" --card=", .fld c!"card"]),
    (.tru c!"defaultdesktop", [.lit c!" --defaultdesktop=", .fld c!"defaultdesktop"]),
    (.not (.eq c!"depth" (.int 0)), [.lit c!" --depth=", .fld c!"depth"]),
    (.tru c!"hsync", [.lit c!" --hsync=", .fld c!"hsync"]),
    (.tru c!"monitor", [.lit c!" --monitor=", .fld c!"monitor"]),
    (.tru c!"noProbe", [.lit c!" --noprobe"]),
    (.tru c!"resolution", [.lit c!" --resolution=", .fld c!"resolution"]),
    (.tru c!"server", [.lit c!" --server=", .fld c!"server"]),
    (.tru c!"startX", [.lit c!" --startxonboot"]),
    (.tru c!"videoRam", [.lit c!" --videoram=", .fld c!"videoRam"]),
    (.tru c!"vsync", [.lit c!" --vsync=", .fld c!"vsync"]),
    (.or (.tru c!"card") (.or (.tru c!"defaultdesktop") (.or (.not (.eq c!"depth" (.int 0))) (.or (.tru c!"hsync") (.or (.tru c!"monitor") (.or (.tru c!"noProbe") (.or (.tru c!"resolution") (.or (.tru c!"server") (.or (.tru c!"startX") (.or (.tru c!"videoRam") (.tru c!"vsync")))))))))), [.lit c!"\n"])]
/-- `commands/xconfig.py:101-104` `parse` -/
def FC3_XConfig.parse (k : Info) (args : List Str) : M Unit := do
  let ns ← M.parseArgs k.op args
  M.setToSelf ns
/-- `commands/xconfig.py:24-104` -/
def FC3_XConfig.info : Info := { op := FC3_XConfig.op }
/-- `commands/xconfig.py:24-104` -/
def FC3_XConfig.cls : Command := plainCmd c!"FC3_XConfig" (some 0) FC3_XConfig.init (FC3_XConfig.parse FC3_XConfig.info) (FC3_XConfig.strOut.render)

/-- `commands/xconfig.py:110-114` `__init__` -/
def FC6_XConfig.init : Ns := Ns.without (Ns.updated FC3_XConfig.init [(c!"driver", .str [])]) [c!"card", c!"hsync", c!"monitor", c!"noProbe", c!"server", c!"vsync"]
/-- `commands/xconfig.py:137-146` `_getParser` -/
def FC6_XConfig.op : OptParser :=
  FC3_XConfig.op
    |>.add { names := [c!"--card"], deprecated := true }
    |>.add { names := [c!"--driver"] }
    |>.add { names := [c!"--hsync"], deprecated := true }
    |>.add { names := [c!"--monitor"], deprecated := true }
    |>.add { names := [c!"--noprobe"], deprecated := true }
    |>.add { names := [c!"--vsync"], deprecated := true }
    |>.remove c!"--server"
/-- `commands/xconfig.py:116-135` `__str__` -/
def FC6_XConfig.strOut : Out :=
  [(.or (.and (.has c!"driver") (.tru c!"driver")) (.or (.tru c!"defaultdesktop") (.or (.not (.eq c!"depth" (.int 0))) (.or (.and (.has c!"resolution") (.tru c!"resolution")) (.or (.tru c!"startX") (.and (.has c!"videoRam") (.tru c!"videoRam")))))), [.lit c!"# X Window System configuration information\nxconfig "]),
    (.and (.has c!"driver") (.tru c!"driver"), [.lit c!" --driver=", .fld c!"driver"]),
    (.tru c!"defaultdesktop", [.lit c!" --defaultdesktop=", .fld c!"defaultdesktop"]),
    (.not (.eq c!"depth" (.int 0)), [.lit c!" --depth=", .fld c!"depth"]),
    (.and (.has c!"resolution") (.tru c!"resolution"), [.lit c!" --resolution=", .fld c!"resolution"]),
    (.tru c!"startX", [.lit c!" --startxonboot"]),
    (.and (.has c!"videoRam") (.tru c!"videoRam"), [.lit c!" --videoram=", .fld c!"videoRam"]),
    (.or (.and (.has c!"driver") (.tru c!"driver")) (.or (.tru c!"defaultdesktop") (.or (.not (.eq c!"depth" (.int 0))) (.or (.and (.has c!"resolution") (.tru c!"resolution")) (.or (.tru c!"startX") (.and (.has c!"videoRam") (.tru c!"videoRam")))))), [.lit c!"\n"])]
/-- `commands/xconfig.py:106-146` -/
def FC6_XConfig.info : Info := { op := FC6_XConfig.op }
/-- `commands/xconfig.py:106-146` -/
def FC6_XConfig.cls : Command := plainCmd c!"FC6_XConfig" (some 0) FC6_XConfig.init (FC3_XConfig.parse FC6_XConfig.info) (FC6_XConfig.strOut.render)

/-- `commands/xconfig.py:148-159`: `__init__` is inherited. -/
def F9_XConfig.init : Ns := FC6_XConfig.init
/-- `commands/xconfig.py:152-159` `_getParser` -/
def F9_XConfig.op : OptParser :=
  FC6_XConfig.op
    |>.remove c!"--card"
    |>.remove c!"--hsync"
    |>.remove c!"--monitor"
    |>.remove c!"--noprobe"
    |>.remove c!"--vsync"
/-- `commands/xconfig.py:148-159` -/
def F9_XConfig.info : Info := { op := F9_XConfig.op }
/-- `commands/xconfig.py:148-159` -/
def F9_XConfig.cls : Command := plainCmd c!"F9_XConfig" (some 0) F9_XConfig.init (FC3_XConfig.parse F9_XConfig.info) (FC6_XConfig.strOut.render)

/-- `commands/xconfig.py:165-167` `__init__` -/
def F10_XConfig.init : Ns := Ns.without (F9_XConfig.init) [c!"resolution", c!"videoRam", c!"driver"]
/-- `commands/xconfig.py:169-175` `_getParser` -/
def F10_XConfig.op : OptParser :=
  F9_XConfig.op
    |>.add { names := [c!"--driver"], deprecated := true }
    |>.add { names := [c!"--depth"], deprecated := true }
    |>.add { names := [c!"--resolution"], deprecated := true }
    |>.add { names := [c!"--videoram"], deprecated := true }
/-- `commands/xconfig.py:161-175` -/
def F10_XConfig.info : Info := { op := F10_XConfig.op }
/-- `commands/xconfig.py:161-175` -/
def F10_XConfig.cls : Command := plainCmd c!"F10_XConfig" (some 0) F10_XConfig.init (FC3_XConfig.parse F10_XConfig.info) (FC6_XConfig.strOut.render)

/-- `commands/xconfig.py:177-187`: `__init__` is inherited. -/
def F14_XConfig.init : Ns := F10_XConfig.init
/-- `commands/xconfig.py:181-187` `_getParser` -/
def F14_XConfig.op : OptParser :=
  F10_XConfig.op
    |>.remove c!"--driver"
    |>.remove c!"--depth"
    |>.remove c!"--resolution"
    |>.remove c!"--videoram"
/-- `commands/xconfig.py:177-187` -/
def F14_XConfig.info : Info := { op := F14_XConfig.op }
/-- `commands/xconfig.py:177-187` -/
def F14_XConfig.cls : Command := plainCmd c!"F14_XConfig" (some 0) F14_XConfig.init (FC3_XConfig.parse F14_XConfig.info) (FC6_XConfig.strOut.render)

end Ks.Cmd
