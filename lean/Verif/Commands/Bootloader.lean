import Verif.Commands.Base
/-!
# `/repo/pykickstart/commands/bootloader.py`

Written by `scripts/gen_commands.py` from the text of that file; see there and
`Verif/Commands/Base.lean` for how a class is represented.
-/
namespace Ks.Cmd

/-- `commands/bootloader.py:32-46` `__init__` -/
def FC3_Bootloader.init : Ns := [(c!"driveorder", .list []), (c!"appendLine", .str []), (c!"forceLBA", .bool false), (c!"linear", .bool true), (c!"location", .str c!"none"), (c!"md5pass", .str []), (c!"password", .str []), (c!"upgrade", .bool false), (c!"useLilo", .bool false)]
/-- `commands/bootloader.py:81-143` `_getParser` -/
def FC3_Bootloader.op : OptParser :=
  OptParser.empty
    |>.add { names := [c!"--append"], dest := some c!"appendLine" }
    |>.add { names := [c!"--linear"], kind := .storeConst, nargs := .n 0, const := .bool true, default := some (.bool true) }
    |>.add { names := [c!"--nolinear"], dest := some c!"linear", kind := .storeConst, nargs := .n 0, const := .bool false, default := some (.bool true) }
    |>.add { names := [c!"--location"], default := some (.str c!"mbr"), choices := some [c!"mbr", c!"partition", c!"none", c!"boot"] }
    |>.add { names := [c!"--lba32"], dest := some c!"forceLBA", kind := .storeConst, nargs := .n 0, const := .bool true, default := some (.bool false) }
    |>.add { names := [c!"--password"], default := some (.str []) }
    |>.add { names := [c!"--md5pass"], default := some (.str []) }
    |>.add { names := [c!"--upgrade"], kind := .storeConst, nargs := .n 0, const := .bool true, default := some (.bool false) }
    |>.add { names := [c!"--useLilo"], kind := .storeConst, nargs := .n 0, const := .bool true, default := some (.bool false) }
    |>.add { names := [c!"--driveorder"], ty := .comma }
/-- `commands/bootloader.py:48-70` `_getArgsAsStr` -/
def FC3_Bootloader.args : Out :=
  [(.tru c!"appendLine", [.lit c!" --append=\"", .fld c!"appendLine", .lit c!"\""]),
    (.tru c!"linear", [.lit c!" --linear"]),
    (.tru c!"location", [.lit c!" --location=", .fld c!"location"]),
    (.and (.has c!"forceLBA") (.tru c!"forceLBA"), [.lit c!" --lba32"]),
    (.tru c!"password", [.lit c!" --password=\"", .fld c!"password", .lit c!"\""]),
    (.tru c!"md5pass", [.lit c!" --md5pass=\"", .fld c!"md5pass", .lit c!"\""]),
    (.tru c!"upgrade", [.lit c!" --upgrade"]),
    (.tru c!"useLilo", [.lit c!" --useLilo"]),
    (.tru c!"driveorder", [.lit c!" --driveorder=\"", .join c!"," c!"driveorder", .lit c!"\""])]
/-- `commands/bootloader.py:72-79` `__str__` -/
def FC3_Bootloader.strOut (args : Out) : Out :=
  [(.tru c!"location", [.lit c!"# System bootloader configuration\nbootloader"])] ++
    Out.guard (.tru c!"location") args ++
    [(.tru c!"location", [.lit c!"\n"])]
/-- `commands/bootloader.py:145-152` `parse` -/
def FC3_Bootloader.parse (k : Info) (args : List Str) : M Unit := do
  let ns ← M.parseArgs k.op args
  M.setToSelf ns
  let x1 ← M.currentCmd
  M.when (decide (x1 = c!"lilo")) (do
    M.set c!"useLilo" (Val.bool true))
  return ()
/-- `commands/bootloader.py:28-152` -/
def FC3_Bootloader.info : Info := { op := FC3_Bootloader.op }
/-- `commands/bootloader.py:28-152` -/
def FC3_Bootloader.cls : Command := plainCmd c!"FC3_Bootloader" (some 10) FC3_Bootloader.init (FC3_Bootloader.parse FC3_Bootloader.info) ((FC3_Bootloader.strOut FC3_Bootloader.args).render)

/-- `commands/bootloader.py:155-163`: `__init__` is inherited. -/
def FC3_Lilo.init : Ns := FC3_Bootloader.init
/-- `commands/bootloader.py:160-163` `_getParser` -/
def FC3_Lilo.op : OptParser := FC3_Bootloader.op
/-- `commands/bootloader.py:155-163` -/
def FC3_Lilo.info : Info := { op := FC3_Lilo.op }
/-- `commands/bootloader.py:155-163` -/
def FC3_Lilo.cls : Command := plainCmd c!"FC3_Lilo" (some 10) FC3_Lilo.init (FC3_Bootloader.parse FC3_Lilo.info) ((FC3_Bootloader.strOut FC3_Bootloader.args).render)

/-- `base.py:229-235` `__init__` -/
def FC4_Lilo.init : Ns := []
/-- `commands/bootloader.py:166-169` `_getParser` -/
def FC4_Lilo.op : OptParser := FC3_Lilo.op
/-- `commands/bootloader.py:165-169` -/
def FC4_Lilo.cls : Command := removedCmd c!"FC4_Lilo" FC4_Lilo.init

/-- `commands/bootloader.py:176-177` `__init__` -/
def FC4_Bootloader.init : Ns := Ns.without (FC3_Bootloader.init) [c!"linear", c!"useLilo"]
/-- `commands/bootloader.py:197-202` `_getParser` -/
def FC4_Bootloader.op : OptParser :=
  FC3_Bootloader.op
    |>.remove c!"--linear"
    |>.remove c!"--nolinear"
    |>.remove c!"--useLilo"
/-- `commands/bootloader.py:179-195` `_getArgsAsStr` -/
def FC4_Bootloader.args : Out :=
  [(.tru c!"appendLine", [.lit c!" --append=\"", .fld c!"appendLine", .lit c!"\""]),
    (.tru c!"location", [.lit c!" --location=", .fld c!"location"]),
    (.and (.has c!"forceLBA") (.tru c!"forceLBA"), [.lit c!" --lba32"]),
    (.tru c!"password", [.lit c!" --password=\"", .fld c!"password", .lit c!"\""]),
    (.tru c!"md5pass", [.lit c!" --md5pass=\"", .fld c!"md5pass", .lit c!"\""]),
    (.tru c!"upgrade", [.lit c!" --upgrade"]),
    (.tru c!"driveorder", [.lit c!" --driveorder=\"", .join c!"," c!"driveorder", .lit c!"\""])]
/-- `commands/bootloader.py:204-207` `parse` -/
def FC4_Bootloader.parse (k : Info) (args : List Str) : M Unit := do
  let ns ← M.parseArgs k.op args
  M.setToSelf ns
/-- `commands/bootloader.py:172-207` -/
def FC4_Bootloader.info : Info := { op := FC4_Bootloader.op }
/-- `commands/bootloader.py:172-207` -/
def FC4_Bootloader.cls : Command := plainCmd c!"FC4_Bootloader" (some 10) FC4_Bootloader.init (FC4_Bootloader.parse FC4_Bootloader.info) ((FC3_Bootloader.strOut FC4_Bootloader.args).render)

/-- `commands/bootloader.py:213-217` `__init__` -/
def F8_Bootloader.init : Ns := Ns.updated FC4_Bootloader.init [(c!"timeout", .none), (c!"default", .str [])]
/-- `commands/bootloader.py:229-237` `_getParser` -/
def F8_Bootloader.op : OptParser :=
  FC4_Bootloader.op
    |>.add { names := [c!"--timeout"], ty := .int }
    |>.add { names := [c!"--default"] }
/-- `commands/bootloader.py:219-227` `_getArgsAsStr` -/
def F8_Bootloader.args : Out :=
  FC4_Bootloader.args ++
    [(.not (.eq c!"timeout" .none), [.lit c!" --timeout=", .fld c!"timeout"]),
    (.tru c!"default", [.lit c!" --default=", .fld c!"default"])]
/-- `commands/bootloader.py:209-237` -/
def F8_Bootloader.info : Info := { op := F8_Bootloader.op }
/-- `commands/bootloader.py:209-237` -/
def F8_Bootloader.cls : Command := plainCmd c!"F8_Bootloader" (some 10) F8_Bootloader.init (FC4_Bootloader.parse F8_Bootloader.info) ((FC3_Bootloader.strOut F8_Bootloader.args).render)

/-- `commands/bootloader.py:239-248`: `__init__` is inherited. -/
def F12_Bootloader.init : Ns := F8_Bootloader.init
/-- `commands/bootloader.py:243-248` `_getParser` -/
def F12_Bootloader.op : OptParser :=
  F8_Bootloader.op
    |>.add { names := [c!"--lba32"], dest := some c!"forceLBA", kind := .storeConst, nargs := .n 0, const := .bool true, default := some (.bool false), deprecated := true }
/-- `commands/bootloader.py:239-248` -/
def F12_Bootloader.info : Info := { op := F12_Bootloader.op }
/-- `commands/bootloader.py:239-248` -/
def F12_Bootloader.cls : Command := plainCmd c!"F12_Bootloader" (some 10) F12_Bootloader.init (FC4_Bootloader.parse F12_Bootloader.info) ((FC3_Bootloader.strOut F8_Bootloader.args).render)

/-- `commands/bootloader.py:213-217` `__init__` -/
def F14_Bootloader.init : Ns := Ns.without (F12_Bootloader.init) [c!"forceLBA"]
/-- `commands/bootloader.py:254-257` `_getParser` -/
def F14_Bootloader.op : OptParser :=
  F12_Bootloader.op
    |>.remove c!"--lba32"
/-- `commands/bootloader.py:250-257` -/
def F14_Bootloader.info : Info := { op := F14_Bootloader.op }
/-- `commands/bootloader.py:250-257` -/
def F14_Bootloader.cls : Command := plainCmd c!"F14_Bootloader" (some 10) F14_Bootloader.init (FC4_Bootloader.parse F14_Bootloader.info) ((FC3_Bootloader.strOut F8_Bootloader.args).render)

/-- `commands/bootloader.py:263-266` `__init__` -/
def F15_Bootloader.init : Ns := Ns.updated F14_Bootloader.init [(c!"isCrypted", .bool false)]
/-- `commands/bootloader.py:276-286` `_getParser` -/
def F15_Bootloader.op : OptParser :=
  F14_Bootloader.op
    |>.add { names := [c!"--iscrypted"], dest := some c!"isCrypted", kind := .storeConst, nargs := .n 0, const := .bool true, default := some (.bool false) }
    |>.add { names := [c!"--md5pass"], dest := some c!"_md5pass" }
/-- `commands/bootloader.py:268-274` `_getArgsAsStr` -/
def F15_Bootloader.args : Out :=
  F8_Bootloader.args ++
    [(.tru c!"isCrypted", [.lit c!" --iscrypted"])]
/-- `commands/bootloader.py:288-299` `parse` -/
def F15_Bootloader.parse (k : Info) (args : List Str) : M Unit := do
  let ns ← M.parseArgs k.op args
  let ns := if (ns.getD c!"_md5pass").truthy then Ns.without ((ns.set c!"password" (ns.getD c!"_md5pass")).set c!"isCrypted" (Val.bool true)) [c!"_md5pass"] else ns
  M.setToSelf ns
/-- `commands/bootloader.py:259-299` -/
def F15_Bootloader.info : Info := { op := F15_Bootloader.op }
/-- `commands/bootloader.py:259-299` -/
def F15_Bootloader.cls : Command := plainCmd c!"F15_Bootloader" (some 10) F15_Bootloader.init (F15_Bootloader.parse F15_Bootloader.info) ((FC3_Bootloader.strOut F15_Bootloader.args).render)

/-- `commands/bootloader.py:305-308` `__init__` -/
def F17_Bootloader.init : Ns := Ns.updated F15_Bootloader.init [(c!"bootDrive", .str [])]
/-- `commands/bootloader.py:318-324` `_getParser` -/
def F17_Bootloader.op : OptParser :=
  F15_Bootloader.op
    |>.add { names := [c!"--boot-drive"], dest := some c!"bootDrive", default := some (.str []) }
/-- `commands/bootloader.py:310-316` `_getArgsAsStr` -/
def F17_Bootloader.args : Out :=
  F15_Bootloader.args ++
    [(.tru c!"bootDrive", [.lit c!" --boot-drive=", .fld c!"bootDrive"])]
/-- `commands/bootloader.py:326-332` `parse` -/
def F17_Bootloader.parse (k : Info) (args : List Str) : M Unit := do
  F15_Bootloader.parse k args
  let self ← M.self
  M.failIf ((self.getD c!"bootDrive").hasChar ',') c!"--boot-drive accepts only one argument"
/-- `commands/bootloader.py:301-332` -/
def F17_Bootloader.info : Info := { op := F17_Bootloader.op }
/-- `commands/bootloader.py:301-332` -/
def F17_Bootloader.cls : Command := plainCmd c!"F17_Bootloader" (some 10) F17_Bootloader.init (F17_Bootloader.parse F17_Bootloader.info) ((FC3_Bootloader.strOut F17_Bootloader.args).render)

/-- `commands/bootloader.py:338-341` `__init__` -/
def F18_Bootloader.init : Ns := Ns.updated F17_Bootloader.init [(c!"leavebootorder", .bool false)]
/-- `commands/bootloader.py:351-358` `_getParser` -/
def F18_Bootloader.op : OptParser :=
  F17_Bootloader.op
    |>.add { names := [c!"--leavebootorder"], kind := .storeConst, nargs := .n 0, const := .bool true, default := some (.bool false) }
/-- `commands/bootloader.py:343-349` `_getArgsAsStr` -/
def F18_Bootloader.args : Out :=
  F17_Bootloader.args ++
    [(.tru c!"leavebootorder", [.lit c!" --leavebootorder"])]
/-- `commands/bootloader.py:334-358` -/
def F18_Bootloader.info : Info := { op := F18_Bootloader.op }
/-- `commands/bootloader.py:334-358` -/
def F18_Bootloader.cls : Command := plainCmd c!"F18_Bootloader" (some 10) F18_Bootloader.init (F17_Bootloader.parse F18_Bootloader.info) ((FC3_Bootloader.strOut F18_Bootloader.args).render)

/-- `commands/bootloader.py:364-367` `__init__` -/
def RHEL5_Bootloader.init : Ns := Ns.updated FC4_Bootloader.init [(c!"hvArgs", .str [])]
/-- `commands/bootloader.py:377-383` `_getParser` -/
def RHEL5_Bootloader.op : OptParser :=
  FC4_Bootloader.op
    |>.add { names := [c!"--hvargs"], dest := some c!"hvArgs" }
/-- `commands/bootloader.py:369-375` `_getArgsAsStr` -/
def RHEL5_Bootloader.args : Out :=
  FC4_Bootloader.args ++
    [(.tru c!"hvArgs", [.lit c!" --hvargs=\"", .fld c!"hvArgs", .lit c!"\""])]
/-- `commands/bootloader.py:360-383` -/
def RHEL5_Bootloader.info : Info := { op := RHEL5_Bootloader.op }
/-- `commands/bootloader.py:360-383` -/
def RHEL5_Bootloader.cls : Command := plainCmd c!"RHEL5_Bootloader" (some 10) RHEL5_Bootloader.init (FC4_Bootloader.parse RHEL5_Bootloader.info) ((FC3_Bootloader.strOut RHEL5_Bootloader.args).render)

/-- `commands/bootloader.py:389-392` `__init__` -/
def RHEL6_Bootloader.init : Ns := Ns.updated F12_Bootloader.init [(c!"isCrypted", .bool false)]
/-- `commands/bootloader.py:402-412` `_getParser` -/
def RHEL6_Bootloader.op : OptParser :=
  F12_Bootloader.op
    |>.add { names := [c!"--iscrypted"], dest := some c!"isCrypted", kind := .storeConst, nargs := .n 0, const := .bool true, default := some (.bool false) }
    |>.add { names := [c!"--md5pass"], dest := some c!"_md5pass" }
/-- `commands/bootloader.py:394-400` `_getArgsAsStr` -/
def RHEL6_Bootloader.args : Out :=
  F8_Bootloader.args ++
    [(.tru c!"isCrypted", [.lit c!" --iscrypted"])]
/-- `commands/bootloader.py:414-425` `parse` -/
def RHEL6_Bootloader.parse (k : Info) (args : List Str) : M Unit := do
  let ns ← M.parseArgs k.op args
  let ns := if (ns.getD c!"_md5pass").truthy then Ns.without ((ns.set c!"password" (ns.getD c!"_md5pass")).set c!"isCrypted" (Val.bool true)) [c!"_md5pass"] else ns
  M.setToSelf ns
/-- `commands/bootloader.py:385-425` -/
def RHEL6_Bootloader.info : Info := { op := RHEL6_Bootloader.op }
/-- `commands/bootloader.py:385-425` -/
def RHEL6_Bootloader.cls : Command := plainCmd c!"RHEL6_Bootloader" (some 10) RHEL6_Bootloader.init (RHEL6_Bootloader.parse RHEL6_Bootloader.info) ((FC3_Bootloader.strOut RHEL6_Bootloader.args).render)

/-- `commands/bootloader.py:431-434` `__init__` -/
def F19_Bootloader.init : Ns := Ns.updated F18_Bootloader.init [(c!"extlinux", .bool false)]
/-- `commands/bootloader.py:444-450` `_getParser` -/
def F19_Bootloader.op : OptParser :=
  F18_Bootloader.op
    |>.add { names := [c!"--extlinux"], kind := .storeConst, nargs := .n 0, const := .bool true, default := some (.bool false) }
/-- `commands/bootloader.py:436-442` `_getArgsAsStr` -/
def F19_Bootloader.args : Out :=
  F18_Bootloader.args ++
    [(.tru c!"extlinux", [.lit c!" --extlinux"])]
/-- `commands/bootloader.py:427-450` -/
def F19_Bootloader.info : Info := { op := F19_Bootloader.op }
/-- `commands/bootloader.py:427-450` -/
def F19_Bootloader.cls : Command := plainCmd c!"F19_Bootloader" (some 10) F19_Bootloader.init (F17_Bootloader.parse F19_Bootloader.info) ((FC3_Bootloader.strOut F19_Bootloader.args).render)

/-- `commands/bootloader.py:456-460` `__init__` -/
def F21_Bootloader.init : Ns := Ns.updated F19_Bootloader.init [(c!"disabled", .bool false), (c!"nombr", .bool false)]
/-- `commands/bootloader.py:471-490` `_getParser` -/
def F21_Bootloader.op : OptParser :=
  F19_Bootloader.op
    |>.add { names := [c!"--disabled"], kind := .storeConst, nargs := .n 0, const := .bool true, default := some (.bool false) }
    |>.add { names := [c!"--nombr"], kind := .storeConst, nargs := .n 0, const := .bool true, default := some (.bool false) }
/-- `commands/bootloader.py:462-469` `_getArgsAsStr` -/
def F21_Bootloader.args : Out :=
  [(.tru c!"disabled", [.lit c!" --disabled"])] ++
    Out.guard (.not (.tru c!"disabled")) (F19_Bootloader.args) ++
    [(.and (.not (.tru c!"disabled")) (.tru c!"nombr"), [.lit c!" --nombr"])]
/-- `commands/bootloader.py:452-490` -/
def F21_Bootloader.info : Info := { op := F21_Bootloader.op }
/-- `commands/bootloader.py:452-490` -/
def F21_Bootloader.cls : Command := plainCmd c!"F21_Bootloader" (some 10) F21_Bootloader.init (F17_Bootloader.parse F21_Bootloader.info) ((FC3_Bootloader.strOut F21_Bootloader.args).render)

/-- `commands/bootloader.py:492-493`: `__init__` is inherited. -/
def RHEL7_Bootloader.init : Ns := F21_Bootloader.init
/-- `commands/bootloader.py:492-493` -/
def RHEL7_Bootloader.info : Info := { op := F21_Bootloader.op }
/-- `commands/bootloader.py:492-493` -/
def RHEL7_Bootloader.cls : Command := plainCmd c!"RHEL7_Bootloader" (some 10) RHEL7_Bootloader.init (F17_Bootloader.parse RHEL7_Bootloader.info) ((FC3_Bootloader.strOut F21_Bootloader.args).render)

/-- `commands/bootloader.py:495-503`: `__init__` is inherited. -/
def F29_Bootloader.init : Ns := F21_Bootloader.init
/-- `commands/bootloader.py:499-503` `_getParser` -/
def F29_Bootloader.op : OptParser :=
  F21_Bootloader.op
    |>.add { names := [c!"--upgrade"], kind := .storeConst, nargs := .n 0, const := .bool true, default := some (.bool false), deprecated := true }
/-- `commands/bootloader.py:495-503` -/
def F29_Bootloader.info : Info := { op := F29_Bootloader.op }
/-- `commands/bootloader.py:495-503` -/
def F29_Bootloader.cls : Command := plainCmd c!"F29_Bootloader" (some 10) F29_Bootloader.init (F17_Bootloader.parse F29_Bootloader.info) ((FC3_Bootloader.strOut F21_Bootloader.args).render)

/-- `commands/bootloader.py:505-506`: `__init__` is inherited. -/
def RHEL8_Bootloader.init : Ns := F29_Bootloader.init
/-- `commands/bootloader.py:505-506` -/
def RHEL8_Bootloader.info : Info := { op := F29_Bootloader.op }
/-- `commands/bootloader.py:505-506` -/
def RHEL8_Bootloader.cls : Command := plainCmd c!"RHEL8_Bootloader" (some 10) RHEL8_Bootloader.init (F17_Bootloader.parse RHEL8_Bootloader.info) ((FC3_Bootloader.strOut F21_Bootloader.args).render)

/-- `commands/bootloader.py:508-515`: `__init__` is inherited. -/
def F34_Bootloader.init : Ns := F29_Bootloader.init
/-- `commands/bootloader.py:512-515` `_getParser` -/
def F34_Bootloader.op : OptParser :=
  F29_Bootloader.op
    |>.remove c!"--upgrade"
/-- `commands/bootloader.py:508-515` -/
def F34_Bootloader.info : Info := { op := F34_Bootloader.op }
/-- `commands/bootloader.py:508-515` -/
def F34_Bootloader.cls : Command := plainCmd c!"F34_Bootloader" (some 10) F34_Bootloader.init (F17_Bootloader.parse F34_Bootloader.info) ((FC3_Bootloader.strOut F21_Bootloader.args).render)

end Ks.Cmd
