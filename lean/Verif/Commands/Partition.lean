import Verif.Commands.Base
/-!
# `/repo/pykickstart/commands/partition.py`

Written by `scripts/gen_commands.py` from the text of that file; see there and
`Verif/Commands/Base.lean` for how a class is represented.
-/
namespace Ks.Cmd

/-- `commands/partition.py:33-48` `__init__` -/
def FC3_PartData.init : Ns := [(c!"lineno", .int 0), (c!"active", .bool false), (c!"primOnly", .bool false), (c!"end", .int 0), (c!"fstype", .str []), (c!"grow", .bool false), (c!"maxSizeMB", .int 0), (c!"format", .bool true), (c!"onbiosdisk", .str []), (c!"disk", .str []), (c!"onPart", .str []), (c!"recommended", .bool false), (c!"size", .none), (c!"start", .int 0), (c!"mountpoint", .str [])]
/-- `commands/partition.py:59-89` `_getArgsAsStr` -/
def FC3_PartData.args : Out :=
  [(.tru c!"active", [.lit c!" --active"]),
    (.tru c!"primOnly", [.lit c!" --asprimary"]),
    (.and (.has c!"end") (.not (.eq c!"end" (.int 0))), [.lit c!" --end=", .fld c!"end"]),
    (.tru c!"fstype", [.lit c!" --fstype=\"", .fld c!"fstype", .lit c!"\""]),
    (.tru c!"grow", [.lit c!" --grow"]),
    (.gt c!"maxSizeMB" 0, [.lit c!" --maxsize=", .fld c!"maxSizeMB"]),
    (.not (.tru c!"format"), [.lit c!" --noformat"]),
    (.tru c!"onbiosdisk", [.lit c!" --onbiosdisk=", .fld c!"onbiosdisk"]),
    (.tru c!"disk", [.lit c!" --ondisk=", .fld c!"disk"]),
    (.tru c!"onPart", [.lit c!" --onpart=", .fld c!"onPart"]),
    (.tru c!"recommended", [.lit c!" --recommended"]),
    (.and (.tru c!"size") (.not (.eq c!"size" (.int 0))), [.lit c!" --size=", .fld c!"size"]),
    (.and (.has c!"start") (.not (.eq c!"start" (.int 0))), [.lit c!" --start=", .fld c!"start"])]
/-- `commands/partition.py:91-94` `__str__` -/
def FC3_PartData.strOut (args : Out) : Out :=
  [(.tt, [.lit c!"part ", .fld c!"mountpoint"])] ++
    args ++
    [(.tt, [.lit c!"\n"])]
/-- `commands/partition.py:50-54` `__eq__` -/
def FC3_PartData.eq : Ns → Ns → Bool := sameAttrs [c!"mountpoint"]
/-- `commands/partition.py:29-94` -/
def FC3_PartData.cls : DataCls := { init := FC3_PartData.init, str := (FC3_PartData.strOut FC3_PartData.args).render, eq := FC3_PartData.eq }

/-- `commands/partition.py:100-104` `__init__` -/
def FC4_PartData.init : Ns := Ns.updated FC3_PartData.init [(c!"bytesPerInode", .int 4096), (c!"fsopts", .str []), (c!"label", .str [])]
/-- `commands/partition.py:106-116` `_getArgsAsStr` -/
def FC4_PartData.args : Out :=
  FC3_PartData.args ++
    [(.and (.has c!"bytesPerInode") (.not (.eq c!"bytesPerInode" (.int 0))), [.lit c!" --bytes-per-inode=", .fld c!"bytesPerInode"]),
    (.tru c!"fsopts", [.lit c!" --fsoptions=\"", .fld c!"fsopts", .lit c!"\""]),
    (.tru c!"label", [.lit c!" --label=", .fld c!"label"])]
/-- `commands/partition.py:96-116` -/
def FC4_PartData.cls : DataCls := { init := FC4_PartData.init, str := (FC3_PartData.strOut FC4_PartData.args).render, eq := FC3_PartData.eq }

/-- `commands/partition.py:122-125` `__init__` -/
def RHEL5_PartData.init : Ns := Ns.updated FC4_PartData.init [(c!"encrypted", .bool false), (c!"passphrase", .str [])]
/-- `commands/partition.py:127-136` `_getArgsAsStr` -/
def RHEL5_PartData.args : Out :=
  FC4_PartData.args ++
    [(.tru c!"encrypted", [.lit c!" --encrypted"]),
    (.and (.tru c!"encrypted") (.tru c!"passphrase"), [.lit c!" --passphrase=\"", .fld c!"passphrase", .lit c!"\""])]
/-- `commands/partition.py:118-136` -/
def RHEL5_PartData.cls : DataCls := { init := RHEL5_PartData.init, str := (FC3_PartData.strOut RHEL5_PartData.args).render, eq := FC3_PartData.eq }

/-- `commands/partition.py:142-150` `__init__` -/
def F9_PartData.init : Ns := Ns.without (Ns.updated FC4_PartData.init [(c!"fsprofile", .str []), (c!"encrypted", .bool false), (c!"passphrase", .str [])]) [c!"bytesPerInode"]
/-- `commands/partition.py:152-163` `_getArgsAsStr` -/
def F9_PartData.args : Out :=
  FC4_PartData.args ++
    [(.tru c!"fsprofile", [.lit c!" --fsprofile=\"", .fld c!"fsprofile", .lit c!"\""]),
    (.tru c!"encrypted", [.lit c!" --encrypted"]),
    (.and (.tru c!"encrypted") (.tru c!"passphrase"), [.lit c!" --passphrase=\"", .fld c!"passphrase", .lit c!"\""])]
/-- `commands/partition.py:138-163` -/
def F9_PartData.cls : DataCls := { init := F9_PartData.init, str := (FC3_PartData.strOut F9_PartData.args).render, eq := FC3_PartData.eq }

/-- `commands/partition.py:142-150` `__init__` -/
def F11_PartData.init : Ns := Ns.without (F9_PartData.init) [c!"end", c!"start"]
/-- `commands/partition.py:165-167` -/
def F11_PartData.cls : DataCls := { init := F11_PartData.init, str := (FC3_PartData.strOut F9_PartData.args).render, eq := FC3_PartData.eq }

/-- `commands/partition.py:173-177` `__init__` -/
def F12_PartData.init : Ns := Ns.updated F11_PartData.init [(c!"escrowcert", .str []), (c!"backuppassphrase", .bool false)]
/-- `commands/partition.py:179-188` `_getArgsAsStr` -/
def F12_PartData.args : Out :=
  F9_PartData.args ++
    [(.and (.tru c!"encrypted") (.tru c!"escrowcert"), [.lit c!" --escrowcert=\"", .fld c!"escrowcert", .lit c!"\""]),
    (.and (.and (.tru c!"encrypted") (.tru c!"escrowcert")) (.tru c!"backuppassphrase"), [.lit c!" --backuppassphrase"])]
/-- `commands/partition.py:169-188` -/
def F12_PartData.cls : DataCls := { init := F12_PartData.init, str := (FC3_PartData.strOut F12_PartData.args).render, eq := FC3_PartData.eq }

/-- `commands/partition.py:194-198` `__init__` -/
def RHEL6_PartData.init : Ns := Ns.updated F12_PartData.init [(c!"cipher", .str []), (c!"hibernation", .bool false)]
/-- `commands/partition.py:200-208` `_getArgsAsStr` -/
def RHEL6_PartData.args : Out :=
  F12_PartData.args ++
    [(.and (.tru c!"encrypted") (.tru c!"cipher"), [.lit c!" --cipher=\"", .fld c!"cipher", .lit c!"\""]),
    (.tru c!"hibernation", [.lit c!" --hibernation"])]
/-- `commands/partition.py:190-208` -/
def RHEL6_PartData.cls : DataCls := { init := RHEL6_PartData.init, str := (FC3_PartData.strOut RHEL6_PartData.args).render, eq := FC3_PartData.eq }

/-- `commands/partition.py:210-211`: `__init__` is inherited. -/
def F14_PartData.init : Ns := F12_PartData.init
/-- `commands/partition.py:210-211` -/
def F14_PartData.cls : DataCls := { init := F14_PartData.init, str := (FC3_PartData.strOut F12_PartData.args).render, eq := FC3_PartData.eq }

/-- `commands/partition.py:217-220` `__init__` -/
def F17_PartData.init : Ns := Ns.updated F14_PartData.init [(c!"resize", .bool false)]
/-- `commands/partition.py:222-228` `_getArgsAsStr` -/
def F17_PartData.args : Out :=
  F12_PartData.args ++
    [(.tru c!"resize", [.lit c!" --resize"])]
/-- `commands/partition.py:213-228` -/
def F17_PartData.cls : DataCls := { init := F17_PartData.init, str := (FC3_PartData.strOut F17_PartData.args).render, eq := FC3_PartData.eq }

/-- `commands/partition.py:234-238` `__init__` -/
def F18_PartData.init : Ns := Ns.updated F17_PartData.init [(c!"hibernation", .bool false), (c!"cipher", .str [])]
/-- `commands/partition.py:240-249` `_getArgsAsStr` -/
def F18_PartData.args : Out :=
  F17_PartData.args ++
    [(.tru c!"hibernation", [.lit c!" --hibernation"]),
    (.and (.tru c!"encrypted") (.tru c!"cipher"), [.lit c!" --cipher=\"", .fld c!"cipher", .lit c!"\""])]
/-- `commands/partition.py:230-249` -/
def F18_PartData.cls : DataCls := { init := F18_PartData.init, str := (FC3_PartData.strOut F18_PartData.args).render, eq := FC3_PartData.eq }

/-- `commands/partition.py:252-255` `__init__` -/
def F23_PartData.init : Ns := Ns.updated F18_PartData.init [(c!"mkfsopts", .str [])]
/-- `commands/partition.py:257-263` `_getArgsAsStr` -/
def F23_PartData.args : Out :=
  F18_PartData.args ++
    [(.tru c!"mkfsopts", [.lit c!" --mkfsoptions=\"", .fld c!"mkfsopts", .lit c!"\""])]
/-- `commands/partition.py:251-263` -/
def F23_PartData.cls : DataCls := { init := F23_PartData.init, str := (FC3_PartData.strOut F23_PartData.args).render, eq := FC3_PartData.eq }

/-- `commands/partition.py:265-266`: `__init__` is inherited. -/
def RHEL7_PartData.init : Ns := F23_PartData.init
/-- `commands/partition.py:265-266` -/
def RHEL7_PartData.cls : DataCls := { init := RHEL7_PartData.init, str := (FC3_PartData.strOut F23_PartData.args).render, eq := FC3_PartData.eq }

/-- `commands/partition.py:269-275` `__init__` -/
def F29_PartData.init : Ns := Ns.updated F23_PartData.init [(c!"luks_version", .str []), (c!"pbkdf", .str []), (c!"pbkdf_memory", .int 0), (c!"pbkdf_time", .int 0), (c!"pbkdf_iterations", .int 0)]
/-- `commands/partition.py:277-295` `_getArgsAsStr` -/
def F29_PartData.args : Out :=
  F23_PartData.args ++
    [(.and (.tru c!"encrypted") (.tru c!"luks_version"), [.lit c!" --luks-version=", .fld c!"luks_version"]),
    (.and (.tru c!"encrypted") (.tru c!"pbkdf"), [.lit c!" --pbkdf=", .fld c!"pbkdf"]),
    (.and (.tru c!"encrypted") (.tru c!"pbkdf_memory"), [.lit c!" --pbkdf-memory=", .fld c!"pbkdf_memory"]),
    (.and (.tru c!"encrypted") (.tru c!"pbkdf_time"), [.lit c!" --pbkdf-time=", .fld c!"pbkdf_time"]),
    (.and (.tru c!"encrypted") (.tru c!"pbkdf_iterations"), [.lit c!" --pbkdf-iterations=", .fld c!"pbkdf_iterations"])]
/-- `commands/partition.py:268-295` -/
def F29_PartData.cls : DataCls := { init := F29_PartData.init, str := (FC3_PartData.strOut F29_PartData.args).render, eq := FC3_PartData.eq }

/-- `commands/partition.py:297-298`: `__init__` is inherited. -/
def RHEL8_PartData.init : Ns := F29_PartData.init
/-- `commands/partition.py:297-298` -/
def RHEL8_PartData.cls : DataCls := { init := RHEL8_PartData.init, str := (FC3_PartData.strOut F29_PartData.args).render, eq := FC3_PartData.eq }

/-- `commands/partition.py:304-308` `__init__` -/
def FC3_Partition.init : Ns := []
/-- `commands/partition.py:321-431` `_getParser` -/
def FC3_Partition.op : OptParser :=
  OptParser.empty
    |>.add { names := [c!"mntpoint"], nargs := .n 1, ty := .mount }
    |>.add { names := [c!"--active"], kind := .storeConst, nargs := .n 0, const := .bool true, default := some (.bool false) }
    |>.add { names := [c!"--asprimary"], dest := some c!"primOnly", kind := .storeConst, nargs := .n 0, const := .bool true, default := some (.bool false) }
    |>.add { names := [c!"--start"], ty := .int }
    |>.add { names := [c!"--end"], ty := .int }
    |>.add { names := [c!"--fstype", c!"--type"], dest := some c!"fstype" }
    |>.add { names := [c!"--grow"], kind := .storeConst, nargs := .n 0, const := .bool true, default := some (.bool false) }
    |>.add { names := [c!"--maxsize"], dest := some c!"maxSizeMB", ty := .int }
    |>.add { names := [c!"--noformat"], dest := some c!"format", kind := .storeConst, nargs := .n 0, const := .bool false, default := some (.bool true) }
    |>.add { names := [c!"--onbiosdisk"] }
    |>.add { names := [c!"--ondisk", c!"--ondrive"], dest := some c!"disk" }
    |>.add { names := [c!"--onpart", c!"--usepart"], dest := some c!"onPart", ty := .part }
    |>.add { names := [c!"--recommended"], kind := .storeConst, nargs := .n 0, const := .bool true, default := some (.bool false) }
    |>.add { names := [c!"--size"], ty := .int }
/-- `commands/partition.py:433-450` `parse` -/
def FC3_Partition.parse (k : Info) (args : List Str) : M Ns := do
  let r ← M.parseKnown k.op args
  let ns := r.1
  let extra := r.2
  M.assert (decide ((ns.getD c!"mntpoint").len = 1))
  M.failIf (!extra.isEmpty) c!"Unexpected arguments to %(command)s command: %(options)s"
  let pd := k.dc.init
  let pd := setToObj ns pd
  let x1 ← M.lineno
  let pd := pd.set c!"lineno" (Val.int x1)
  let x2 ← M.lift ((ns.getD c!"mntpoint").index 0)
  let pd := pd.set c!"mountpoint" (x2)
  let x3 ← M.dataList
  M.when (!((pd.getD c!"mountpoint").pyEq (Val.str c!"swap")) && x3.any (fun d => k.dc.eq d pd)) (do
    M.warn (.parse c!"A partition with the mountpoint %s has already been defined."))
  return pd
/-- `commands/partition.py:300-457` -/
def FC3_Partition.info (dc : DataCls) : Info := { dc := dc, op := FC3_Partition.op }
/-- `commands/partition.py:300-457` -/
def FC3_Partition.cls (dc : DataCls) : Command := listCmd c!"FC3_Partition" (some 130) FC3_Partition.init dc (FC3_Partition.parse (FC3_Partition.info dc)) (headedListStr c!"# Disk partitioning information\n")

/-- `commands/partition.py:459-477`: `__init__` is inherited. -/
def FC4_Partition.init : Ns := FC3_Partition.init
/-- `commands/partition.py:463-477` `_getParser` -/
def FC4_Partition.op : OptParser :=
  FC3_Partition.op
    |>.add { names := [c!"--bytes-per-inode"], dest := some c!"bytesPerInode", ty := .int }
    |>.add { names := [c!"--fsoptions"], dest := some c!"fsopts" }
    |>.add { names := [c!"--label"] }
/-- `commands/partition.py:459-477` -/
def FC4_Partition.info (dc : DataCls) : Info := { dc := dc, op := FC4_Partition.op }
/-- `commands/partition.py:459-477` -/
def FC4_Partition.cls (dc : DataCls) : Command := listCmd c!"FC4_Partition" (some 130) FC4_Partition.init dc (FC3_Partition.parse (FC4_Partition.info dc)) (headedListStr c!"# Disk partitioning information\n")

/-- `commands/partition.py:479-494`: `__init__` is inherited. -/
def RHEL5_Partition.init : Ns := FC4_Partition.init
/-- `commands/partition.py:483-494` `_getParser` -/
def RHEL5_Partition.op : OptParser :=
  FC4_Partition.op
    |>.add { names := [c!"--encrypted"], kind := .storeConst, nargs := .n 0, const := .bool true, default := some (.bool false) }
    |>.add { names := [c!"--passphrase"] }
/-- `commands/partition.py:479-494` -/
def RHEL5_Partition.info (dc : DataCls) : Info := { dc := dc, op := RHEL5_Partition.op }
/-- `commands/partition.py:479-494` -/
def RHEL5_Partition.cls (dc : DataCls) : Command := listCmd c!"RHEL5_Partition" (some 130) RHEL5_Partition.init dc (FC3_Partition.parse (RHEL5_Partition.info dc)) (headedListStr c!"# Disk partitioning information\n")

/-- `commands/partition.py:496-521`: `__init__` is inherited. -/
def F9_Partition.init : Ns := FC4_Partition.init
/-- `commands/partition.py:500-521` `_getParser` -/
def F9_Partition.op : OptParser :=
  FC4_Partition.op
    |>.add { names := [c!"--bytes-per-inode"], deprecated := true }
    |>.add { names := [c!"--fsprofile"] }
    |>.add { names := [c!"--encrypted"], kind := .storeConst, nargs := .n 0, const := .bool true, default := some (.bool false) }
    |>.add { names := [c!"--passphrase"] }
/-- `commands/partition.py:496-521` -/
def F9_Partition.info (dc : DataCls) : Info := { dc := dc, op := F9_Partition.op }
/-- `commands/partition.py:496-521` -/
def F9_Partition.cls (dc : DataCls) : Command := listCmd c!"F9_Partition" (some 130) F9_Partition.init dc (FC3_Partition.parse (F9_Partition.info dc)) (headedListStr c!"# Disk partitioning information\n")

/-- `commands/partition.py:523-531`: `__init__` is inherited. -/
def F11_Partition.init : Ns := F9_Partition.init
/-- `commands/partition.py:527-531` `_getParser` -/
def F11_Partition.op : OptParser :=
  F9_Partition.op
    |>.add { names := [c!"--start"], deprecated := true }
    |>.add { names := [c!"--end"], deprecated := true }
/-- `commands/partition.py:523-531` -/
def F11_Partition.info (dc : DataCls) : Info := { dc := dc, op := F11_Partition.op }
/-- `commands/partition.py:523-531` -/
def F11_Partition.cls (dc : DataCls) : Command := listCmd c!"F11_Partition" (some 130) F11_Partition.init dc (FC3_Partition.parse (F11_Partition.info dc)) (headedListStr c!"# Disk partitioning information\n")

/-- `commands/partition.py:533-554`: `__init__` is inherited. -/
def F12_Partition.init : Ns := F11_Partition.init
/-- `commands/partition.py:537-554` `_getParser` -/
def F12_Partition.op : OptParser :=
  F11_Partition.op
    |>.add { names := [c!"--escrowcert"] }
    |>.add { names := [c!"--backuppassphrase"], kind := .storeConst, nargs := .n 0, const := .bool true, default := some (.bool false) }
/-- `commands/partition.py:533-554` -/
def F12_Partition.info (dc : DataCls) : Info := { dc := dc, op := F12_Partition.op }
/-- `commands/partition.py:533-554` -/
def F12_Partition.cls (dc : DataCls) : Command := listCmd c!"F12_Partition" (some 130) F12_Partition.init dc (FC3_Partition.parse (F12_Partition.info dc)) (headedListStr c!"# Disk partitioning information\n")

/-- `commands/partition.py:556-581`: `__init__` is inherited. -/
def RHEL6_Partition.init : Ns := F12_Partition.init
/-- `commands/partition.py:560-571` `_getParser` -/
def RHEL6_Partition.op : OptParser :=
  F12_Partition.op
    |>.add { names := [c!"--cipher"] }
    |>.add { names := [c!"--hibernation"], kind := .storeConst, nargs := .n 0, const := .bool true, default := some (.bool false) }
/-- `commands/partition.py:573-581` `parse` -/
def RHEL6_Partition.parse (k : Info) (args : List Str) : M Ns := do
  let retval ← FC3_Partition.parse k args
  M.failIfM (M.seenCmd c!"autopart") c!"The part/partition and autopart commands can't be used at the same time"
  return retval
/-- `commands/partition.py:556-581` -/
def RHEL6_Partition.info (dc : DataCls) : Info := { dc := dc, op := RHEL6_Partition.op }
/-- `commands/partition.py:556-581` -/
def RHEL6_Partition.cls (dc : DataCls) : Command := listCmd c!"RHEL6_Partition" (some 130) RHEL6_Partition.init dc (RHEL6_Partition.parse (RHEL6_Partition.info dc)) (headedListStr c!"# Disk partitioning information\n")

/-- `commands/partition.py:583-592`: `__init__` is inherited. -/
def F14_Partition.init : Ns := F12_Partition.init
/-- `commands/partition.py:587-592` `_getParser` -/
def F14_Partition.op : OptParser :=
  F12_Partition.op
    |>.remove c!"--bytes-per-inode"
    |>.remove c!"--start"
    |>.remove c!"--end"
/-- `commands/partition.py:583-592` -/
def F14_Partition.info (dc : DataCls) : Info := { dc := dc, op := F14_Partition.op }
/-- `commands/partition.py:583-592` -/
def F14_Partition.cls (dc : DataCls) : Command := listCmd c!"F14_Partition" (some 130) F14_Partition.init dc (FC3_Partition.parse (F14_Partition.info dc)) (headedListStr c!"# Disk partitioning information\n")

/-- `commands/partition.py:594-616`: `__init__` is inherited. -/
def F17_Partition.init : Ns := F14_Partition.init
/-- `commands/partition.py:598-605` `_getParser` -/
def F17_Partition.op : OptParser :=
  F14_Partition.op
    |>.add { names := [c!"--resize"], kind := .storeConst, nargs := .n 0, const := .bool true, default := some (.bool false) }
/-- `commands/partition.py:607-616` `parse` -/
def F17_Partition.parse (k : Info) (args : List Str) : M Ns := do
  let retval ← FC3_Partition.parse k args
  M.failIf ((retval.getD c!"resize").truthy && !((retval.getD c!"onPart").truthy)) c!"--resize can only be used in conjunction with --onpart"
  M.failIf ((retval.getD c!"resize").truthy && !((retval.getD c!"size").truthy)) c!"--resize requires --size to specify new size"
  return retval
/-- `commands/partition.py:594-616` -/
def F17_Partition.info (dc : DataCls) : Info := { dc := dc, op := F17_Partition.op }
/-- `commands/partition.py:594-616` -/
def F17_Partition.cls (dc : DataCls) : Command := listCmd c!"F17_Partition" (some 130) F17_Partition.init dc (F17_Partition.parse (F17_Partition.info dc)) (headedListStr c!"# Disk partitioning information\n")

/-- `commands/partition.py:618-633`: `__init__` is inherited. -/
def F18_Partition.init : Ns := F17_Partition.init
/-- `commands/partition.py:622-633` `_getParser` -/
def F18_Partition.op : OptParser :=
  F17_Partition.op
    |>.add { names := [c!"--hibernation"], kind := .storeConst, nargs := .n 0, const := .bool true, default := some (.bool false) }
    |>.add { names := [c!"--cipher"] }
/-- `commands/partition.py:618-633` -/
def F18_Partition.info (dc : DataCls) : Info := { dc := dc, op := F18_Partition.op }
/-- `commands/partition.py:618-633` -/
def F18_Partition.cls (dc : DataCls) : Command := listCmd c!"F18_Partition" (some 130) F18_Partition.init dc (F17_Partition.parse (F18_Partition.info dc)) (headedListStr c!"# Disk partitioning information\n")

/-- `commands/partition.py:635-658`: `__init__` is inherited. -/
def F20_Partition.init : Ns := F18_Partition.init
/-- `commands/partition.py:639-658` `parse` -/
def F20_Partition.parse (k : Info) (args : List Str) : M Ns := do
  let retval ← F17_Partition.parse k args
  M.failIfM (M.seenCmd c!"autopart") c!"The part/partition and autopart commands can't be used at the same time"
  M.failIfM (M.usedCmd c!"mount") c!"The part/partition and mount commands can't be used at the same time"
  M.when ((retval.getD c!"fstype").pyEq (Val.str c!"tmpfs")) (do
    M.failIf ((retval.getD c!"grow").truthy || !((retval.getD c!"maxSizeMB").pyEq (Val.int 0))) c!"The --fstype=tmpfs option can't be used together with --grow or --maxsize")
  return retval
/-- `commands/partition.py:635-658` -/
def F20_Partition.info (dc : DataCls) : Info := { dc := dc, op := F18_Partition.op }
/-- `commands/partition.py:635-658` -/
def F20_Partition.cls (dc : DataCls) : Command := listCmd c!"F20_Partition" (some 130) F20_Partition.init dc (F20_Partition.parse (F20_Partition.info dc)) (headedListStr c!"# Disk partitioning information\n")

/-- `commands/partition.py:660-687`: `__init__` is inherited. -/
def F23_Partition.init : Ns := F20_Partition.init
/-- `commands/partition.py:664-676` `_getParser` -/
def F23_Partition.op : OptParser :=
  F18_Partition.op
    |>.add { names := [c!"--mkfsoptions"], dest := some c!"mkfsopts" }
/-- `commands/partition.py:678-687` `parse` -/
def F23_Partition.parse (k : Info) (args : List Str) : M Ns := do
  let retval ← F20_Partition.parse k args
  M.failIf (!((retval.getD c!"format").truthy) && (retval.getD c!"mkfsopts").truthy) c!"--mkfsoptions with --noformat has no effect."
  M.failIf ((retval.getD c!"fsprofile").truthy && (retval.getD c!"mkfsopts").truthy) c!"--mkfsoptions and --fsprofile cannot be used together."
  return retval
/-- `commands/partition.py:660-687` -/
def F23_Partition.info (dc : DataCls) : Info := { dc := dc, op := F23_Partition.op }
/-- `commands/partition.py:660-687` -/
def F23_Partition.cls (dc : DataCls) : Command := listCmd c!"F23_Partition" (some 130) F23_Partition.init dc (F23_Partition.parse (F23_Partition.info dc)) (headedListStr c!"# Disk partitioning information\n")

/-- `commands/partition.py:689-690`: `__init__` is inherited. -/
def RHEL7_Partition.init : Ns := F23_Partition.init
/-- `commands/partition.py:689-690` -/
def RHEL7_Partition.info (dc : DataCls) : Info := { dc := dc, op := F23_Partition.op }
/-- `commands/partition.py:689-690` -/
def RHEL7_Partition.cls (dc : DataCls) : Command := listCmd c!"RHEL7_Partition" (some 130) RHEL7_Partition.init dc (F23_Partition.parse (RHEL7_Partition.info dc)) (headedListStr c!"# Disk partitioning information\n")

/-- `commands/partition.py:692-740`: `__init__` is inherited. -/
def F29_Partition.init : Ns := F23_Partition.init
/-- `commands/partition.py:696-731` `_getParser` -/
def F29_Partition.op : OptParser :=
  F23_Partition.op
    |>.add { names := [c!"--active"], kind := .storeConst, nargs := .n 0, const := .bool true, default := some (.bool false), deprecated := true }
    |>.add { names := [c!"--luks-version"], dest := some c!"luks_version", default := some (.str []) }
    |>.add { names := [c!"--pbkdf"], default := some (.str []) }
    |>.add { names := [c!"--pbkdf-memory"], dest := some c!"pbkdf_memory", default := some (.int 0), ty := .int }
    |>.add { names := [c!"--pbkdf-time"], dest := some c!"pbkdf_time", default := some (.int 0), ty := .int }
    |>.add { names := [c!"--pbkdf-iterations"], dest := some c!"pbkdf_iterations", default := some (.int 0), ty := .int }
/-- `commands/partition.py:733-740` `parse` -/
def F29_Partition.parse (k : Info) (args : List Str) : M Ns := do
  let retval ← F23_Partition.parse k args
  M.failIf ((retval.getD c!"pbkdf_time").truthy && (retval.getD c!"pbkdf_iterations").truthy) c!"Only one of --pbkdf-time and --pbkdf-iterations can be specified."
  return retval
/-- `commands/partition.py:692-740` -/
def F29_Partition.info (dc : DataCls) : Info := { dc := dc, op := F29_Partition.op }
/-- `commands/partition.py:692-740` -/
def F29_Partition.cls (dc : DataCls) : Command := listCmd c!"F29_Partition" (some 130) F29_Partition.init dc (F29_Partition.parse (F29_Partition.info dc)) (headedListStr c!"# Disk partitioning information\n")

/-- `commands/partition.py:742-762`: `__init__` is inherited. -/
def RHEL8_Partition.init : Ns := F29_Partition.init
/-- `commands/partition.py:752-762` `_getParser` -/
def RHEL8_Partition.op : OptParser := F29_Partition.op
/-- `commands/partition.py:746-750` `parse` -/
def RHEL8_Partition.parse (k : Info) (args : List Str) : M Ns := do
  let retval ← F29_Partition.parse k args
  M.failIf ((retval.getD c!"mountpoint").startsWith c!"btrfs." || (retval.getD c!"fstype").pyEq (Val.str c!"btrfs")) c!"Btrfs file system is not supported"
  return retval
/-- `commands/partition.py:742-762` -/
def RHEL8_Partition.info (dc : DataCls) : Info := { dc := dc, op := RHEL8_Partition.op }
/-- `commands/partition.py:742-762` -/
def RHEL8_Partition.cls (dc : DataCls) : Command := listCmd c!"RHEL8_Partition" (some 130) RHEL8_Partition.init dc (RHEL8_Partition.parse (RHEL8_Partition.info dc)) (headedListStr c!"# Disk partitioning information\n")

/-- `commands/partition.py:764-771`: `__init__` is inherited. -/
def F34_Partition.init : Ns := F29_Partition.init
/-- `commands/partition.py:768-771` `_getParser` -/
def F34_Partition.op : OptParser :=
  F29_Partition.op
    |>.remove c!"--active"
/-- `commands/partition.py:764-771` -/
def F34_Partition.info (dc : DataCls) : Info := { dc := dc, op := F34_Partition.op }
/-- `commands/partition.py:764-771` -/
def F34_Partition.cls (dc : DataCls) : Command := listCmd c!"F34_Partition" (some 130) F34_Partition.init dc (F29_Partition.parse (F34_Partition.info dc)) (headedListStr c!"# Disk partitioning information\n")

end Ks.Cmd
