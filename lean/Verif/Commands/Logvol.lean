import Verif.Commands.Base
/-!
# `/repo/pykickstart/commands/logvol.py`

Written by `scripts/gen_commands.py` from the text of that file; see there and
`Verif/Commands/Base.lean` for how a class is represented.
-/
namespace Ks.Cmd

/-- `commands/logvol.py:33-45` `__init__` -/
def FC3_LogVolData.init : Ns := [(c!"lineno", .int 0), (c!"fstype", .str []), (c!"grow", .bool false), (c!"maxSizeMB", .int 0), (c!"name", .str []), (c!"format", .bool true), (c!"percent", .int 0), (c!"recommended", .bool false), (c!"size", .none), (c!"preexist", .bool false), (c!"vgname", .str []), (c!"mountpoint", .str [])]
/-- `commands/logvol.py:56-76` `_getArgsAsStr` -/
def FC3_LogVolData.args : Out :=
  [(.tru c!"fstype", [.lit c!" --fstype=\"", .fld c!"fstype", .lit c!"\""]),
    (.tru c!"grow", [.lit c!" --grow"]),
    (.tru c!"maxSizeMB", [.lit c!" --maxsize=", .fld c!"maxSizeMB"]),
    (.not (.tru c!"format"), [.lit c!" --noformat"]),
    (.tru c!"percent", [.lit c!" --percent=", .fld c!"percent"]),
    (.tru c!"recommended", [.lit c!" --recommended"]),
    (.tru c!"size", [.lit c!" --size=", .fld c!"size"]),
    (.tru c!"preexist", [.lit c!" --useexisting"])]
/-- `commands/logvol.py:78-86` `__str__` -/
def FC3_LogVolData.strOut (args : Out) : Out :=
  [(.tt, [.lit c!"logvol ", .fld c!"mountpoint"])] ++
    args ++
    [(.tt, [.lit c!" --name=", .fld c!"name", .lit c!" --vgname=", .fld c!"vgname", .lit c!"\n"])]
/-- `commands/logvol.py:47-51` `__eq__` -/
def FC3_LogVolData.eq : Ns → Ns → Bool := sameAttrs [c!"vgname", c!"name"]
/-- `commands/logvol.py:29-86` -/
def FC3_LogVolData.cls : DataCls := { init := FC3_LogVolData.init, str := (FC3_LogVolData.strOut FC3_LogVolData.args).render, eq := FC3_LogVolData.eq }

/-- `commands/logvol.py:92-95` `__init__` -/
def FC4_LogVolData.init : Ns := Ns.updated FC3_LogVolData.init [(c!"bytesPerInode", .int 4096), (c!"fsopts", .str [])]
/-- `commands/logvol.py:97-105` `_getArgsAsStr` -/
def FC4_LogVolData.args : Out :=
  FC3_LogVolData.args ++
    [(.and (.has c!"bytesPerInode") (.tru c!"bytesPerInode"), [.lit c!" --bytes-per-inode=", .fld c!"bytesPerInode"]),
    (.tru c!"fsopts", [.lit c!" --fsoptions=\"", .fld c!"fsopts", .lit c!"\""])]
/-- `commands/logvol.py:88-105` -/
def FC4_LogVolData.cls : DataCls := { init := FC4_LogVolData.init, str := (FC3_LogVolData.strOut FC4_LogVolData.args).render, eq := FC3_LogVolData.eq }

/-- `commands/logvol.py:111-114` `__init__` -/
def RHEL5_LogVolData.init : Ns := Ns.updated FC4_LogVolData.init [(c!"encrypted", .bool false), (c!"passphrase", .str [])]
/-- `commands/logvol.py:116-125` `_getArgsAsStr` -/
def RHEL5_LogVolData.args : Out :=
  FC4_LogVolData.args ++
    [(.tru c!"encrypted", [.lit c!" --encrypted"]),
    (.and (.tru c!"encrypted") (.tru c!"passphrase"), [.lit c!" --passphrase=\"", .fld c!"passphrase", .lit c!"\""])]
/-- `commands/logvol.py:107-125` -/
def RHEL5_LogVolData.cls : DataCls := { init := RHEL5_LogVolData.init, str := (FC3_LogVolData.strOut RHEL5_LogVolData.args).render, eq := FC3_LogVolData.eq }

/-- `commands/logvol.py:131-138` `__init__` -/
def F9_LogVolData.init : Ns := Ns.without (Ns.updated FC4_LogVolData.init [(c!"fsprofile", .str []), (c!"encrypted", .bool false), (c!"passphrase", .str [])]) [c!"bytesPerInode"]
/-- `commands/logvol.py:140-151` `_getArgsAsStr` -/
def F9_LogVolData.args : Out :=
  FC4_LogVolData.args ++
    [(.tru c!"fsprofile", [.lit c!" --fsprofile=\"", .fld c!"fsprofile", .lit c!"\""]),
    (.tru c!"encrypted", [.lit c!" --encrypted"]),
    (.and (.tru c!"encrypted") (.tru c!"passphrase"), [.lit c!" --passphrase=\"", .fld c!"passphrase", .lit c!"\""])]
/-- `commands/logvol.py:127-151` -/
def F9_LogVolData.cls : DataCls := { init := F9_LogVolData.init, str := (FC3_LogVolData.strOut F9_LogVolData.args).render, eq := FC3_LogVolData.eq }

/-- `commands/logvol.py:157-162` `__init__` -/
def F12_LogVolData.init : Ns := Ns.updated F9_LogVolData.init [(c!"escrowcert", .str []), (c!"backuppassphrase", .bool false)]
/-- `commands/logvol.py:164-173` `_getArgsAsStr` -/
def F12_LogVolData.args : Out :=
  F9_LogVolData.args ++
    [(.and (.tru c!"encrypted") (.tru c!"escrowcert"), [.lit c!" --escrowcert=\"", .fld c!"escrowcert", .lit c!"\""]),
    (.and (.and (.tru c!"encrypted") (.tru c!"escrowcert")) (.tru c!"backuppassphrase"), [.lit c!" --backuppassphrase"])]
/-- `commands/logvol.py:153-173` -/
def F12_LogVolData.cls : DataCls := { init := F12_LogVolData.init, str := (FC3_LogVolData.strOut F12_LogVolData.args).render, eq := FC3_LogVolData.eq }

/-- `commands/logvol.py:179-190` `__init__` -/
def RHEL6_LogVolData.init : Ns := Ns.updated F12_LogVolData.init [(c!"cipher", .str []), (c!"hibernation", .bool false), (c!"thin_pool", .bool false), (c!"thin_volume", .bool false), (c!"pool_name", .str []), (c!"chunk_size", .none), (c!"metadata_size", .none), (c!"profile", .str [])]
/-- `commands/logvol.py:192-216` `_getArgsAsStr` -/
def RHEL6_LogVolData.args : Out :=
  F12_LogVolData.args ++
    [(.and (.tru c!"encrypted") (.tru c!"cipher"), [.lit c!" --cipher=\"", .fld c!"cipher", .lit c!"\""]),
    (.tru c!"hibernation", [.lit c!" --hibernation"]),
    (.tru c!"thin_pool", [.lit c!" --thinpool"]),
    (.and (.tru c!"thin_pool") (.tru c!"metadata_size"), [.lit c!" --metadatasize=", .fld c!"metadata_size"]),
    (.and (.tru c!"thin_pool") (.tru c!"chunk_size"), [.lit c!" --chunksize=", .fld c!"chunk_size"]),
    (.tru c!"thin_volume", [.lit c!" --thin --poolname=", .fld c!"pool_name"]),
    (.tru c!"profile", [.lit c!" --profile=", .fld c!"profile"])]
/-- `commands/logvol.py:175-216` -/
def RHEL6_LogVolData.cls : DataCls := { init := RHEL6_LogVolData.init, str := (FC3_LogVolData.strOut RHEL6_LogVolData.args).render, eq := FC3_LogVolData.eq }

/-- `commands/logvol.py:218-219`: `__init__` is inherited. -/
def F14_LogVolData.init : Ns := F12_LogVolData.init
/-- `commands/logvol.py:218-219` -/
def F14_LogVolData.cls : DataCls := { init := F14_LogVolData.init, str := (FC3_LogVolData.strOut F12_LogVolData.args).render, eq := FC3_LogVolData.eq }

/-- `commands/logvol.py:225-227` `__init__` -/
def F15_LogVolData.init : Ns := Ns.updated F14_LogVolData.init [(c!"label", .str [])]
/-- `commands/logvol.py:229-235` `_getArgsAsStr` -/
def F15_LogVolData.args : Out :=
  F12_LogVolData.args ++
    [(.tru c!"label", [.lit c!" --label=\"", .fld c!"label", .lit c!"\""])]
/-- `commands/logvol.py:221-235` -/
def F15_LogVolData.cls : DataCls := { init := F15_LogVolData.init, str := (FC3_LogVolData.strOut F15_LogVolData.args).render, eq := FC3_LogVolData.eq }

/-- `commands/logvol.py:241-243` `__init__` -/
def F17_LogVolData.init : Ns := Ns.updated F15_LogVolData.init [(c!"resize", .bool false)]
/-- `commands/logvol.py:245-250` `_getArgsAsStr` -/
def F17_LogVolData.args : Out :=
  F15_LogVolData.args ++
    [(.tru c!"resize", [.lit c!" --resize"])]
/-- `commands/logvol.py:237-250` -/
def F17_LogVolData.cls : DataCls := { init := F17_LogVolData.init, str := (FC3_LogVolData.strOut F17_LogVolData.args).render, eq := FC3_LogVolData.eq }

/-- `commands/logvol.py:256-259` `__init__` -/
def F18_LogVolData.init : Ns := Ns.updated F17_LogVolData.init [(c!"hibernation", .bool false), (c!"cipher", .str [])]
/-- `commands/logvol.py:261-270` `_getArgsAsStr` -/
def F18_LogVolData.args : Out :=
  F17_LogVolData.args ++
    [(.tru c!"hibernation", [.lit c!" --hibernation"]),
    (.and (.tru c!"encrypted") (.tru c!"cipher"), [.lit c!" --cipher=\"", .fld c!"cipher", .lit c!"\""])]
/-- `commands/logvol.py:252-270` -/
def F18_LogVolData.cls : DataCls := { init := F18_LogVolData.init, str := (FC3_LogVolData.strOut F18_LogVolData.args).render, eq := FC3_LogVolData.eq }

/-- `commands/logvol.py:276-284` `__init__` -/
def F20_LogVolData.init : Ns := Ns.updated F18_LogVolData.init [(c!"thin_pool", .bool false), (c!"thin_volume", .bool false), (c!"pool_name", .str []), (c!"chunk_size", .none), (c!"metadata_size", .none)]
/-- `commands/logvol.py:286-301` `_getArgsAsStr` -/
def F20_LogVolData.args : Out :=
  F18_LogVolData.args ++
    [(.tru c!"thin_pool", [.lit c!" --thinpool"]),
    (.and (.tru c!"thin_pool") (.tru c!"metadata_size"), [.lit c!" --metadatasize=", .fld c!"metadata_size"]),
    (.and (.tru c!"thin_pool") (.tru c!"chunk_size"), [.lit c!" --chunksize=", .fld c!"chunk_size"]),
    (.tru c!"thin_volume", [.lit c!" --thin --poolname=", .fld c!"pool_name"])]
/-- `commands/logvol.py:272-301` -/
def F20_LogVolData.cls : DataCls := { init := F20_LogVolData.init, str := (FC3_LogVolData.strOut F20_LogVolData.args).render, eq := FC3_LogVolData.eq }

/-- `commands/logvol.py:307-309` `__init__` -/
def F21_LogVolData.init : Ns := Ns.updated F20_LogVolData.init [(c!"profile", .str [])]
/-- `commands/logvol.py:311-317` `_getArgsAsStr` -/
def F21_LogVolData.args : Out :=
  F20_LogVolData.args ++
    [(.tru c!"profile", [.lit c!" --profile=", .fld c!"profile"])]
/-- `commands/logvol.py:303-317` -/
def F21_LogVolData.cls : DataCls := { init := F21_LogVolData.init, str := (FC3_LogVolData.strOut F21_LogVolData.args).render, eq := FC3_LogVolData.eq }

/-- `commands/logvol.py:323-325` `__init__` -/
def RHEL7_LogVolData.init : Ns := Ns.updated F21_LogVolData.init [(c!"mkfsopts", .str [])]
/-- `commands/logvol.py:327-333` `_getArgsAsStr` -/
def RHEL7_LogVolData.args : Out :=
  F21_LogVolData.args ++
    [(.tru c!"mkfsopts", [.lit c!" --mkfsoptions=\"", .fld c!"mkfsopts", .lit c!"\""])]
/-- `commands/logvol.py:319-333` -/
def RHEL7_LogVolData.cls : DataCls := { init := RHEL7_LogVolData.init, str := (FC3_LogVolData.strOut RHEL7_LogVolData.args).render, eq := FC3_LogVolData.eq }

/-- `commands/logvol.py:336-341` `__init__` -/
def F23_LogVolData.init : Ns := Ns.updated F21_LogVolData.init [(c!"cache_size", .int 0), (c!"cache_mode", .str []), (c!"cache_pvs", .list []), (c!"mkfsopts", .str [])]
/-- `commands/logvol.py:343-355` `_getArgsAsStr` -/
def F23_LogVolData.args : Out :=
  F21_LogVolData.args ++
    [(.tru c!"cache_size", [.lit c!" --cachesize=", .fld c!"cache_size"]),
    (.tru c!"cache_pvs", [.lit c!" --cachepvs=", .join c!"," c!"cache_pvs"]),
    (.tru c!"cache_mode", [.lit c!" --cachemode=", .fld c!"cache_mode"]),
    (.tru c!"mkfsopts", [.lit c!" --mkfsoptions=\"", .fld c!"mkfsopts", .lit c!"\""])]
/-- `commands/logvol.py:335-355` -/
def F23_LogVolData.cls : DataCls := { init := F23_LogVolData.init, str := (FC3_LogVolData.strOut F23_LogVolData.args).render, eq := FC3_LogVolData.eq }

/-- `commands/logvol.py:358-364` `__init__` -/
def F29_LogVolData.init : Ns := Ns.updated F23_LogVolData.init [(c!"luks_version", .str []), (c!"pbkdf", .str []), (c!"pbkdf_memory", .int 0), (c!"pbkdf_time", .int 0), (c!"pbkdf_iterations", .int 0)]
/-- `commands/logvol.py:366-384` `_getArgsAsStr` -/
def F29_LogVolData.args : Out :=
  F23_LogVolData.args ++
    [(.and (.tru c!"encrypted") (.tru c!"luks_version"), [.lit c!" --luks-version=", .fld c!"luks_version"]),
    (.and (.tru c!"encrypted") (.tru c!"pbkdf"), [.lit c!" --pbkdf=", .fld c!"pbkdf"]),
    (.and (.tru c!"encrypted") (.tru c!"pbkdf_memory"), [.lit c!" --pbkdf-memory=", .fld c!"pbkdf_memory"]),
    (.and (.tru c!"encrypted") (.tru c!"pbkdf_time"), [.lit c!" --pbkdf-time=", .fld c!"pbkdf_time"]),
    (.and (.tru c!"encrypted") (.tru c!"pbkdf_iterations"), [.lit c!" --pbkdf-iterations=", .fld c!"pbkdf_iterations"])]
/-- `commands/logvol.py:357-384` -/
def F29_LogVolData.cls : DataCls := { init := F29_LogVolData.init, str := (FC3_LogVolData.strOut F29_LogVolData.args).render, eq := FC3_LogVolData.eq }

/-- `commands/logvol.py:386-387`: `__init__` is inherited. -/
def RHEL8_LogVolData.init : Ns := F29_LogVolData.init
/-- `commands/logvol.py:386-387` -/
def RHEL8_LogVolData.cls : DataCls := { init := RHEL8_LogVolData.init, str := (FC3_LogVolData.strOut F29_LogVolData.args).render, eq := FC3_LogVolData.eq }

/-- `commands/logvol.py:393-397` `__init__` -/
def FC3_LogVol.init : Ns := []
/-- `commands/logvol.py:407-463` `_getParser` -/
def FC3_LogVol.op : OptParser :=
  OptParser.empty
    |>.add { names := [c!"mntpoint"], nargs := .n 1, ty := .mount }
    |>.add { names := [c!"--fstype"] }
    |>.add { names := [c!"--grow"], kind := .storeConst, nargs := .n 0, const := .bool true, default := some (.bool false) }
    |>.add { names := [c!"--maxsize"], dest := some c!"maxSizeMB", ty := .int }
    |>.add { names := [c!"--name"], required := true }
    |>.add { names := [c!"--noformat"], dest := some c!"format", kind := .storeConst, nargs := .n 0, const := .bool false, default := some (.bool true) }
    |>.add { names := [c!"--percent"], dest := some c!"percent", ty := .int }
    |>.add { names := [c!"--recommended"], kind := .storeConst, nargs := .n 0, const := .bool true, default := some (.bool false) }
    |>.add { names := [c!"--size"], ty := .int }
    |>.add { names := [c!"--useexisting"], dest := some c!"preexist", kind := .storeConst, nargs := .n 0, const := .bool true, default := some (.bool false) }
    |>.add { names := [c!"--vgname"], required := true }
/-- `commands/logvol.py:465-484` `parse` -/
def FC3_LogVol.parse (k : Info) (args : List Str) : M Ns := do
  let r ← M.parseKnown k.op args
  let ns := r.1
  let extra := r.2
  M.failIf (!extra.isEmpty) c!"Unexpected arguments to %(command)s command: %(options)s"
  let lvd := k.dc.init
  let lvd := setToObj ns lvd
  let x1 ← M.lineno
  let lvd := lvd.set c!"lineno" (Val.int x1)
  let x2 ← M.lift ((ns.getD c!"mntpoint").index 0)
  let lvd := lvd.set c!"mountpoint" (x2)
  let lvd := if !((lvd.getD c!"format").truthy) then lvd.set c!"preexist" (Val.bool true) else lvd
  let x3 ← M.dataList
  M.when (x3.any (fun d => k.dc.eq d lvd)) (do
    M.warn (.parse c!"A logical volume with the name %(logical_volume_name)s has already been defined in volume group %(volume_group)s."))
  return lvd
/-- `commands/logvol.py:389-491` -/
def FC3_LogVol.info (dc : DataCls) : Info := { dc := dc, op := FC3_LogVol.op }
/-- `commands/logvol.py:389-491` -/
def FC3_LogVol.cls (dc : DataCls) : Command := listCmd c!"FC3_LogVol" (some 133) FC3_LogVol.init dc (FC3_LogVol.parse (FC3_LogVol.info dc)) (listStr)

/-- `commands/logvol.py:493-506`: `__init__` is inherited. -/
def FC4_LogVol.init : Ns := FC3_LogVol.init
/-- `commands/logvol.py:497-506` `_getParser` -/
def FC4_LogVol.op : OptParser :=
  FC3_LogVol.op
    |>.add { names := [c!"--bytes-per-inode"], dest := some c!"bytesPerInode", ty := .int }
    |>.add { names := [c!"--fsoptions"], dest := some c!"fsopts" }
/-- `commands/logvol.py:493-506` -/
def FC4_LogVol.info (dc : DataCls) : Info := { dc := dc, op := FC4_LogVol.op }
/-- `commands/logvol.py:493-506` -/
def FC4_LogVol.cls (dc : DataCls) : Command := listCmd c!"FC4_LogVol" (some 133) FC4_LogVol.init dc (FC3_LogVol.parse (FC4_LogVol.info dc)) (listStr)

/-- `commands/logvol.py:508-525`: `__init__` is inherited. -/
def RHEL5_LogVol.init : Ns := FC4_LogVol.init
/-- `commands/logvol.py:512-525` `_getParser` -/
def RHEL5_LogVol.op : OptParser :=
  FC4_LogVol.op
    |>.add { names := [c!"--encrypted"], kind := .storeConst, nargs := .n 0, const := .bool true, default := some (.bool false) }
    |>.add { names := [c!"--passphrase"] }
/-- `commands/logvol.py:508-525` -/
def RHEL5_LogVol.info (dc : DataCls) : Info := { dc := dc, op := RHEL5_LogVol.op }
/-- `commands/logvol.py:508-525` -/
def RHEL5_LogVol.cls (dc : DataCls) : Command := listCmd c!"RHEL5_LogVol" (some 133) RHEL5_LogVol.init dc (FC3_LogVol.parse (RHEL5_LogVol.info dc)) (listStr)

/-- `commands/logvol.py:527-554`: `__init__` is inherited. -/
def F9_LogVol.init : Ns := FC4_LogVol.init
/-- `commands/logvol.py:531-554` `_getParser` -/
def F9_LogVol.op : OptParser :=
  FC4_LogVol.op
    |>.add { names := [c!"--bytes-per-inode"], deprecated := true }
    |>.add { names := [c!"--fsprofile"] }
    |>.add { names := [c!"--encrypted"], kind := .storeConst, nargs := .n 0, const := .bool true, default := some (.bool false) }
    |>.add { names := [c!"--passphrase"] }
/-- `commands/logvol.py:527-554` -/
def F9_LogVol.info (dc : DataCls) : Info := { dc := dc, op := F9_LogVol.op }
/-- `commands/logvol.py:527-554` -/
def F9_LogVol.cls (dc : DataCls) : Command := listCmd c!"F9_LogVol" (some 133) F9_LogVol.init dc (FC3_LogVol.parse (F9_LogVol.info dc)) (listStr)

/-- `commands/logvol.py:556-577`: `__init__` is inherited. -/
def F12_LogVol.init : Ns := F9_LogVol.init
/-- `commands/logvol.py:560-577` `_getParser` -/
def F12_LogVol.op : OptParser :=
  F9_LogVol.op
    |>.add { names := [c!"--escrowcert"] }
    |>.add { names := [c!"--backuppassphrase"], kind := .storeConst, nargs := .n 0, const := .bool true, default := some (.bool false) }
/-- `commands/logvol.py:556-577` -/
def F12_LogVol.info (dc : DataCls) : Info := { dc := dc, op := F12_LogVol.op }
/-- `commands/logvol.py:556-577` -/
def F12_LogVol.cls (dc : DataCls) : Command := listCmd c!"F12_LogVol" (some 133) F12_LogVol.init dc (FC3_LogVol.parse (F12_LogVol.info dc)) (listStr)

/-- `commands/logvol.py:579-642`: `__init__` is inherited. -/
def RHEL6_LogVol.init : Ns := F12_LogVol.init
/-- `commands/logvol.py:583-617` `_getParser` -/
def RHEL6_LogVol.op : OptParser :=
  F12_LogVol.op
    |>.add { names := [c!"--cipher"] }
    |>.add { names := [c!"--hibernation"], kind := .storeConst, nargs := .n 0, const := .bool true, default := some (.bool false) }
    |>.add { names := [c!"--thinpool"], dest := some c!"thin_pool", kind := .storeConst, nargs := .n 0, const := .bool true, default := some (.bool false) }
    |>.add { names := [c!"--thin"], dest := some c!"thin_volume", kind := .storeConst, nargs := .n 0, const := .bool true, default := some (.bool false) }
    |>.add { names := [c!"--poolname"], dest := some c!"pool_name" }
    |>.add { names := [c!"--chunksize"], dest := some c!"chunk_size", ty := .int }
    |>.add { names := [c!"--metadatasize"], dest := some c!"metadata_size", ty := .int }
    |>.add { names := [c!"--profile"] }
/-- `commands/logvol.py:619-642` `parse` -/
def RHEL6_LogVol.parse (k : Info) (args : List Str) : M Ns := do
  let retval ← FC3_LogVol.parse k args
  M.failIfM (M.seenCmd c!"autopart") c!"The logvol and autopart commands can't be used at the same time"
  M.failIf ((retval.getD c!"thin_volume").truthy && (retval.getD c!"thin_pool").truthy) c!"--thin and --thinpool cannot both be specified for the same logvol"
  M.failIf ((retval.getD c!"thin_volume").truthy && !((retval.getD c!"pool_name").truthy)) c!"--thin requires --poolname to specify pool name"
  M.failIf (((retval.getD c!"chunk_size").truthy || (retval.getD c!"metadata_size").truthy) && !((retval.getD c!"thin_pool").truthy)) c!"--chunksize and --metadatasize are for thin pools only"
  return retval
/-- `commands/logvol.py:579-642` -/
def RHEL6_LogVol.info (dc : DataCls) : Info := { dc := dc, op := RHEL6_LogVol.op }
/-- `commands/logvol.py:579-642` -/
def RHEL6_LogVol.cls (dc : DataCls) : Command := listCmd c!"RHEL6_LogVol" (some 133) RHEL6_LogVol.init dc (RHEL6_LogVol.parse (RHEL6_LogVol.info dc)) (listStr)

/-- `commands/logvol.py:644-651`: `__init__` is inherited. -/
def F14_LogVol.init : Ns := F12_LogVol.init
/-- `commands/logvol.py:648-651` `_getParser` -/
def F14_LogVol.op : OptParser :=
  F12_LogVol.op
    |>.remove c!"--bytes-per-inode"
/-- `commands/logvol.py:644-651` -/
def F14_LogVol.info (dc : DataCls) : Info := { dc := dc, op := F14_LogVol.op }
/-- `commands/logvol.py:644-651` -/
def F14_LogVol.cls (dc : DataCls) : Command := listCmd c!"F14_LogVol" (some 133) F14_LogVol.init dc (FC3_LogVol.parse (F14_LogVol.info dc)) (listStr)

/-- `commands/logvol.py:653-663`: `__init__` is inherited. -/
def F15_LogVol.init : Ns := F14_LogVol.init
/-- `commands/logvol.py:657-663` `_getParser` -/
def F15_LogVol.op : OptParser :=
  F14_LogVol.op
    |>.add { names := [c!"--label"] }
/-- `commands/logvol.py:653-663` -/
def F15_LogVol.info (dc : DataCls) : Info := { dc := dc, op := F15_LogVol.op }
/-- `commands/logvol.py:653-663` -/
def F15_LogVol.cls (dc : DataCls) : Command := listCmd c!"F15_LogVol" (some 133) F15_LogVol.init dc (FC3_LogVol.parse (F15_LogVol.info dc)) (listStr)

/-- `commands/logvol.py:665-688`: `__init__` is inherited. -/
def F17_LogVol.init : Ns := F15_LogVol.init
/-- `commands/logvol.py:669-677` `_getParser` -/
def F17_LogVol.op : OptParser :=
  F15_LogVol.op
    |>.add { names := [c!"--resize"], kind := .storeConst, nargs := .n 0, const := .bool true, default := some (.bool false) }
/-- `commands/logvol.py:679-688` `parse` -/
def F17_LogVol.parse (k : Info) (args : List Str) : M Ns := do
  let retval ← FC3_LogVol.parse k args
  M.failIf ((retval.getD c!"resize").truthy && !((retval.getD c!"preexist").truthy)) c!"--resize can only be used in conjunction with --useexisting"
  M.failIf ((retval.getD c!"resize").truthy && !((retval.getD c!"size").truthy)) c!"--resize requires --size to indicate new size"
  return retval
/-- `commands/logvol.py:665-688` -/
def F17_LogVol.info (dc : DataCls) : Info := { dc := dc, op := F17_LogVol.op }
/-- `commands/logvol.py:665-688` -/
def F17_LogVol.cls (dc : DataCls) : Command := listCmd c!"F17_LogVol" (some 133) F17_LogVol.init dc (F17_LogVol.parse (F17_LogVol.info dc)) (listStr)

/-- `commands/logvol.py:690-706`: `__init__` is inherited. -/
def F18_LogVol.init : Ns := F17_LogVol.init
/-- `commands/logvol.py:694-706` `_getParser` -/
def F18_LogVol.op : OptParser :=
  F17_LogVol.op
    |>.add { names := [c!"--hibernation"], kind := .storeConst, nargs := .n 0, const := .bool true, default := some (.bool false) }
    |>.add { names := [c!"--cipher"] }
/-- `commands/logvol.py:690-706` -/
def F18_LogVol.info (dc : DataCls) : Info := { dc := dc, op := F18_LogVol.op }
/-- `commands/logvol.py:690-706` -/
def F18_LogVol.cls (dc : DataCls) : Command := listCmd c!"F18_LogVol" (some 133) F18_LogVol.init dc (F17_LogVol.parse (F18_LogVol.info dc)) (listStr)

/-- `commands/logvol.py:708-769`: `__init__` is inherited. -/
def F20_LogVol.init : Ns := F18_LogVol.init
/-- `commands/logvol.py:712-733` `_getParser` -/
def F20_LogVol.op : OptParser :=
  F18_LogVol.op
    |>.add { names := [c!"--thinpool"], dest := some c!"thin_pool", kind := .storeConst, nargs := .n 0, const := .bool true, default := some (.bool false) }
    |>.add { names := [c!"--thin"], dest := some c!"thin_volume", kind := .storeConst, nargs := .n 0, const := .bool true, default := some (.bool false) }
    |>.add { names := [c!"--poolname"], dest := some c!"pool_name" }
    |>.add { names := [c!"--chunksize"], dest := some c!"chunk_size", ty := .int }
    |>.add { names := [c!"--metadatasize"], dest := some c!"metadata_size", ty := .int }
/-- `commands/logvol.py:735-769` `parse` -/
def F20_LogVol.parse (k : Info) (args : List Str) : M Ns := do
  let retval ← F17_LogVol.parse k args
  M.failIf ((retval.getD c!"thin_volume").truthy && (retval.getD c!"thin_pool").truthy) c!"--thin and --thinpool cannot both be specified for the same logvol"
  M.failIf ((retval.getD c!"thin_volume").truthy && !((retval.getD c!"pool_name").truthy)) c!"--thin requires --poolname to specify pool name"
  M.failIf (((retval.getD c!"chunk_size").truthy || (retval.getD c!"metadata_size").truthy) && !((retval.getD c!"thin_pool").truthy)) c!"--chunksize and --metadatasize are for thin pools only"
  M.failIfM (M.seenCmd c!"autopart") c!"The logvol and autopart commands can't be used at the same time"
  M.failIfM (M.usedCmd c!"mount") c!"The logvol and mount commands can't be used at the same time"
  M.failIf (!((retval.getD c!"preexist").truthy) && !((retval.getD c!"percent").truthy) && !((retval.getD c!"size").truthy) && !((retval.getD c!"recommended").truthy) && !((retval.getD c!"hibernation").truthy)) c!"No size given for logical volume. Use one of --useexisting, --noformat, --size, --percent, or --hibernation."
  M.failIf (!decide (retval.getD c!"percent" = Val.none) && (decide ((retval.getD c!"percent").num < 0) || decide ((retval.getD c!"percent").num > 100))) c!"Percentage must be between 0 and 100."
  return retval
/-- `commands/logvol.py:708-769` -/
def F20_LogVol.info (dc : DataCls) : Info := { dc := dc, op := F20_LogVol.op }
/-- `commands/logvol.py:708-769` -/
def F20_LogVol.cls (dc : DataCls) : Command := listCmd c!"F20_LogVol" (some 133) F20_LogVol.init dc (F20_LogVol.parse (F20_LogVol.info dc)) (listStr)

/-- `commands/logvol.py:771-790`: `__init__` is inherited. -/
def F21_LogVol.init : Ns := F20_LogVol.init
/-- `commands/logvol.py:775-781` `_getParser` -/
def F21_LogVol.op : OptParser :=
  F20_LogVol.op
    |>.add { names := [c!"--profile"] }
/-- `commands/logvol.py:783-790` `parse` -/
def F21_LogVol.parse (k : Info) (args : List Str) : M Ns := do
  let retval ← F20_LogVol.parse k args
  M.failIf ((retval.getD c!"size").truthy && (retval.getD c!"percent").truthy) c!"--size and --percent cannot both be specified for the same logvol"
  return retval
/-- `commands/logvol.py:771-790` -/
def F21_LogVol.info (dc : DataCls) : Info := { dc := dc, op := F21_LogVol.op }
/-- `commands/logvol.py:771-790` -/
def F21_LogVol.cls (dc : DataCls) : Command := listCmd c!"F21_LogVol" (some 133) F21_LogVol.init dc (F21_LogVol.parse (F21_LogVol.info dc)) (listStr)

/-- `commands/logvol.py:792-817`: `__init__` is inherited. -/
def RHEL7_LogVol.init : Ns := F21_LogVol.init
/-- `commands/logvol.py:796-806` `_getParser` -/
def RHEL7_LogVol.op : OptParser :=
  F21_LogVol.op
    |>.add { names := [c!"--mkfsoptions"], dest := some c!"mkfsopts" }
/-- `commands/logvol.py:808-817` `parse` -/
def RHEL7_LogVol.parse (k : Info) (args : List Str) : M Ns := do
  let retval ← F21_LogVol.parse k args
  M.failIf (!((retval.getD c!"format").truthy) && (retval.getD c!"mkfsopts").truthy) c!"--mkfsoptions with --noformat has no effect."
  M.failIf ((retval.getD c!"fsprofile").truthy && (retval.getD c!"mkfsopts").truthy) c!"--mkfsoptions and --fsprofile cannot be used together."
  return retval
/-- `commands/logvol.py:792-817` -/
def RHEL7_LogVol.info (dc : DataCls) : Info := { dc := dc, op := RHEL7_LogVol.op }
/-- `commands/logvol.py:792-817` -/
def RHEL7_LogVol.cls (dc : DataCls) : Command := listCmd c!"RHEL7_LogVol" (some 133) RHEL7_LogVol.init dc (RHEL7_LogVol.parse (RHEL7_LogVol.info dc)) (listStr)

/-- `commands/logvol.py:820-874`: `__init__` is inherited. -/
def F23_LogVol.init : Ns := F21_LogVol.init
/-- `commands/logvol.py:821-842` `_getParser` -/
def F23_LogVol.op : OptParser :=
  F21_LogVol.op
    |>.add { names := [c!"--cachesize"], dest := some c!"cache_size", ty := .int }
    |>.add { names := [c!"--cachemode"], dest := some c!"cache_mode" }
    |>.add { names := [c!"--cachepvs"], dest := some c!"cache_pvs", ty := .comma }
    |>.add { names := [c!"--mkfsoptions"], dest := some c!"mkfsopts" }
/-- `commands/logvol.py:844-874` `parse` -/
def F23_LogVol.parse (k : Info) (args : List Str) : M Ns := do
  let retval ← F21_LogVol.parse k args
  M.when ((retval.getD c!"cache_size").truthy || (retval.getD c!"cache_mode").truthy || (retval.getD c!"cache_pvs").truthy) (do
    M.failIf ((retval.getD c!"preexist").truthy) c!"Adding a cache to an existing logical volume is not supported"
    M.failIf ((retval.getD c!"thin_volume").truthy) c!"Thin volumes cannot be cached"
    M.failIf (!((retval.getD c!"cache_pvs").truthy)) c!"Cache needs to have a list of (fast) PVs specified"
    M.failIf (!((retval.getD c!"cache_size").truthy)) c!"Cache needs to have size specified"
    M.failIf ((retval.getD c!"cache_mode").truthy && !([Val.str c!"writeback", Val.str c!"writethrough"].any (Val.pyEq (retval.getD c!"cache_mode")))) c!"Invalid cache mode given: %s")
  M.failIf (!((retval.getD c!"format").truthy) && (retval.getD c!"mkfsopts").truthy) c!"--mkfsoptions with --noformat has no effect."
  M.failIf ((retval.getD c!"fsprofile").truthy && (retval.getD c!"mkfsopts").truthy) c!"--mkfsoptions and --fsprofile cannot be used together."
  return retval
/-- `commands/logvol.py:820-874` -/
def F23_LogVol.info (dc : DataCls) : Info := { dc := dc, op := F23_LogVol.op }
/-- `commands/logvol.py:820-874` -/
def F23_LogVol.cls (dc : DataCls) : Command := listCmd c!"F23_LogVol" (some 133) F23_LogVol.init dc (F23_LogVol.parse (F23_LogVol.info dc)) (listStr)

/-- `commands/logvol.py:876-922`: `__init__` is inherited. -/
def F29_LogVol.init : Ns := F23_LogVol.init
/-- `commands/logvol.py:880-913` `_getParser` -/
def F29_LogVol.op : OptParser :=
  F23_LogVol.op
    |>.add { names := [c!"--luks-version"], dest := some c!"luks_version", default := some (.str []) }
    |>.add { names := [c!"--pbkdf"], default := some (.str []) }
    |>.add { names := [c!"--pbkdf-memory"], dest := some c!"pbkdf_memory", default := some (.int 0), ty := .int }
    |>.add { names := [c!"--pbkdf-time"], dest := some c!"pbkdf_time", default := some (.int 0), ty := .int }
    |>.add { names := [c!"--pbkdf-iterations"], dest := some c!"pbkdf_iterations", default := some (.int 0), ty := .int }
/-- `commands/logvol.py:915-922` `parse` -/
def F29_LogVol.parse (k : Info) (args : List Str) : M Ns := do
  let retval ← F23_LogVol.parse k args
  M.failIf ((retval.getD c!"pbkdf_time").truthy && (retval.getD c!"pbkdf_iterations").truthy) c!"Only one of --pbkdf-time and --pbkdf-iterations can be specified."
  return retval
/-- `commands/logvol.py:876-922` -/
def F29_LogVol.info (dc : DataCls) : Info := { dc := dc, op := F29_LogVol.op }
/-- `commands/logvol.py:876-922` -/
def F29_LogVol.cls (dc : DataCls) : Command := listCmd c!"F29_LogVol" (some 133) F29_LogVol.init dc (F29_LogVol.parse (F29_LogVol.info dc)) (listStr)

/-- `commands/logvol.py:924-944`: `__init__` is inherited. -/
def RHEL8_LogVol.init : Ns := F29_LogVol.init
/-- `commands/logvol.py:934-944` `_getParser` -/
def RHEL8_LogVol.op : OptParser := F29_LogVol.op
/-- `commands/logvol.py:928-932` `parse` -/
def RHEL8_LogVol.parse (k : Info) (args : List Str) : M Ns := do
  let retval ← F29_LogVol.parse k args
  M.failIf ((retval.getD c!"fstype").pyEq (Val.str c!"btrfs")) c!"Btrfs file system is not supported"
  return retval
/-- `commands/logvol.py:924-944` -/
def RHEL8_LogVol.info (dc : DataCls) : Info := { dc := dc, op := RHEL8_LogVol.op }
/-- `commands/logvol.py:924-944` -/
def RHEL8_LogVol.cls (dc : DataCls) : Command := listCmd c!"RHEL8_LogVol" (some 133) RHEL8_LogVol.init dc (RHEL8_LogVol.parse (RHEL8_LogVol.info dc)) (listStr)

end Ks.Cmd
