import Verif.Commands.Base
/-!
# `/repo/pykickstart/commands/raid.py`

Written by `scripts/gen_commands.py` from the text of that file; see there and
`Verif/Commands/Base.lean` for how a class is represented.
-/
namespace Ks.Cmd

/-- `commands/raid.py` `FC3_Raid._getDevice`: `int(s)`. -/
def FC3_Raid.getDevice : Val → Except Exc Val
  | .str s => match pyInt s with
    | some n => .ok (.int n)
    | none => .error .value
  | .int n => .ok (.int n)
  | _ => .error .type

/-- `commands/raid.py` `F19_Raid._getDevice`. -/
def F19_Raid.getDevice (v : Val) : Except Exc Val := .ok v

/-- `commands/raid.py:34-43` `__init__` -/
def FC3_RaidData.init : Ns := [(c!"lineno", .int 0), (c!"device", .none), (c!"fstype", .str []), (c!"level", .str []), (c!"format", .bool true), (c!"spares", .int 0), (c!"preexist", .bool false), (c!"mountpoint", .str []), (c!"members", .list [])]
/-- `commands/raid.py:54-73` `_getArgsAsStr` -/
def FC3_RaidData.args : Out :=
  [(.shown c!"device", [.lit c!" --device=", .fld c!"device"]),
    (.tru c!"fstype", [.lit c!" --fstype=\"", .fld c!"fstype", .lit c!"\""]),
    (.tru c!"level", [.lit c!" --level=", .up c!"level"]),
    (.not (.tru c!"format"), [.lit c!" --noformat"]),
    (.not (.eq c!"spares" (.int 0)), [.lit c!" --spares=", .fld c!"spares"]),
    (.tru c!"preexist", [.lit c!" --useexisting"])]
/-- `commands/raid.py:75-84` `__str__` -/
def FC3_RaidData.strText (args : Out) (self : Ns) : Str :=
  let retval := ([] : Str)
  let retval := retval ++ c!"raid " ++ (self.getD c!"mountpoint").fmt ++ args.render self
  let retval :=
    if (Cond.not (.tru c!"preexist")).eval self then
      let retval := retval ++ c!" " ++ (Frag.join c!" " c!"members").render self
      retval
    else retval
  strip retval ++ c!"\n"
/-- `commands/raid.py:45-49` `__eq__` -/
def FC3_RaidData.eq : Ns → Ns → Bool := sameAttrs [c!"device"]
/-- `commands/raid.py:30-84` -/
def FC3_RaidData.cls : DataCls := { init := FC3_RaidData.init, str := FC3_RaidData.strText FC3_RaidData.args, eq := FC3_RaidData.eq }

/-- `commands/raid.py:90-92` `__init__` -/
def FC4_RaidData.init : Ns := Ns.updated FC3_RaidData.init [(c!"fsopts", .str [])]
/-- `commands/raid.py:94-100` `_getArgsAsStr` -/
def FC4_RaidData.args : Out :=
  FC3_RaidData.args ++
    [(.tru c!"fsopts", [.lit c!" --fsoptions=\"", .fld c!"fsopts", .lit c!"\""])]
/-- `commands/raid.py:86-100` -/
def FC4_RaidData.cls : DataCls := { init := FC4_RaidData.init, str := FC3_RaidData.strText FC4_RaidData.args, eq := FC3_RaidData.eq }

/-- `commands/raid.py:106-108` `__init__` -/
def FC5_RaidData.init : Ns := Ns.updated FC4_RaidData.init [(c!"bytesPerInode", .int 4096)]
/-- `commands/raid.py:110-116` `_getArgsAsStr` -/
def FC5_RaidData.args : Out :=
  FC4_RaidData.args ++
    [(.and (.has c!"bytesPerInode") (.not (.eq c!"bytesPerInode" (.int 0))), [.lit c!" --bytes-per-inode=", .fld c!"bytesPerInode"])]
/-- `commands/raid.py:102-116` -/
def FC5_RaidData.cls : DataCls := { init := FC5_RaidData.init, str := FC3_RaidData.strText FC5_RaidData.args, eq := FC3_RaidData.eq }

/-- `commands/raid.py:122-125` `__init__` -/
def RHEL5_RaidData.init : Ns := Ns.updated FC5_RaidData.init [(c!"encrypted", .bool false), (c!"passphrase", .str [])]
/-- `commands/raid.py:127-136` `_getArgsAsStr` -/
def RHEL5_RaidData.args : Out :=
  FC5_RaidData.args ++
    [(.tru c!"encrypted", [.lit c!" --encrypted"]),
    (.and (.tru c!"encrypted") (.tru c!"passphrase"), [.lit c!" --passphrase=\"", .fld c!"passphrase", .lit c!"\""])]
/-- `commands/raid.py:118-136` -/
def RHEL5_RaidData.cls : DataCls := { init := RHEL5_RaidData.init, str := FC3_RaidData.strText RHEL5_RaidData.args, eq := FC3_RaidData.eq }

/-- `commands/raid.py:138-139`: `__init__` is inherited. -/
def F7_RaidData.init : Ns := FC5_RaidData.init
/-- `commands/raid.py:138-139` -/
def F7_RaidData.cls : DataCls := { init := F7_RaidData.init, str := FC3_RaidData.strText FC5_RaidData.args, eq := FC3_RaidData.eq }

/-- `commands/raid.py:145-151` `__init__` -/
def F9_RaidData.init : Ns := Ns.without (Ns.updated F7_RaidData.init [(c!"fsprofile", .str []), (c!"encrypted", .bool false), (c!"passphrase", .str [])]) [c!"bytesPerInode"]
/-- `commands/raid.py:153-164` `_getArgsAsStr` -/
def F9_RaidData.args : Out :=
  FC5_RaidData.args ++
    [(.tru c!"fsprofile", [.lit c!" --fsprofile=\"", .fld c!"fsprofile", .lit c!"\""]),
    (.tru c!"encrypted", [.lit c!" --encrypted"]),
    (.and (.tru c!"encrypted") (.tru c!"passphrase"), [.lit c!" --passphrase=\"", .fld c!"passphrase", .lit c!"\""])]
/-- `commands/raid.py:141-164` -/
def F9_RaidData.cls : DataCls := { init := F9_RaidData.init, str := FC3_RaidData.strText F9_RaidData.args, eq := FC3_RaidData.eq }

/-- `commands/raid.py:170-175` `__init__` -/
def F12_RaidData.init : Ns := Ns.updated F9_RaidData.init [(c!"escrowcert", .str []), (c!"backuppassphrase", .bool false)]
/-- `commands/raid.py:177-185` `_getArgsAsStr` -/
def F12_RaidData.args : Out :=
  F9_RaidData.args ++
    [(.and (.tru c!"encrypted") (.tru c!"escrowcert"), [.lit c!" --escrowcert=\"", .fld c!"escrowcert", .lit c!"\""]),
    (.and (.and (.tru c!"encrypted") (.tru c!"escrowcert")) (.tru c!"backuppassphrase"), [.lit c!" --backuppassphrase"])]
/-- `commands/raid.py:166-185` -/
def F12_RaidData.cls : DataCls := { init := F12_RaidData.init, str := FC3_RaidData.strText F12_RaidData.args, eq := FC3_RaidData.eq }

/-- `commands/raid.py:187-188`: `__init__` is inherited. -/
def F13_RaidData.init : Ns := F12_RaidData.init
/-- `commands/raid.py:187-188` -/
def F13_RaidData.cls : DataCls := { init := F13_RaidData.init, str := FC3_RaidData.strText F12_RaidData.args, eq := FC3_RaidData.eq }

/-- `commands/raid.py:194-197` `__init__` -/
def RHEL6_RaidData.init : Ns := Ns.updated F13_RaidData.init [(c!"cipher", .str [])]
/-- `commands/raid.py:199-205` `_getArgsAsStr` -/
def RHEL6_RaidData.args : Out :=
  F12_RaidData.args ++
    [(.and (.tru c!"encrypted") (.tru c!"cipher"), [.lit c!" --cipher=\"", .fld c!"cipher", .lit c!"\""])]
/-- `commands/raid.py:190-205` -/
def RHEL6_RaidData.cls : DataCls := { init := RHEL6_RaidData.init, str := FC3_RaidData.strText RHEL6_RaidData.args, eq := FC3_RaidData.eq }

/-- `commands/raid.py:207-208`: `__init__` is inherited. -/
def F14_RaidData.init : Ns := F13_RaidData.init
/-- `commands/raid.py:207-208` -/
def F14_RaidData.cls : DataCls := { init := F14_RaidData.init, str := FC3_RaidData.strText F12_RaidData.args, eq := FC3_RaidData.eq }

/-- `commands/raid.py:214-218` `__init__` -/
def F15_RaidData.init : Ns := Ns.updated F14_RaidData.init [(c!"label", .str [])]
/-- `commands/raid.py:220-226` `_getArgsAsStr` -/
def F15_RaidData.args : Out :=
  F12_RaidData.args ++
    [(.tru c!"label", [.lit c!" --label=", .fld c!"label"])]
/-- `commands/raid.py:210-226` -/
def F15_RaidData.cls : DataCls := { init := F15_RaidData.init, str := FC3_RaidData.strText F15_RaidData.args, eq := FC3_RaidData.eq }

/-- `commands/raid.py:232-235` `__init__` -/
def F18_RaidData.init : Ns := Ns.updated F15_RaidData.init [(c!"cipher", .str [])]
/-- `commands/raid.py:237-243` `_getArgsAsStr` -/
def F18_RaidData.args : Out :=
  F15_RaidData.args ++
    [(.and (.tru c!"encrypted") (.tru c!"cipher"), [.lit c!" --cipher=\"", .fld c!"cipher", .lit c!"\""])]
/-- `commands/raid.py:228-243` -/
def F18_RaidData.cls : DataCls := { init := F18_RaidData.init, str := FC3_RaidData.strText F18_RaidData.args, eq := FC3_RaidData.eq }

/-- `commands/raid.py:249-251` `__init__` -/
def F23_RaidData.init : Ns := Ns.updated F18_RaidData.init [(c!"mkfsopts", .str [])]
/-- `commands/raid.py:253-259` `_getArgsAsStr` -/
def F23_RaidData.args : Out :=
  F18_RaidData.args ++
    [(.tru c!"mkfsopts", [.lit c!" --mkfsoptions=\"", .fld c!"mkfsopts", .lit c!"\""])]
/-- `commands/raid.py:245-259` -/
def F23_RaidData.cls : DataCls := { init := F23_RaidData.init, str := FC3_RaidData.strText F23_RaidData.args, eq := FC3_RaidData.eq }

/-- `commands/raid.py:265-267` `__init__` -/
def F25_RaidData.init : Ns := Ns.updated F23_RaidData.init [(c!"chunk_size", .none)]
/-- `commands/raid.py:269-275` `_getArgsAsStr` -/
def F25_RaidData.args : Out :=
  F23_RaidData.args ++
    [(.tru c!"chunk_size", [.lit c!" --chunksize=", .fld c!"chunk_size"])]
/-- `commands/raid.py:261-275` -/
def F25_RaidData.cls : DataCls := { init := F25_RaidData.init, str := FC3_RaidData.strText F25_RaidData.args, eq := FC3_RaidData.eq }

/-- `commands/raid.py:277-278`: `__init__` is inherited. -/
def RHEL7_RaidData.init : Ns := F25_RaidData.init
/-- `commands/raid.py:277-278` -/
def RHEL7_RaidData.cls : DataCls := { init := RHEL7_RaidData.init, str := FC3_RaidData.strText F25_RaidData.args, eq := FC3_RaidData.eq }

/-- `commands/raid.py:281-287` `__init__` -/
def F29_RaidData.init : Ns := Ns.updated F25_RaidData.init [(c!"luks_version", .str []), (c!"pbkdf", .str []), (c!"pbkdf_memory", .int 0), (c!"pbkdf_time", .int 0), (c!"pbkdf_iterations", .int 0)]
/-- `commands/raid.py:289-307` `_getArgsAsStr` -/
def F29_RaidData.args : Out :=
  F25_RaidData.args ++
    [(.and (.tru c!"encrypted") (.tru c!"luks_version"), [.lit c!" --luks-version=", .fld c!"luks_version"]),
    (.and (.tru c!"encrypted") (.tru c!"pbkdf"), [.lit c!" --pbkdf=", .fld c!"pbkdf"]),
    (.and (.tru c!"encrypted") (.tru c!"pbkdf_memory"), [.lit c!" --pbkdf-memory=", .fld c!"pbkdf_memory"]),
    (.and (.tru c!"encrypted") (.tru c!"pbkdf_time"), [.lit c!" --pbkdf-time=", .fld c!"pbkdf_time"]),
    (.and (.tru c!"encrypted") (.tru c!"pbkdf_iterations"), [.lit c!" --pbkdf-iterations=", .fld c!"pbkdf_iterations"])]
/-- `commands/raid.py:280-307` -/
def F29_RaidData.cls : DataCls := { init := F29_RaidData.init, str := FC3_RaidData.strText F29_RaidData.args, eq := FC3_RaidData.eq }

/-- `commands/raid.py:309-310`: `__init__` is inherited. -/
def RHEL8_RaidData.init : Ns := F29_RaidData.init
/-- `commands/raid.py:309-310` -/
def RHEL8_RaidData.cls : DataCls := { init := RHEL8_RaidData.init, str := FC3_RaidData.strText F29_RaidData.args, eq := FC3_RaidData.eq }

/-- `commands/raid.py:316-327` `__init__` -/
def FC3_Raid.init : Ns := []
/-- `commands/raid.py:337-412` `_getParser` -/
def FC3_Raid.opWith (levelMap : List (Str × Val)) : OptParser :=
  OptParser.empty
    |>.add { names := [c!"mntpoint"], nargs := .n 1, ty := .mount }
    |>.add { names := [c!"partitions"], nargs := .star }
    |>.add { names := [c!"--device"], ty := .md, required := true }
    |>.add { names := [c!"--fstype"] }
    |>.add { names := [c!"--level"], ty := .table true levelMap }
    |>.add { names := [c!"--noformat"], dest := some c!"format", kind := .storeConst, nargs := .n 0, const := .bool false, default := some (.bool true) }
    |>.add { names := [c!"--spares"], default := some (.int 0), ty := .int }
    |>.add { names := [c!"--useexisting"], dest := some c!"preexist", kind := .storeConst, nargs := .n 0, const := .bool true, default := some (.bool false) }
/-- `commands/raid.py:421-466` `parse` -/
def FC3_Raid.parse (k : Info) (args : List Str) : M Ns := do
  let r ← M.parseKnown k.op args
  let ns := r.1
  let extra := r.2
  M.failIf (extra.any (fun arg => startsWith arg c!"-")) c!"Unexpected arguments to %(command)s command: %(options)s"
  let ns' := if !((ns.getD c!"partitions").truthy) && !extra.isEmpty then ns.set c!"partitions" (Val.list (extra)) else ns
  let extra' := if !((ns.getD c!"partitions").truthy) && !extra.isEmpty then [] else extra
  let ns := ns'
  let extra := extra'
  let ns := if !((ns.getD c!"format").truthy) then ns.set c!"preexist" (Val.bool true) else ns
  M.assert (decide ((ns.getD c!"mntpoint").len = 1))
  M.failIf (!((ns.getD c!"partitions").truthy) && !((ns.getD c!"preexist").truthy)) c!"Partitions required for %s"
  M.failIf ((ns.getD c!"partitions").truthy && (ns.getD c!"preexist").truthy) c!"Members may not be specified for preexisting RAID device"
  let rd := k.dc.init
  let rd := setToObj ns rd
  let x1 ← M.lineno
  let rd := rd.set c!"lineno" (Val.int x1)
  let x2 ← M.lift (k.getDevice (rd.getD c!"device"))
  let rd := rd.set c!"device" (x2)
  let x3 ← M.lift ((ns.getD c!"mntpoint").index 0)
  let rd := rd.set c!"mountpoint" (x3)
  let rd := if decide ((ns.getD c!"partitions").len > 0) then rd.set c!"members" (ns.getD c!"partitions") else rd
  let x4 ← M.dataList
  M.when (x4.any (fun d => k.dc.eq d rd)) (do
    M.warn (.parse c!"A RAID device with the name %s has already been defined."))
  M.failIf (!((rd.getD c!"preexist").truthy) && !((rd.getD c!"level").truthy)) c!"RAID Partition defined without RAID level"
  M.failIf ((rd.getD c!"preexist").truthy && (rd.getD c!"device").pyEq (Val.str [])) c!"Device required for preexisting RAID device"
  return rd
/-- `commands/raid.py:312-473` -/
def FC3_Raid.info (dc : DataCls) : Info := { dc := dc, op := FC3_Raid.opWith [(c!"RAID0", .str c!"RAID0"), (c!"0", .str c!"RAID0"), (c!"RAID1", .str c!"RAID1"), (c!"1", .str c!"RAID1"), (c!"RAID5", .str c!"RAID5"), (c!"5", .str c!"RAID5"), (c!"RAID6", .str c!"RAID6"), (c!"6", .str c!"RAID6")], getDevice := FC3_Raid.getDevice }
/-- `commands/raid.py:312-473` -/
def FC3_Raid.cls (dc : DataCls) : Command := listCmd c!"FC3_Raid" (some 131) FC3_Raid.init dc (FC3_Raid.parse (FC3_Raid.info dc)) (listStr)

/-- `commands/raid.py:475-486`: `__init__` is inherited. -/
def FC4_Raid.init : Ns := FC3_Raid.init
/-- `commands/raid.py:479-486` `_getParser` -/
def FC4_Raid.opWith (levelMap : List (Str × Val)) : OptParser :=
  (FC3_Raid.opWith levelMap)
    |>.add { names := [c!"--fsoptions"], dest := some c!"fsopts" }
/-- `commands/raid.py:475-486` -/
def FC4_Raid.info (dc : DataCls) : Info := { dc := dc, op := FC4_Raid.opWith [(c!"RAID0", .str c!"RAID0"), (c!"0", .str c!"RAID0"), (c!"RAID1", .str c!"RAID1"), (c!"1", .str c!"RAID1"), (c!"RAID5", .str c!"RAID5"), (c!"5", .str c!"RAID5"), (c!"RAID6", .str c!"RAID6"), (c!"6", .str c!"RAID6")], getDevice := FC3_Raid.getDevice }
/-- `commands/raid.py:475-486` -/
def FC4_Raid.cls (dc : DataCls) : Command := listCmd c!"FC4_Raid" (some 131) FC4_Raid.init dc (FC3_Raid.parse (FC4_Raid.info dc)) (listStr)

/-- `commands/raid.py:488-496`: `__init__` is inherited. -/
def FC5_Raid.init : Ns := FC4_Raid.init
/-- `commands/raid.py:492-496` `_getParser` -/
def FC5_Raid.opWith (levelMap : List (Str × Val)) : OptParser :=
  (FC4_Raid.opWith levelMap)
    |>.add { names := [c!"--bytes-per-inode"], dest := some c!"bytesPerInode", ty := .int }
/-- `commands/raid.py:488-496` -/
def FC5_Raid.info (dc : DataCls) : Info := { dc := dc, op := FC5_Raid.opWith [(c!"RAID0", .str c!"RAID0"), (c!"0", .str c!"RAID0"), (c!"RAID1", .str c!"RAID1"), (c!"1", .str c!"RAID1"), (c!"RAID5", .str c!"RAID5"), (c!"5", .str c!"RAID5"), (c!"RAID6", .str c!"RAID6"), (c!"6", .str c!"RAID6")], getDevice := FC3_Raid.getDevice }
/-- `commands/raid.py:488-496` -/
def FC5_Raid.cls (dc : DataCls) : Command := listCmd c!"FC5_Raid" (some 131) FC5_Raid.init dc (FC3_Raid.parse (FC5_Raid.info dc)) (listStr)

/-- `commands/raid.py:502-505` `__init__` -/
def RHEL5_Raid.init : Ns := FC5_Raid.init
/-- `commands/raid.py:507-528` `_getParser` -/
def RHEL5_Raid.opWith (levelMap : List (Str × Val)) : OptParser :=
  (FC5_Raid.opWith levelMap)
    |>.add { names := [c!"--encrypted"], kind := .storeConst, nargs := .n 0, const := .bool true, default := some (.bool false) }
    |>.add { names := [c!"--passphrase"] }
/-- `commands/raid.py:498-528` -/
def RHEL5_Raid.info (dc : DataCls) : Info := { dc := dc, op := RHEL5_Raid.opWith [(c!"RAID0", .str c!"RAID0"), (c!"0", .str c!"RAID0"), (c!"RAID1", .str c!"RAID1"), (c!"1", .str c!"RAID1"), (c!"RAID5", .str c!"RAID5"), (c!"5", .str c!"RAID5"), (c!"RAID6", .str c!"RAID6"), (c!"6", .str c!"RAID6"), (c!"RAID10", .str c!"RAID10"), (c!"10", .str c!"RAID10")], getDevice := FC3_Raid.getDevice }
/-- `commands/raid.py:498-528` -/
def RHEL5_Raid.cls (dc : DataCls) : Command := listCmd c!"RHEL5_Raid" (some 131) RHEL5_Raid.init dc (FC3_Raid.parse (RHEL5_Raid.info dc)) (listStr)

/-- `commands/raid.py:534-537` `__init__` -/
def F7_Raid.init : Ns := FC5_Raid.init
/-- `commands/raid.py:539-549` `_getParser` -/
def F7_Raid.opWith (levelMap : List (Str × Val)) : OptParser := FC5_Raid.opWith levelMap
/-- `commands/raid.py:530-549` -/
def F7_Raid.info (dc : DataCls) : Info := { dc := dc, op := F7_Raid.opWith [(c!"RAID0", .str c!"RAID0"), (c!"0", .str c!"RAID0"), (c!"RAID1", .str c!"RAID1"), (c!"1", .str c!"RAID1"), (c!"RAID5", .str c!"RAID5"), (c!"5", .str c!"RAID5"), (c!"RAID6", .str c!"RAID6"), (c!"6", .str c!"RAID6"), (c!"RAID10", .str c!"RAID10"), (c!"10", .str c!"RAID10")], getDevice := FC3_Raid.getDevice }
/-- `commands/raid.py:530-549` -/
def F7_Raid.cls (dc : DataCls) : Command := listCmd c!"F7_Raid" (some 131) F7_Raid.init dc (FC3_Raid.parse (F7_Raid.info dc)) (listStr)

/-- `commands/raid.py:551-576`: `__init__` is inherited. -/
def F9_Raid.init : Ns := F7_Raid.init
/-- `commands/raid.py:555-576` `_getParser` -/
def F9_Raid.opWith (levelMap : List (Str × Val)) : OptParser :=
  (F7_Raid.opWith levelMap)
    |>.add { names := [c!"--bytes-per-inode"], deprecated := true }
    |>.add { names := [c!"--fsprofile"] }
    |>.add { names := [c!"--encrypted"], kind := .storeConst, nargs := .n 0, const := .bool true, default := some (.bool false) }
    |>.add { names := [c!"--passphrase"] }
/-- `commands/raid.py:551-576` -/
def F9_Raid.info (dc : DataCls) : Info := { dc := dc, op := F9_Raid.opWith [(c!"RAID0", .str c!"RAID0"), (c!"0", .str c!"RAID0"), (c!"RAID1", .str c!"RAID1"), (c!"1", .str c!"RAID1"), (c!"RAID5", .str c!"RAID5"), (c!"5", .str c!"RAID5"), (c!"RAID6", .str c!"RAID6"), (c!"6", .str c!"RAID6"), (c!"RAID10", .str c!"RAID10"), (c!"10", .str c!"RAID10")], getDevice := FC3_Raid.getDevice }
/-- `commands/raid.py:551-576` -/
def F9_Raid.cls (dc : DataCls) : Command := listCmd c!"F9_Raid" (some 131) F9_Raid.init dc (FC3_Raid.parse (F9_Raid.info dc)) (listStr)

/-- `commands/raid.py:578-599`: `__init__` is inherited. -/
def F12_Raid.init : Ns := F9_Raid.init
/-- `commands/raid.py:582-599` `_getParser` -/
def F12_Raid.opWith (levelMap : List (Str × Val)) : OptParser :=
  (F9_Raid.opWith levelMap)
    |>.add { names := [c!"--escrowcert"] }
    |>.add { names := [c!"--backuppassphrase"], kind := .storeConst, nargs := .n 0, const := .bool true, default := some (.bool false) }
/-- `commands/raid.py:578-599` -/
def F12_Raid.info (dc : DataCls) : Info := { dc := dc, op := F12_Raid.opWith [(c!"RAID0", .str c!"RAID0"), (c!"0", .str c!"RAID0"), (c!"RAID1", .str c!"RAID1"), (c!"1", .str c!"RAID1"), (c!"RAID5", .str c!"RAID5"), (c!"5", .str c!"RAID5"), (c!"RAID6", .str c!"RAID6"), (c!"6", .str c!"RAID6"), (c!"RAID10", .str c!"RAID10"), (c!"10", .str c!"RAID10")], getDevice := FC3_Raid.getDevice }
/-- `commands/raid.py:578-599` -/
def F12_Raid.cls (dc : DataCls) : Command := listCmd c!"F12_Raid" (some 131) F12_Raid.init dc (FC3_Raid.parse (F12_Raid.info dc)) (listStr)

/-- `commands/raid.py:605-608` `__init__` -/
def F13_Raid.init : Ns := F12_Raid.init
/-- `commands/raid.py:610-620` `_getParser` -/
def F13_Raid.opWith (levelMap : List (Str × Val)) : OptParser := F12_Raid.opWith levelMap
/-- `commands/raid.py:601-620` -/
def F13_Raid.info (dc : DataCls) : Info := { dc := dc, op := F13_Raid.opWith [(c!"RAID0", .str c!"RAID0"), (c!"0", .str c!"RAID0"), (c!"RAID1", .str c!"RAID1"), (c!"1", .str c!"RAID1"), (c!"RAID5", .str c!"RAID5"), (c!"5", .str c!"RAID5"), (c!"RAID6", .str c!"RAID6"), (c!"6", .str c!"RAID6"), (c!"RAID10", .str c!"RAID10"), (c!"10", .str c!"RAID10"), (c!"RAID4", .str c!"RAID4"), (c!"4", .str c!"RAID4")], getDevice := FC3_Raid.getDevice }
/-- `commands/raid.py:601-620` -/
def F13_Raid.cls (dc : DataCls) : Command := listCmd c!"F13_Raid" (some 131) F13_Raid.init dc (FC3_Raid.parse (F13_Raid.info dc)) (listStr)

/-- `commands/raid.py:622-642`: `__init__` is inherited. -/
def RHEL6_Raid.init : Ns := F13_Raid.init
/-- `commands/raid.py:626-632` `_getParser` -/
def RHEL6_Raid.opWith (levelMap : List (Str × Val)) : OptParser :=
  (F13_Raid.opWith levelMap)
    |>.add { names := [c!"--cipher"] }
/-- `commands/raid.py:634-642` `parse` -/
def RHEL6_Raid.parse (k : Info) (args : List Str) : M Ns := do
  let retval ← FC3_Raid.parse k args
  M.failIfM (M.seenCmd c!"autopart") c!"The raid and autopart commands can't be used at the same time"
  return retval
/-- `commands/raid.py:622-642` -/
def RHEL6_Raid.info (dc : DataCls) : Info := { dc := dc, op := RHEL6_Raid.opWith [(c!"RAID0", .str c!"RAID0"), (c!"0", .str c!"RAID0"), (c!"RAID1", .str c!"RAID1"), (c!"1", .str c!"RAID1"), (c!"RAID5", .str c!"RAID5"), (c!"5", .str c!"RAID5"), (c!"RAID6", .str c!"RAID6"), (c!"6", .str c!"RAID6"), (c!"RAID10", .str c!"RAID10"), (c!"10", .str c!"RAID10"), (c!"RAID4", .str c!"RAID4"), (c!"4", .str c!"RAID4")], getDevice := FC3_Raid.getDevice }
/-- `commands/raid.py:622-642` -/
def RHEL6_Raid.cls (dc : DataCls) : Command := listCmd c!"RHEL6_Raid" (some 131) RHEL6_Raid.init dc (RHEL6_Raid.parse (RHEL6_Raid.info dc)) (listStr)

/-- `commands/raid.py:644-651`: `__init__` is inherited. -/
def F14_Raid.init : Ns := F13_Raid.init
/-- `commands/raid.py:648-651` `_getParser` -/
def F14_Raid.opWith (levelMap : List (Str × Val)) : OptParser :=
  (F13_Raid.opWith levelMap)
    |>.remove c!"--bytes-per-inode"
/-- `commands/raid.py:644-651` -/
def F14_Raid.info (dc : DataCls) : Info := { dc := dc, op := F14_Raid.opWith [(c!"RAID0", .str c!"RAID0"), (c!"0", .str c!"RAID0"), (c!"RAID1", .str c!"RAID1"), (c!"1", .str c!"RAID1"), (c!"RAID5", .str c!"RAID5"), (c!"5", .str c!"RAID5"), (c!"RAID6", .str c!"RAID6"), (c!"6", .str c!"RAID6"), (c!"RAID10", .str c!"RAID10"), (c!"10", .str c!"RAID10"), (c!"RAID4", .str c!"RAID4"), (c!"4", .str c!"RAID4")], getDevice := FC3_Raid.getDevice }
/-- `commands/raid.py:644-651` -/
def F14_Raid.cls (dc : DataCls) : Command := listCmd c!"F14_Raid" (some 131) F14_Raid.init dc (FC3_Raid.parse (F14_Raid.info dc)) (listStr)

/-- `commands/raid.py:653-663`: `__init__` is inherited. -/
def F15_Raid.init : Ns := F14_Raid.init
/-- `commands/raid.py:657-663` `_getParser` -/
def F15_Raid.opWith (levelMap : List (Str × Val)) : OptParser :=
  (F14_Raid.opWith levelMap)
    |>.add { names := [c!"--label"] }
/-- `commands/raid.py:653-663` -/
def F15_Raid.info (dc : DataCls) : Info := { dc := dc, op := F15_Raid.opWith [(c!"RAID0", .str c!"RAID0"), (c!"0", .str c!"RAID0"), (c!"RAID1", .str c!"RAID1"), (c!"1", .str c!"RAID1"), (c!"RAID5", .str c!"RAID5"), (c!"5", .str c!"RAID5"), (c!"RAID6", .str c!"RAID6"), (c!"6", .str c!"RAID6"), (c!"RAID10", .str c!"RAID10"), (c!"10", .str c!"RAID10"), (c!"RAID4", .str c!"RAID4"), (c!"4", .str c!"RAID4")], getDevice := FC3_Raid.getDevice }
/-- `commands/raid.py:653-663` -/
def F15_Raid.cls (dc : DataCls) : Command := listCmd c!"F15_Raid" (some 131) F15_Raid.init dc (FC3_Raid.parse (F15_Raid.info dc)) (listStr)

/-- `commands/raid.py:665-675`: `__init__` is inherited. -/
def F18_Raid.init : Ns := F15_Raid.init
/-- `commands/raid.py:669-675` `_getParser` -/
def F18_Raid.opWith (levelMap : List (Str × Val)) : OptParser :=
  (F15_Raid.opWith levelMap)
    |>.add { names := [c!"--cipher"] }
/-- `commands/raid.py:665-675` -/
def F18_Raid.info (dc : DataCls) : Info := { dc := dc, op := F18_Raid.opWith [(c!"RAID0", .str c!"RAID0"), (c!"0", .str c!"RAID0"), (c!"RAID1", .str c!"RAID1"), (c!"1", .str c!"RAID1"), (c!"RAID5", .str c!"RAID5"), (c!"5", .str c!"RAID5"), (c!"RAID6", .str c!"RAID6"), (c!"6", .str c!"RAID6"), (c!"RAID10", .str c!"RAID10"), (c!"10", .str c!"RAID10"), (c!"RAID4", .str c!"RAID4"), (c!"4", .str c!"RAID4")], getDevice := FC3_Raid.getDevice }
/-- `commands/raid.py:665-675` -/
def F18_Raid.cls (dc : DataCls) : Command := listCmd c!"F18_Raid" (some 131) F18_Raid.init dc (FC3_Raid.parse (F18_Raid.info dc)) (listStr)

/-- `commands/raid.py:677-682`: `__init__` is inherited. -/
def F19_Raid.init : Ns := F18_Raid.init
/-- `commands/raid.py:677-682` -/
def F19_Raid.info (dc : DataCls) : Info := { dc := dc, op := F18_Raid.opWith [(c!"RAID0", .str c!"RAID0"), (c!"0", .str c!"RAID0"), (c!"RAID1", .str c!"RAID1"), (c!"1", .str c!"RAID1"), (c!"RAID5", .str c!"RAID5"), (c!"5", .str c!"RAID5"), (c!"RAID6", .str c!"RAID6"), (c!"6", .str c!"RAID6"), (c!"RAID10", .str c!"RAID10"), (c!"10", .str c!"RAID10"), (c!"RAID4", .str c!"RAID4"), (c!"4", .str c!"RAID4")], getDevice := F19_Raid.getDevice }
/-- `commands/raid.py:677-682` -/
def F19_Raid.cls (dc : DataCls) : Command := listCmd c!"F19_Raid" (some 131) F19_Raid.init dc (FC3_Raid.parse (F19_Raid.info dc)) (listStr)

/-- `commands/raid.py:684-700`: `__init__` is inherited. -/
def F20_Raid.init : Ns := F19_Raid.init
/-- `commands/raid.py:688-700` `parse` -/
def F20_Raid.parse (k : Info) (args : List Str) : M Ns := do
  let retval ← FC3_Raid.parse k args
  M.failIfM (M.seenCmd c!"autopart") c!"The raid and autopart commands can't be used at the same time"
  M.failIfM (M.usedCmd c!"mount") c!"The raid and mount commands can't be used at the same time"
  return retval
/-- `commands/raid.py:684-700` -/
def F20_Raid.info (dc : DataCls) : Info := { dc := dc, op := F18_Raid.opWith [(c!"RAID0", .str c!"RAID0"), (c!"0", .str c!"RAID0"), (c!"RAID1", .str c!"RAID1"), (c!"1", .str c!"RAID1"), (c!"RAID5", .str c!"RAID5"), (c!"5", .str c!"RAID5"), (c!"RAID6", .str c!"RAID6"), (c!"6", .str c!"RAID6"), (c!"RAID10", .str c!"RAID10"), (c!"10", .str c!"RAID10"), (c!"RAID4", .str c!"RAID4"), (c!"4", .str c!"RAID4")], getDevice := F19_Raid.getDevice }
/-- `commands/raid.py:684-700` -/
def F20_Raid.cls (dc : DataCls) : Command := listCmd c!"F20_Raid" (some 131) F20_Raid.init dc (F20_Raid.parse (F20_Raid.info dc)) (listStr)

/-- `commands/raid.py:702-727`: `__init__` is inherited. -/
def F23_Raid.init : Ns := F20_Raid.init
/-- `commands/raid.py:706-716` `_getParser` -/
def F23_Raid.opWith (levelMap : List (Str × Val)) : OptParser :=
  (F18_Raid.opWith levelMap)
    |>.add { names := [c!"--mkfsoptions"], dest := some c!"mkfsopts" }
/-- `commands/raid.py:718-727` `parse` -/
def F23_Raid.parse (k : Info) (args : List Str) : M Ns := do
  let retval ← F20_Raid.parse k args
  M.failIf (!((retval.getD c!"format").truthy) && (retval.getD c!"mkfsopts").truthy) c!"--mkfsoptions with --noformat has no effect."
  M.failIf ((retval.getD c!"fsprofile").truthy && (retval.getD c!"mkfsopts").truthy) c!"--mkfsoptions and --fsprofile cannot be used together."
  return retval
/-- `commands/raid.py:702-727` -/
def F23_Raid.info (dc : DataCls) : Info := { dc := dc, op := F23_Raid.opWith [(c!"RAID0", .str c!"RAID0"), (c!"0", .str c!"RAID0"), (c!"RAID1", .str c!"RAID1"), (c!"1", .str c!"RAID1"), (c!"RAID5", .str c!"RAID5"), (c!"5", .str c!"RAID5"), (c!"RAID6", .str c!"RAID6"), (c!"6", .str c!"RAID6"), (c!"RAID10", .str c!"RAID10"), (c!"10", .str c!"RAID10"), (c!"RAID4", .str c!"RAID4"), (c!"4", .str c!"RAID4")], getDevice := F19_Raid.getDevice }
/-- `commands/raid.py:702-727` -/
def F23_Raid.cls (dc : DataCls) : Command := listCmd c!"F23_Raid" (some 131) F23_Raid.init dc (F23_Raid.parse (F23_Raid.info dc)) (listStr)

/-- `commands/raid.py:729-739`: `__init__` is inherited. -/
def F25_Raid.init : Ns := F23_Raid.init
/-- `commands/raid.py:733-739` `_getParser` -/
def F25_Raid.opWith (levelMap : List (Str × Val)) : OptParser :=
  (F23_Raid.opWith levelMap)
    |>.add { names := [c!"--chunksize"], dest := some c!"chunk_size", ty := .int }
/-- `commands/raid.py:729-739` -/
def F25_Raid.info (dc : DataCls) : Info := { dc := dc, op := F25_Raid.opWith [(c!"RAID0", .str c!"RAID0"), (c!"0", .str c!"RAID0"), (c!"RAID1", .str c!"RAID1"), (c!"1", .str c!"RAID1"), (c!"RAID5", .str c!"RAID5"), (c!"5", .str c!"RAID5"), (c!"RAID6", .str c!"RAID6"), (c!"6", .str c!"RAID6"), (c!"RAID10", .str c!"RAID10"), (c!"10", .str c!"RAID10"), (c!"RAID4", .str c!"RAID4"), (c!"4", .str c!"RAID4")], getDevice := F19_Raid.getDevice }
/-- `commands/raid.py:729-739` -/
def F25_Raid.cls (dc : DataCls) : Command := listCmd c!"F25_Raid" (some 131) F25_Raid.init dc (F23_Raid.parse (F25_Raid.info dc)) (listStr)

/-- `commands/raid.py:741-742`: `__init__` is inherited. -/
def RHEL7_Raid.init : Ns := F25_Raid.init
/-- `commands/raid.py:741-742` -/
def RHEL7_Raid.info (dc : DataCls) : Info := { dc := dc, op := F25_Raid.opWith [(c!"RAID0", .str c!"RAID0"), (c!"0", .str c!"RAID0"), (c!"RAID1", .str c!"RAID1"), (c!"1", .str c!"RAID1"), (c!"RAID5", .str c!"RAID5"), (c!"5", .str c!"RAID5"), (c!"RAID6", .str c!"RAID6"), (c!"6", .str c!"RAID6"), (c!"RAID10", .str c!"RAID10"), (c!"10", .str c!"RAID10"), (c!"RAID4", .str c!"RAID4"), (c!"4", .str c!"RAID4")], getDevice := F19_Raid.getDevice }
/-- `commands/raid.py:741-742` -/
def RHEL7_Raid.cls (dc : DataCls) : Command := listCmd c!"RHEL7_Raid" (some 131) RHEL7_Raid.init dc (F23_Raid.parse (RHEL7_Raid.info dc)) (listStr)

/-- `commands/raid.py:744-790`: `__init__` is inherited. -/
def F29_Raid.init : Ns := F25_Raid.init
/-- `commands/raid.py:748-781` `_getParser` -/
def F29_Raid.opWith (levelMap : List (Str × Val)) : OptParser :=
  (F25_Raid.opWith levelMap)
    |>.add { names := [c!"--luks-version"], dest := some c!"luks_version", default := some (.str []) }
    |>.add { names := [c!"--pbkdf"], default := some (.str []) }
    |>.add { names := [c!"--pbkdf-memory"], dest := some c!"pbkdf_memory", default := some (.int 0), ty := .int }
    |>.add { names := [c!"--pbkdf-time"], dest := some c!"pbkdf_time", default := some (.int 0), ty := .int }
    |>.add { names := [c!"--pbkdf-iterations"], dest := some c!"pbkdf_iterations", default := some (.int 0), ty := .int }
/-- `commands/raid.py:783-790` `parse` -/
def F29_Raid.parse (k : Info) (args : List Str) : M Ns := do
  let retval ← F23_Raid.parse k args
  M.failIf ((retval.getD c!"pbkdf_time").truthy && (retval.getD c!"pbkdf_iterations").truthy) c!"Only one of --pbkdf-time and --pbkdf-iterations can be specified."
  return retval
/-- `commands/raid.py:744-790` -/
def F29_Raid.info (dc : DataCls) : Info := { dc := dc, op := F29_Raid.opWith [(c!"RAID0", .str c!"RAID0"), (c!"0", .str c!"RAID0"), (c!"RAID1", .str c!"RAID1"), (c!"1", .str c!"RAID1"), (c!"RAID5", .str c!"RAID5"), (c!"5", .str c!"RAID5"), (c!"RAID6", .str c!"RAID6"), (c!"6", .str c!"RAID6"), (c!"RAID10", .str c!"RAID10"), (c!"10", .str c!"RAID10"), (c!"RAID4", .str c!"RAID4"), (c!"4", .str c!"RAID4")], getDevice := F19_Raid.getDevice }
/-- `commands/raid.py:744-790` -/
def F29_Raid.cls (dc : DataCls) : Command := listCmd c!"F29_Raid" (some 131) F29_Raid.init dc (F29_Raid.parse (F29_Raid.info dc)) (listStr)

/-- `commands/raid.py:792-812`: `__init__` is inherited. -/
def RHEL8_Raid.init : Ns := F29_Raid.init
/-- `commands/raid.py:802-812` `_getParser` -/
def RHEL8_Raid.opWith (levelMap : List (Str × Val)) : OptParser := F29_Raid.opWith levelMap
/-- `commands/raid.py:796-800` `parse` -/
def RHEL8_Raid.parse (k : Info) (args : List Str) : M Ns := do
  let retval ← F29_Raid.parse k args
  M.failIf ((retval.getD c!"fstype").pyEq (Val.str c!"btrfs")) c!"Btrfs file system is not supported"
  return retval
/-- `commands/raid.py:792-812` -/
def RHEL8_Raid.info (dc : DataCls) : Info := { dc := dc, op := RHEL8_Raid.opWith [(c!"RAID0", .str c!"RAID0"), (c!"0", .str c!"RAID0"), (c!"RAID1", .str c!"RAID1"), (c!"1", .str c!"RAID1"), (c!"RAID5", .str c!"RAID5"), (c!"5", .str c!"RAID5"), (c!"RAID6", .str c!"RAID6"), (c!"6", .str c!"RAID6"), (c!"RAID10", .str c!"RAID10"), (c!"10", .str c!"RAID10"), (c!"RAID4", .str c!"RAID4"), (c!"4", .str c!"RAID4")], getDevice := F19_Raid.getDevice }
/-- `commands/raid.py:792-812` -/
def RHEL8_Raid.cls (dc : DataCls) : Command := listCmd c!"RHEL8_Raid" (some 131) RHEL8_Raid.init dc (RHEL8_Raid.parse (RHEL8_Raid.info dc)) (listStr)

end Ks.Cmd
