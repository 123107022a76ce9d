import Verif.Commands.Base
/-!
# `/repo/pykickstart/commands/btrfs.py`

Written by `scripts/gen_commands.py` from the text of that file; see there and
`Verif/Commands/Base.lean` for how a class is represented.
-/
namespace Ks.Cmd

/-- `commands/btrfs.py:33-46` `__init__` -/
def F17_BTRFSData.init : Ns := [(c!"lineno", .int 0), (c!"format", .bool true), (c!"preexist", .bool false), (c!"label", .str []), (c!"mountpoint", .str []), (c!"devices", .list []), (c!"dataLevel", .none), (c!"metaDataLevel", .none), (c!"subvol", .bool false), (c!"parent", .str []), (c!"name", .none)]
/-- `commands/btrfs.py:57-72` `_getArgsAsStr` -/
def F17_BTRFSData.args : Out :=
  [(.not (.tru c!"format"), [.lit c!" --noformat"]),
    (.tru c!"preexist", [.lit c!" --useexisting"]),
    (.tru c!"label", [.lit c!" --label=", .fld c!"label"]),
    (.tru c!"dataLevel", [.lit c!" --data=", .low c!"dataLevel"]),
    (.tru c!"metaDataLevel", [.lit c!" --metadata=", .low c!"metaDataLevel"]),
    (.tru c!"subvol", [.lit c!" --subvol --name=", .fld c!"name"])]
/-- `commands/btrfs.py:74-78` `__str__` -/
def F17_BTRFSData.strOut (args : Out) : Out :=
  [(.tt, [.lit c!"btrfs ", .fld c!"mountpoint"])] ++
    args ++
    [(.tt, [.lit c!" ", .join c!" " c!"devices", .lit c!"\n"])]
/-- `commands/btrfs.py:48-52` `__eq__` -/
def F17_BTRFSData.eq : Ns → Ns → Bool := sameAttrs [c!"mountpoint"]
/-- `commands/btrfs.py:29-78` -/
def F17_BTRFSData.cls : DataCls := { init := F17_BTRFSData.init, str := (F17_BTRFSData.strOut F17_BTRFSData.args).render, eq := F17_BTRFSData.eq }

/-- `commands/btrfs.py:84-86` `__init__` -/
def F23_BTRFSData.init : Ns := Ns.updated F17_BTRFSData.init [(c!"mkfsopts", .str [])]
/-- `commands/btrfs.py:88-94` `_getArgsAsStr` -/
def F23_BTRFSData.args : Out :=
  F17_BTRFSData.args ++
    [(.tru c!"mkfsopts", [.lit c!" --mkfsoptions=\"", .fld c!"mkfsopts", .lit c!"\""])]
/-- `commands/btrfs.py:80-94` -/
def F23_BTRFSData.cls : DataCls := { init := F23_BTRFSData.init, str := (F17_BTRFSData.strOut F23_BTRFSData.args).render, eq := F17_BTRFSData.eq }

/-- `commands/btrfs.py:96-97`: `__init__` is inherited. -/
def RHEL7_BTRFSData.init : Ns := F23_BTRFSData.init
/-- `commands/btrfs.py:96-97` -/
def RHEL7_BTRFSData.cls : DataCls := { init := RHEL7_BTRFSData.init, str := (F17_BTRFSData.strOut F23_BTRFSData.args).render, eq := F17_BTRFSData.eq }

/-- `commands/btrfs.py:103-115` `__init__` -/
def F17_BTRFS.init : Ns := []
/-- `commands/btrfs.py:124-200` `_getParser` -/
def F17_BTRFS.opWith (levelMap : List (Str × Val)) : OptParser :=
  OptParser.empty
    |>.add { names := [c!"--noformat"], dest := some c!"format", kind := .storeConst, nargs := .n 0, const := .bool false, default := some (.bool true) }
    |>.add { names := [c!"--useexisting"], dest := some c!"preexist", kind := .storeConst, nargs := .n 0, const := .bool true, default := some (.bool false) }
    |>.add { names := [c!"--label"], default := some (.str []) }
    |>.add { names := [c!"--data"], dest := some c!"dataLevel", ty := .table false levelMap }
    |>.add { names := [c!"--metadata"], dest := some c!"metaDataLevel", ty := .table false levelMap }
    |>.add { names := [c!"--subvol"], kind := .storeConst, nargs := .n 0, const := .bool true, default := some (.bool false) }
    |>.add { names := [c!"--parent"], default := some (.str []) }
    |>.add { names := [c!"--name"], default := some (.str []) }
/-- `commands/btrfs.py:202-235` `parse` -/
def F17_BTRFS.parse (k : Info) (args : List Str) : M Ns := do
  let r ← M.parseKnown k.op args
  let ns := r.1
  let extra := r.2
  let data := k.dc.init
  let data := setToObj ns data
  let x1 ← M.lineno
  let data := data.set c!"lineno" (Val.int x1)
  let data := if !((data.getD c!"format").truthy) then data.set c!"preexist" (Val.bool true) else if (data.getD c!"preexist").truthy then data.set c!"format" (Val.bool false) else data
  M.failIf (!(!extra.isEmpty)) c!"btrfs must be given a mountpoint"
  M.failIf (extra.any (fun arg => startsWith arg c!"-")) c!"Unexpected arguments to %(command)s command: %(options)s"
  let x2 ← M.lift ((Val.list extra).index 0)
  let data := data.set c!"mountpoint" ((x2).mapStr mountpoint)
  let data := data.set c!"devices" (Val.list (extra.drop 1))
  M.failIf (!((data.getD c!"devices").truthy || (data.getD c!"subvol").truthy)) c!"btrfs must be given a list of partitions"
  M.failIf (!((data.getD c!"devices").truthy)) c!"btrfs subvol requires specification of parent volume"
  M.failIf ((data.getD c!"subvol").truthy && !((data.getD c!"name").truthy)) c!"btrfs subvolume requires a name"
  let x3 ← M.dataList
  M.when (x3.any (fun d => k.dc.eq d data)) (do
    M.warn (.parse c!"A btrfs volume with the mountpoint %s has already been defined."))
  return data
/-- `commands/btrfs.py:99-242` -/
def F17_BTRFS.info (dc : DataCls) : Info := { dc := dc, op := F17_BTRFS.opWith [(c!"raid0", .str c!"raid0"), (c!"0", .str c!"raid0"), (c!"raid1", .str c!"raid1"), (c!"1", .str c!"raid1"), (c!"raid10", .str c!"raid10"), (c!"10", .str c!"raid10"), (c!"single", .str c!"single")] }
/-- `commands/btrfs.py:99-242` -/
def F17_BTRFS.cls (dc : DataCls) : Command := listCmd c!"F17_BTRFS" (some 132) F17_BTRFS.init dc (F17_BTRFS.parse (F17_BTRFS.info dc)) (listStr)

/-- `commands/btrfs.py:244-266`: `__init__` is inherited. -/
def F23_BTRFS.init : Ns := F17_BTRFS.init
/-- `commands/btrfs.py:248-258` `_getParser` -/
def F23_BTRFS.opWith (levelMap : List (Str × Val)) : OptParser :=
  (F17_BTRFS.opWith levelMap)
    |>.add { names := [c!"--mkfsoptions"], dest := some c!"mkfsopts" }
/-- `commands/btrfs.py:260-266` `parse` -/
def F23_BTRFS.parse (k : Info) (args : List Str) : M Ns := do
  let data ← F17_BTRFS.parse k args
  M.failIf (((data.getD c!"preexist").truthy || !((data.getD c!"format").truthy)) && (data.getD c!"mkfsopts").truthy) c!"--mkfsoptions with --noformat or --useexisting has no effect."
  return data
/-- `commands/btrfs.py:244-266` -/
def F23_BTRFS.info (dc : DataCls) : Info := { dc := dc, op := F23_BTRFS.opWith [(c!"raid0", .str c!"raid0"), (c!"0", .str c!"raid0"), (c!"raid1", .str c!"raid1"), (c!"1", .str c!"raid1"), (c!"raid10", .str c!"raid10"), (c!"10", .str c!"raid10"), (c!"single", .str c!"single")] }
/-- `commands/btrfs.py:244-266` -/
def F23_BTRFS.cls (dc : DataCls) : Command := listCmd c!"F23_BTRFS" (some 132) F23_BTRFS.init dc (F23_BTRFS.parse (F23_BTRFS.info dc)) (listStr)

/-- `commands/btrfs.py:268-269`: `__init__` is inherited. -/
def RHEL7_BTRFS.init : Ns := F23_BTRFS.init
/-- `commands/btrfs.py:268-269` -/
def RHEL7_BTRFS.info (dc : DataCls) : Info := { dc := dc, op := F23_BTRFS.opWith [(c!"raid0", .str c!"raid0"), (c!"0", .str c!"raid0"), (c!"raid1", .str c!"raid1"), (c!"1", .str c!"raid1"), (c!"raid10", .str c!"raid10"), (c!"10", .str c!"raid10"), (c!"single", .str c!"single")] }
/-- `commands/btrfs.py:268-269` -/
def RHEL7_BTRFS.cls (dc : DataCls) : Command := listCmd c!"RHEL7_BTRFS" (some 132) RHEL7_BTRFS.init dc (F23_BTRFS.parse (RHEL7_BTRFS.info dc)) (listStr)

/-- `commands/btrfs.py:272-273` `__init__` -/
def RHEL8_BTRFS.init : Ns := []
/-- `commands/btrfs.py:275-278` `_getParser` -/
def RHEL8_BTRFS.opWith (levelMap : List (Str × Val)) : OptParser := F23_BTRFS.opWith levelMap
/-- `commands/btrfs.py:271-278` -/
def RHEL8_BTRFS.cls : Command := deprecatedCmd c!"RHEL8_BTRFS" RHEL8_BTRFS.init

end Ks.Cmd
