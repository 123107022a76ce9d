import Verif.Commands.Base
/-!
# `/repo/pykickstart/commands/driverdisk.py`

Written by `scripts/gen_commands.py` from the text of that file; see there and
`Verif/Commands/Base.lean` for how a class is represented.
-/
namespace Ks.Cmd

/-- `commands/driverdisk.py:31-36` `__init__` -/
def FC3_DriverDiskData.init : Ns := [(c!"lineno", .int 0), (c!"partition", .str []), (c!"source", .str []), (c!"type", .str [])]
/-- `commands/driverdisk.py:38-48` `_getArgsAsStr` -/
def FC3_DriverDiskData.args : Out :=
  [(.tru c!"partition", [.fld c!"partition"]),
    (.and (.tru c!"partition") (.and (.has c!"type") (.tru c!"type")), [.lit c!" --type=", .fld c!"type"]),
    (.and (.not (.tru c!"partition")) (.tru c!"source"), [.lit c!"--source=", .fld c!"source"])]
/-- `commands/driverdisk.py:50-53` `__str__` -/
def FC3_DriverDiskData.strOut (args : Out) : Out :=
  [(.tt, [.lit c!"driverdisk "])] ++
    args ++
    [(.tt, [.lit c!"\n"])]
/-- `commands/driverdisk.py:27-53` -/
def FC3_DriverDiskData.cls : DataCls := { init := FC3_DriverDiskData.init, str := (FC3_DriverDiskData.strOut FC3_DriverDiskData.args).render, eq := fun _ _ => false }

/-- `commands/driverdisk.py:59-63` `__init__` -/
def FC4_DriverDiskData.init : Ns := Ns.updated FC3_DriverDiskData.init [(c!"biospart", .str [])]
/-- `commands/driverdisk.py:65-78` `_getArgsAsStr` -/
def FC4_DriverDiskData.args : Out :=
  [(.tru c!"partition", [.fld c!"partition"]),
    (.and (.tru c!"partition") (.and (.has c!"type") (.tru c!"type")), [.lit c!" --type=", .fld c!"type"]),
    (.and (.not (.tru c!"partition")) (.tru c!"source"), [.lit c!"--source=", .fld c!"source"]),
    (.and (.and (.not (.tru c!"partition")) (.not (.tru c!"source"))) (.tru c!"biospart"), [.lit c!"--biospart=", .fld c!"biospart"])]
/-- `commands/driverdisk.py:55-78` -/
def FC4_DriverDiskData.cls : DataCls := { init := FC4_DriverDiskData.init, str := (FC3_DriverDiskData.strOut FC4_DriverDiskData.args).render, eq := fun _ _ => false }

/-- `commands/driverdisk.py:84-86` `__init__` -/
def F12_DriverDiskData.init : Ns := Ns.without (FC4_DriverDiskData.init) [c!"type"]
/-- `commands/driverdisk.py:80-86` -/
def F12_DriverDiskData.cls : DataCls := { init := F12_DriverDiskData.init, str := (FC3_DriverDiskData.strOut FC4_DriverDiskData.args).render, eq := fun _ _ => false }

/-- `commands/driverdisk.py:88-89`: `__init__` is inherited. -/
def F14_DriverDiskData.init : Ns := F12_DriverDiskData.init
/-- `commands/driverdisk.py:88-89` -/
def F14_DriverDiskData.cls : DataCls := { init := F14_DriverDiskData.init, str := (FC3_DriverDiskData.strOut FC4_DriverDiskData.args).render, eq := fun _ _ => false }

/-- `commands/driverdisk.py:95-99` `__init__` -/
def FC3_DriverDisk.init : Ns := []
/-- `commands/driverdisk.py:108-126` `_getParser` -/
def FC3_DriverDisk.op : OptParser :=
  OptParser.empty
    |>.add { names := [c!"partition"], nargs := .star }
    |>.add { names := [c!"--source"] }
    |>.add { names := [c!"--type"] }
/-- `commands/driverdisk.py:128-149` `parse` -/
def FC3_DriverDisk.parse (k : Info) (args : List Str) : M Ns := do
  let r ← M.parseKnown k.op args
  let ns := r.1
  let extra := r.2
  M.failIf (decide ((ns.getD c!"partition").len > 1)) c!"Only one partition may be specified for driverdisk command."
  M.failIf (!extra.isEmpty) c!"Unexpected arguments to %(command)s command: %(options)s"
  M.failIf ((ns.getD c!"partition").truthy && (ns.getD c!"source").truthy) c!"Only one of --source and partition may be specified for driverdisk command."
  M.failIf (!((ns.getD c!"partition").truthy) && !((ns.getD c!"source").truthy)) c!"One of --source or partition must be specified for driverdisk command."
  let ddd := k.dc.init
  let ddd := setToObj ns ddd
  let x1 ← M.lineno
  let ddd := ddd.set c!"lineno" (Val.int x1)
  let ddd := if (ns.getD c!"partition").truthy then ddd.set c!"partition" ((ns.getD c!"partition").head) else ddd
  return ddd
/-- `commands/driverdisk.py:91-156` -/
def FC3_DriverDisk.info (dc : DataCls) : Info := { dc := dc, op := FC3_DriverDisk.op }
/-- `commands/driverdisk.py:91-156` -/
def FC3_DriverDisk.cls (dc : DataCls) : Command := listCmd c!"FC3_DriverDisk" (some 0) FC3_DriverDisk.init dc (FC3_DriverDisk.parse (FC3_DriverDisk.info dc)) (listStr)

/-- `commands/driverdisk.py:158-194`: `__init__` is inherited. -/
def FC4_DriverDisk.init : Ns := FC3_DriverDisk.init
/-- `commands/driverdisk.py:162-167` `_getParser` -/
def FC4_DriverDisk.op : OptParser :=
  FC3_DriverDisk.op
    |>.add { names := [c!"--biospart"] }
/-- `commands/driverdisk.py:169-194` `parse` -/
def FC4_DriverDisk.parse (k : Info) (args : List Str) : M Ns := do
  let r ← M.parseKnown k.op args
  let ns := r.1
  let extra := r.2
  M.failIf (decide ((ns.getD c!"partition").len > 1)) c!"Only one partition may be specified for driverdisk command."
  M.failIf (!extra.isEmpty) c!"Unexpected arguments to %(command)s command: %(options)s"
  M.failIf ((ns.getD c!"partition").truthy && (ns.getD c!"source").truthy) c!"Only one of --source and partition may be specified for driverdisk command."
  M.failIf ((ns.getD c!"partition").truthy && (ns.getD c!"biospart").truthy) c!"Only one of --biospart and partition may be specified for driverdisk command."
  M.failIf ((ns.getD c!"source").truthy && (ns.getD c!"biospart").truthy) c!"Only one of --biospart and --source may be specified for driverdisk command."
  M.failIf (!((ns.getD c!"partition").truthy) && !((ns.getD c!"source").truthy) && !((ns.getD c!"biospart").truthy)) c!"One of --source, --biospart, or partition must be specified for driverdisk command."
  let ddd := k.dc.init
  let ddd := setToObj ns ddd
  let x1 ← M.lineno
  let ddd := ddd.set c!"lineno" (Val.int x1)
  let ddd := if (ns.getD c!"partition").truthy then ddd.set c!"partition" ((ns.getD c!"partition").head) else ddd
  return ddd
/-- `commands/driverdisk.py:158-194` -/
def FC4_DriverDisk.info (dc : DataCls) : Info := { dc := dc, op := FC4_DriverDisk.op }
/-- `commands/driverdisk.py:158-194` -/
def FC4_DriverDisk.cls (dc : DataCls) : Command := listCmd c!"FC4_DriverDisk" (some 0) FC4_DriverDisk.init dc (FC4_DriverDisk.parse (FC4_DriverDisk.info dc)) (listStr)

/-- `commands/driverdisk.py:196-203`: `__init__` is inherited. -/
def F12_DriverDisk.init : Ns := FC4_DriverDisk.init
/-- `commands/driverdisk.py:200-203` `_getParser` -/
def F12_DriverDisk.op : OptParser :=
  FC4_DriverDisk.op
    |>.add { names := [c!"--type"], deprecated := true }
/-- `commands/driverdisk.py:196-203` -/
def F12_DriverDisk.info (dc : DataCls) : Info := { dc := dc, op := F12_DriverDisk.op }
/-- `commands/driverdisk.py:196-203` -/
def F12_DriverDisk.cls (dc : DataCls) : Command := listCmd c!"F12_DriverDisk" (some 0) F12_DriverDisk.init dc (FC4_DriverDisk.parse (F12_DriverDisk.info dc)) (listStr)

/-- `commands/driverdisk.py:205-212`: `__init__` is inherited. -/
def F14_DriverDisk.init : Ns := F12_DriverDisk.init
/-- `commands/driverdisk.py:209-212` `_getParser` -/
def F14_DriverDisk.op : OptParser :=
  F12_DriverDisk.op
    |>.remove c!"--type"
/-- `commands/driverdisk.py:205-212` -/
def F14_DriverDisk.info (dc : DataCls) : Info := { dc := dc, op := F14_DriverDisk.op }
/-- `commands/driverdisk.py:205-212` -/
def F14_DriverDisk.cls (dc : DataCls) : Command := listCmd c!"F14_DriverDisk" (some 0) F14_DriverDisk.init dc (FC4_DriverDisk.parse (F14_DriverDisk.info dc)) (listStr)

end Ks.Cmd
