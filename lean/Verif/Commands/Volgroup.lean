import Verif.Commands.Base
/-!
# `/repo/pykickstart/commands/volgroup.py`

Written by `scripts/gen_commands.py` from the text of that file; see there and
`Verif/Commands/Base.lean` for how a class is represented.
-/
namespace Ks.Cmd

/-- `commands/volgroup.py:32-38` `__init__` -/
def FC3_VolGroupData.init : Ns := [(c!"lineno", .int 0), (c!"format", .bool true), (c!"pesize", .int 32768), (c!"preexist", .bool false), (c!"vgname", .str []), (c!"physvols", .list [])]
/-- `commands/volgroup.py:49-58` `_getArgsAsStr` -/
def FC3_VolGroupData.args : Out :=
  [(.not (.tru c!"format"), [.lit c!" --noformat"]),
    (.tru c!"pesize", [.lit c!" --pesize=", .fld c!"pesize"]),
    (.tru c!"preexist", [.lit c!" --useexisting"])]
/-- `commands/volgroup.py:60-70` `__str__` -/
def FC3_VolGroupData.strText (args : Out) (self : Ns) : Str :=
  let retval := ([] : Str)
  let retval := retval ++ c!"volgroup " ++ (self.getD c!"vgname").fmt
  let retval := retval ++ args.render self
  let retval :=
    if (Cond.not (.tru c!"preexist")).eval self then
      let retval := retval ++ c!" " ++ (Frag.join c!" " c!"physvols").render self
      retval
    else retval
  strip retval ++ c!"\n"
/-- `commands/volgroup.py:40-44` `__eq__` -/
def FC3_VolGroupData.eq : Ns → Ns → Bool := sameAttrs [c!"vgname"]
/-- `commands/volgroup.py:28-70` -/
def FC3_VolGroupData.cls : DataCls := { init := FC3_VolGroupData.init, str := FC3_VolGroupData.strText FC3_VolGroupData.args, eq := FC3_VolGroupData.eq }

/-- `commands/volgroup.py:73-76` `__init__` -/
def F16_VolGroupData.init : Ns := Ns.updated FC3_VolGroupData.init [(c!"reserved_space", .none), (c!"reserved_percent", .none)]
/-- `commands/volgroup.py:78-85` `_getArgsAsStr` -/
def F16_VolGroupData.args : Out :=
  FC3_VolGroupData.args ++
    [(.tru c!"reserved_space", [.lit c!" --reserved-space=", .fld c!"reserved_space"]),
    (.tru c!"reserved_percent", [.lit c!" --reserved-percent=", .fld c!"reserved_percent"])]
/-- `commands/volgroup.py:72-85` -/
def F16_VolGroupData.cls : DataCls := { init := F16_VolGroupData.init, str := FC3_VolGroupData.strText F16_VolGroupData.args, eq := FC3_VolGroupData.eq }

/-- `commands/volgroup.py:88-90` `__init__` -/
def F21_VolGroupData.init : Ns := Ns.updated F16_VolGroupData.init [(c!"pesize", .int 0)]
/-- `commands/volgroup.py:87-90` -/
def F21_VolGroupData.cls : DataCls := { init := F21_VolGroupData.init, str := FC3_VolGroupData.strText F16_VolGroupData.args, eq := FC3_VolGroupData.eq }

/-- `commands/volgroup.py:92-93`: `__init__` is inherited. -/
def RHEL7_VolGroupData.init : Ns := F21_VolGroupData.init
/-- `commands/volgroup.py:92-93` -/
def RHEL7_VolGroupData.cls : DataCls := { init := RHEL7_VolGroupData.init, str := FC3_VolGroupData.strText F16_VolGroupData.args, eq := FC3_VolGroupData.eq }

/-- `commands/volgroup.py:95-96`: `__init__` is inherited. -/
def RHEL8_VolGroupData.init : Ns := F21_VolGroupData.init
/-- `commands/volgroup.py:95-96` -/
def RHEL8_VolGroupData.cls : DataCls := { init := RHEL8_VolGroupData.init, str := FC3_VolGroupData.strText F16_VolGroupData.args, eq := FC3_VolGroupData.eq }

/-- `commands/volgroup.py:102-106` `__init__` -/
def FC3_VolGroup.init : Ns := []
/-- `commands/volgroup.py:115-145` `_getParser` -/
def FC3_VolGroup.op : OptParser :=
  OptParser.empty
    |>.add { names := [c!"name"], nargs := .star }
    |>.add { names := [c!"partitions"], nargs := .star }
    |>.add { names := [c!"--noformat"], dest := some c!"format", kind := .storeConst, nargs := .n 0, const := .bool false, default := some (.bool true) }
    |>.add { names := [c!"--pesize"], default := some (.int 32768), ty := .int }
    |>.add { names := [c!"--useexisting"], dest := some c!"preexist", kind := .storeConst, nargs := .n 0, const := .bool true, default := some (.bool false) }
/-- `commands/volgroup.py:147-182` `parse` -/
def FC3_VolGroup.parse (k : Info) (args : List Str) : M Ns := do
  let r ← M.parseKnown k.op args
  let ns := r.1
  let extra := r.2
  let ns' := if !((ns.getD c!"partitions").truthy) then if !extra.isEmpty then ns.set c!"partitions" (Val.list (extra)) else if (ns.getD c!"name").truthy then (ns.set c!"partitions" (Val.list ((ns.getD c!"name").items.drop 1))).set c!"name" (Val.list ((ns.getD c!"name").items.take 1)) else ns else ns
  let extra' := if !((ns.getD c!"partitions").truthy) then if !extra.isEmpty then [] else extra else extra
  let ns := ns'
  let extra := extra'
  let ns := if !((ns.getD c!"format").truthy) then ns.set c!"preexist" (Val.bool true) else ns
  let vg := k.dc.init
  let vg := setToObj ns vg
  let x1 ← M.lineno
  let vg := vg.set c!"lineno" (Val.int x1)
  M.failIf (!((ns.getD c!"name").truthy)) c!"volgroup must be given a VG name"
  M.failIf (!((ns.getD c!"partitions").truthy || (ns.getD c!"preexist").truthy)) c!"volgroup must be given a list of partitions"
  M.failIf ((ns.getD c!"partitions").truthy && (ns.getD c!"preexist").truthy) c!"Members may not be specified for preexisting volgroup"
  let x2 ← M.lift ((ns.getD c!"name").index 0)
  let vg := vg.set c!"vgname" (x2)
  let vg := if (ns.getD c!"partitions").truthy then vg.set c!"physvols" (ns.getD c!"partitions") else vg
  let x3 ← M.dataList
  M.when (x3.any (fun d => k.dc.eq d vg)) (do
    M.warn (.parse c!"A volgroup with the name %s has already been defined."))
  return vg
/-- `commands/volgroup.py:98-189` -/
def FC3_VolGroup.info (dc : DataCls) : Info := { dc := dc, op := FC3_VolGroup.op }
/-- `commands/volgroup.py:98-189` -/
def FC3_VolGroup.cls (dc : DataCls) : Command := listCmd c!"FC3_VolGroup" (some 132) FC3_VolGroup.init dc (FC3_VolGroup.parse (FC3_VolGroup.info dc)) (listStr)

/-- `commands/volgroup.py:191-225`: `__init__` is inherited. -/
def F16_VolGroup.init : Ns := FC3_VolGroup.init
/-- `commands/volgroup.py:192-203` `_getParser` -/
def F16_VolGroup.op : OptParser :=
  FC3_VolGroup.op
    |>.add { names := [c!"--reserved-space"], dest := some c!"reserved_space", ty := .int }
    |>.add { names := [c!"--reserved-percent"], dest := some c!"reserved_percent", ty := .int }
/-- `commands/volgroup.py:205-225` `parse` -/
def F16_VolGroup.parse (k : Info) (args : List Str) : M Ns := do
  let retval ← FC3_VolGroup.parse k args
  M.failIf (!decide (retval.getD c!"reserved_space" = Val.none) && decide ((retval.getD c!"reserved_space").num < 0)) c!"Volume group reserved space must be a positive integer."
  M.failIf (!decide (retval.getD c!"reserved_percent" = Val.none) && (!(decide (0 < (retval.getD c!"reserved_percent").num) && decide ((retval.getD c!"reserved_percent").num < 100)))) c!"Volume group reserved space percentage must be between 1 and 99."
  M.failIfM (M.seenCmd c!"autopart") c!"The volgroup and autopart commands can't be used at the same time"
  M.failIfM (M.usedCmd c!"mount") c!"The volgroup and mount commands can't be used at the same time"
  return retval
/-- `commands/volgroup.py:191-225` -/
def F16_VolGroup.info (dc : DataCls) : Info := { dc := dc, op := F16_VolGroup.op }
/-- `commands/volgroup.py:191-225` -/
def F16_VolGroup.cls (dc : DataCls) : Command := listCmd c!"F16_VolGroup" (some 132) F16_VolGroup.init dc (F16_VolGroup.parse (F16_VolGroup.info dc)) (listStr)

/-- `commands/volgroup.py:227-232`: `__init__` is inherited. -/
def F21_VolGroup.init : Ns := F16_VolGroup.init
/-- `commands/volgroup.py:228-232` `_getParser` -/
def F21_VolGroup.op : OptParser :=
  F16_VolGroup.op
    |>.add { names := [c!"--pesize"], default := some (.int 0), ty := .int }
/-- `commands/volgroup.py:227-232` -/
def F21_VolGroup.info (dc : DataCls) : Info := { dc := dc, op := F21_VolGroup.op }
/-- `commands/volgroup.py:227-232` -/
def F21_VolGroup.cls (dc : DataCls) : Command := listCmd c!"F21_VolGroup" (some 132) F21_VolGroup.init dc (F16_VolGroup.parse (F21_VolGroup.info dc)) (listStr)

/-- `commands/volgroup.py:234-235`: `__init__` is inherited. -/
def RHEL7_VolGroup.init : Ns := F21_VolGroup.init
/-- `commands/volgroup.py:234-235` -/
def RHEL7_VolGroup.info (dc : DataCls) : Info := { dc := dc, op := F21_VolGroup.op }
/-- `commands/volgroup.py:234-235` -/
def RHEL7_VolGroup.cls (dc : DataCls) : Command := listCmd c!"RHEL7_VolGroup" (some 132) RHEL7_VolGroup.init dc (F16_VolGroup.parse (RHEL7_VolGroup.info dc)) (listStr)

/-- `commands/volgroup.py:237-238`: `__init__` is inherited. -/
def RHEL8_VolGroup.init : Ns := F21_VolGroup.init
/-- `commands/volgroup.py:237-238` -/
def RHEL8_VolGroup.info (dc : DataCls) : Info := { dc := dc, op := F21_VolGroup.op }
/-- `commands/volgroup.py:237-238` -/
def RHEL8_VolGroup.cls (dc : DataCls) : Command := listCmd c!"RHEL8_VolGroup" (some 132) RHEL8_VolGroup.init dc (F16_VolGroup.parse (RHEL8_VolGroup.info dc)) (listStr)

end Ks.Cmd
