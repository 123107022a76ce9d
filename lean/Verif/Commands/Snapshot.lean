import Verif.Commands.Base
/-!
# `/repo/pykickstart/commands/snapshot.py`

Written by `scripts/gen_commands.py` from the text of that file; see there and
`Verif/Commands/Base.lean` for how a class is represented.
-/
namespace Ks.Cmd

/-- `commands/snapshot.py:34-38` `__init__` -/
def F26_SnapshotData.init : Ns := [(c!"lineno", .int 0), (c!"name", .str []), (c!"origin", .str []), (c!"when", .none)]
/-- `commands/snapshot.py:50-58` `_getArgsAsStr` -/
def F26_SnapshotData.args : Out :=
  [(.eq c!"when" (.int 0), [.lit c!"--when=post-install"]),
    (.and (.not (.eq c!"when" (.int 0))) (.eq c!"when" (.int 1)), [.lit c!"--when=pre-install"])]
/-- `commands/snapshot.py:60-63` `__str__` -/
def F26_SnapshotData.strText (args : Out) (self : Ns) : Str :=
  let retval := ([] : Str)
  let retval := retval ++ c!"snapshot " ++ (self.getD c!"origin").fmt ++ c!" --name=" ++ (self.getD c!"name").fmt ++ c!" " ++ args.render self
  strip retval ++ c!"\n"
/-- `commands/snapshot.py:40-45` `__eq__` -/
def F26_SnapshotData.eq : Ns → Ns → Bool := sameAttrs [c!"name", c!"origin", c!"when"]
/-- `commands/snapshot.py:30-63` -/
def F26_SnapshotData.cls : DataCls := { init := F26_SnapshotData.init, str := F26_SnapshotData.strText F26_SnapshotData.args, eq := F26_SnapshotData.eq }

/-- `commands/snapshot.py:70-76` `__init__` -/
def F26_Snapshot.init : Ns := []
/-- `commands/snapshot.py:93-111` `_getParser` -/
def F26_Snapshot.opWith (whenMap : List (Str × Val)) : OptParser :=
  OptParser.empty
    |>.add { names := [c!"origin"] }
    |>.add { names := [c!"--name"], required := true }
    |>.add { names := [c!"--when"], ty := .table false whenMap, required := true }
/-- `commands/snapshot.py:113-140` `parse` -/
def F26_Snapshot.parse (k : Info) (args : List Str) : M Ns := do
  let ns ← M.parseArgs k.op args
  let snap_data := k.dc.init
  let snap_data := setToObj ns snap_data
  let x1 ← M.lineno
  let snap_data := snap_data.set c!"lineno" (Val.int x1)
  let x2 ← M.dataList
  M.failIf (x2.any (fun d => (d.getD c!"name").pyEq (snap_data.getD c!"name"))) c!"Snapshot with the name %s has been already defined!"
  M.failIf (decide (snap_data.getD c!"when" = Val.none)) c!"Snapshot \"when\" parameter must be specified!"
  let groups := (snap_data.getD c!"origin").split '/'
  M.failIf (decide ((groups).len ≠ 2) || decide (((groups.items)[0]?.getD []).length = 0) || decide (((groups.items)[1]?.getD []).length = 0)) c!"Snapshot origin %s must be specified by VG/LV!"
  M.failIf (!((snap_data.getD c!"when").pyEq (Val.str [])) && !(k.typeMap.any (fun p => p.2.pyEq (snap_data.getD c!"when")))) c!"Snapshot when param must have one of these values %s!"
  return snap_data
/-- `commands/snapshot.py:66-147` -/
def F26_Snapshot.info (dc : DataCls) : Info := { dc := dc, op := F26_Snapshot.opWith [(c!"post-install", .int 0), (c!"pre-install", .int 1)], typeMap := [(c!"post-install", .int 0), (c!"pre-install", .int 1)] }
/-- `commands/snapshot.py:66-147` -/
def F26_Snapshot.cls (dc : DataCls) : Command := listCmd c!"F26_Snapshot" (some 140) F26_Snapshot.init dc (F26_Snapshot.parse (F26_Snapshot.info dc)) (listStr)

end Ks.Cmd
