import Verif.Commands.Base
/-!
# `/repo/pykickstart/commands/multipath.py`

Written by hand: a multipath device holds a list of path objects.  Here it is an attribute list
whose attribute `paths` holds the pairs (device, rule) of the paths.  The other attributes of the
path objects are not read again.
-/
namespace Ks.Cmd

/-- `commands/multipath.py:32-37` `__init__` -/
def FC6_MpPathData.init : Ns :=
  [(c!"lineno", .int 0), (c!"mpdev", .str []), (c!"device", .str []), (c!"rule", .str []), (c!"name", .str [])]

/-- `commands/multipath.py:39-40` `__str__` -/
def FC6_MpPathData.strOut : Out :=
  [(.tt, [.lit c!" --device=", .fld c!"device", .lit c!" --rule=\"", .fld c!"rule", .lit c!"\""])]

/-- `commands/multipath.py:46-49` `__init__` -/
def FC6_MultiPathData.init : Ns := [(c!"lineno", .int 0), (c!"name", .str []), (c!"paths", .pairs [])]

/-- `commands/multipath.py:51-57` `__str__`; a path object (`:39-40`), which is also what a data list
may contain (`parse`, `:107-110`), has no attribute `paths`. -/
def FC6_MultiPathData.strText (self : Ns) : Str :=
  match self.get c!"paths" with
  | some paths => (paths.slaves.map fun p =>
      c!"multipath --name=" ++ (self.getD c!"name").fmt ++ c!" --device=" ++ p.1 ++ c!" --rule=\"" ++ p.2 ++ c!"\"\n").flatten
  | none => FC6_MpPathData.strOut.render self

/-- `commands/multipath.py:42-57`; `__eq__` is the identity of objects and is not used. -/
def FC6_MultiPathData.cls : DataCls := ⟨FC6_MultiPathData.init, FC6_MultiPathData.strText, fun _ _ => false⟩

/-- `commands/multipath.py:63-67` `__init__` -/
def FC6_MultiPath.init : Ns := []

/-- `commands/multipath.py:76-83` `_getParser` -/
def FC6_MultiPath.op : OptParser :=
  OptParser.empty
    |>.add { names := [c!"--name"], required := true }
    |>.add { names := [c!"--device"], required := true }
    |>.add { names := [c!"--rule"], required := true }

/-- `commands/multipath.py:92-101`: the loop over the devices there are.  It stops with an error when
the device is in use and with an `AttributeError` at an object without paths; otherwise the
result is the index of the last device with this name. -/
def FC6_MultiPath.findParent (device mpdev : Val) : List Ns → Nat → Option Nat → M (Option Nat)
  | [], _, parent => pure parent
  | mpath :: t, x, parent => do
    let paths ← match mpath.get c!"paths" with
      | some p => pure p.slaves
      | none => M.throw .attribute
    M.failIf (paths.any fun p => (Val.str p.1).pyEq device) c!"Device '%(device)s' is already used in multipath '%(multipathdev)s'"
    FC6_MultiPath.findParent device mpdev t (x + 1) (if (mpath.getD c!"name").pyEq mpdev then some x else parent)

/-- `commands/multipath.py:85-110` `parse`.  The index 0 counts as no parent (`if not parent`). -/
def FC6_MultiPath.parse (k : Info) (args : List Str) : M Ns := do
  let ns ← M.parseArgs k.op args
  let dd := setToObj ns FC6_MpPathData.init
  let ln ← M.lineno
  let dd := dd.set c!"lineno" (.int ln)
  let mpdev ← M.lift (Val.last ((dd.getD c!"name").split '/'))
  let dd := dd.set c!"mpdev" mpdev
  let l ← M.dataList
  let parent ← FC6_MultiPath.findParent (dd.getD c!"device") mpdev l 0 none
  let new : Str × Str := ((dd.getD c!"device").fmt, (dd.getD c!"rule").fmt)
  match parent.filter (· ≠ 0) with
  | none => return (k.dc.init.set c!"name" (dd.getD c!"name")).set c!"paths" (.pairs [new])
  | some x => do
    M.setData (l.modify x fun m => m.set c!"paths" (.pairs ((m.getD c!"paths").slaves ++ [new])))
    return dd

/-- `commands/multipath.py:59-117` -/
def FC6_MultiPath.info (dc : DataCls) : Info := { dc := dc, op := FC6_MultiPath.op }
/-- `commands/multipath.py:59-117` -/
def FC6_MultiPath.cls (dc : DataCls) : Command :=
  listCmd c!"FC6_MultiPath" (some 50) FC6_MultiPath.init dc (FC6_MultiPath.parse (FC6_MultiPath.info dc)) listStr

/-- `commands/multipath.py:119-126` -/
def F24_MultiPath.cls : Command := deprecatedCmd c!"F24_MultiPath" []

/-- `commands/multipath.py:128-132` -/
def F34_MultiPath.cls : Command := removedCmd c!"F34_MultiPath" []

end Ks.Cmd
