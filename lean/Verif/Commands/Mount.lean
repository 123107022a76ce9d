import Verif.Commands.Base
/-!
# `/repo/pykickstart/commands/mount.py`

Written by `scripts/gen_commands.py` from the text of that file; see there and
`Verif/Commands/Base.lean` for how a class is represented.
-/
namespace Ks.Cmd

/-- `commands/mount.py:32-39` `__init__` -/
def F27_MountData.init : Ns := [(c!"lineno", .int 0), (c!"mount_point", .str []), (c!"device", .str []), (c!"format", .str []), (c!"reformat", .bool false), (c!"mkfs_opts", .str []), (c!"mount_opts", .str [])]
/-- `commands/mount.py:50-66` `_getArgsAsStr` -/
def F27_MountData.args : Out :=
  [(.tt, [.fld c!"device", .lit c!" ", .fld c!"mount_point"]),
    (.tru c!"reformat", [.lit c!" --reformat"]),
    (.and (.tru c!"reformat") (.tru c!"format"), [.lit c!"=", .fld c!"format"]),
    (.tru c!"mkfs_opts", [.lit c!" --mkfsoptions=\"", .fld c!"mkfs_opts", .lit c!"\""]),
    (.tru c!"mount_opts", [.lit c!" --mountoptions=\"", .fld c!"mount_opts", .lit c!"\""])]
/-- `commands/mount.py:68-71` `__str__` -/
def F27_MountData.strOut (args : Out) : Out :=
  [(.tt, [.lit c!"mount "])] ++
    args ++
    [(.tt, [.lit c!"\n"])]
/-- `commands/mount.py:41-45` `__eq__` -/
def F27_MountData.eq : Ns → Ns → Bool := sameAttrs [c!"mount_point"]
/-- `commands/mount.py:28-71` -/
def F27_MountData.cls : DataCls := { init := F27_MountData.init, str := (F27_MountData.strOut F27_MountData.args).render, eq := F27_MountData.eq }

/-- `commands/mount.py:77-80` `__init__` -/
def F27_Mount.init : Ns := []
/-- `commands/mount.py:93-143` `_getParser` -/
def F27_Mount.op : OptParser :=
  OptParser.empty
    |>.add { names := [c!"device"], nargs := .n 1 }
    |>.add { names := [c!"mntpoint"], nargs := .n 1, ty := .mount }
    |>.add { names := [c!"--reformat"], dest := some c!"reformat", nargs := .opt, const := .bool true, default := some (.bool false) }
    |>.add { names := [c!"--mkfsoptions"], dest := some c!"mkfs_opts" }
    |>.add { names := [c!"--mountoptions"], dest := some c!"mount_opts" }
/-- `commands/mount.py:145-202` `parse` -/
def F27_Mount.parse (k : Info) (args : List Str) : M Ns := do
  let conflicting_command : Str := []
  let conflicting_command ← M.cond (M.seenCmd c!"autopart") (pure c!"autopart") (pure conflicting_command)
  let conflicting_command ← M.cond (M.seenCmd c!"partition") (pure c!"part/partition") (M.cond (M.seenCmd c!"raid") (pure c!"raid") (M.cond (M.seenCmd c!"volgroup") (pure c!"volgroup") (M.cond (M.seenCmd c!"logvol") (pure c!"logvol") (M.cond (M.usedCmd c!"reqpart") (pure c!"reqpart") (pure conflicting_command)))))
  M.failIf (!(conflicting_command).isEmpty) c!"The '%s' and 'mount' commands can't be used at the same time"
  let r ← M.parseKnown k.op args
  let ns := r.1
  let extra := r.2
  M.failIf (!extra.isEmpty) c!"Unexpected arguments to %(command)s command: %(options)s"
  let md := k.dc.init
  let md := setToObj ns md
  let x1 ← M.lineno
  let md := md.set c!"lineno" (Val.int x1)
  let x2 ← M.lift ((ns.getD c!"device").index 0)
  let md := md.set c!"device" (x2)
  let x3 ← M.lift ((ns.getD c!"mntpoint").index 0)
  let md := md.set c!"mount_point" (x3)
  M.failIf (!(((md.getD c!"mount_point").mapStr lower).pyEq (Val.str c!"none")) && !((md.getD c!"mount_point").startsWith c!"/")) c!"Invalid mount point '%s' given"
  M.failIf (decide (md.getD c!"reformat" = Val.bool false) && (md.getD c!"mkfs_opts").truthy) c!"'--mkfsoptions' requires --reformat"
  let md := if (md.getD c!"reformat").truthy && !decide (md.getD c!"reformat" = Val.bool true) then (md.set c!"format" (md.getD c!"reformat")).set c!"reformat" (Val.bool true) else md
  return md
/-- `commands/mount.py:74-209` -/
def F27_Mount.info (dc : DataCls) : Info := { dc := dc, op := F27_Mount.op }
/-- `commands/mount.py:74-209` -/
def F27_Mount.cls (dc : DataCls) : Command := listCmd c!"F27_Mount" (some 0) F27_Mount.init dc (F27_Mount.parse (F27_Mount.info dc)) (wrappedListStr c!"# Mount points configuration\n")

end Ks.Cmd
