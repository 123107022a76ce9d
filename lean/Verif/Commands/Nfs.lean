import Verif.Commands.Base
/-!
# `/repo/pykickstart/commands/nfs.py`

Written by `scripts/gen_commands.py` from the text of that file; see there and
`Verif/Commands/Base.lean` for how a class is represented.
-/
namespace Ks.Cmd

/-- `commands/nfs.py:28-33` `__init__` -/
def FC3_NFS.init : Ns := [(c!"server", .none), (c!"dir", .none)]
/-- `commands/nfs.py:52-68` `_getParser` -/
def FC3_NFS.op : OptParser :=
  OptParser.empty
    |>.add { names := [c!"--server"], required := true }
    |>.add { names := [c!"--dir"], required := true }
/-- `commands/nfs.py:44-50` `__str__` -/
def FC3_NFS.strOut : Out :=
  [(.tru c!"seen", [.lit c!"# Use NFS installation media\nnfs --server=", .fld c!"server", .lit c!" --dir=", .fld c!"dir", .lit c!"\n"])]
/-- `commands/nfs.py:70-73` `parse` -/
def FC3_NFS.parse (k : Info) (args : List Str) : M Unit := do
  let ns ← M.parseArgs k.op args
  M.setToSelf ns
/-- `commands/nfs.py:24-73` -/
def FC3_NFS.info : Info := { op := FC3_NFS.op }
/-- `commands/nfs.py:24-73` -/
def FC3_NFS.cls : Command := plainCmd c!"FC3_NFS" (some 0) FC3_NFS.init (FC3_NFS.parse FC3_NFS.info) (FC3_NFS.strOut.render)

/-- `commands/nfs.py:79-81` `__init__` -/
def FC6_NFS.init : Ns := Ns.updated FC3_NFS.init [(c!"opts", .none)]
/-- `commands/nfs.py:98-106` `_getParser` -/
def FC6_NFS.op : OptParser :=
  FC3_NFS.op
    |>.add { names := [c!"--opts"] }
/-- `commands/nfs.py:89-96` `__str__` -/
def FC6_NFS.strText (self : Ns) : Str :=
  let retval := (FC3_NFS.strOut).render self
  let retval :=
    if (Cond.tru c!"seen").eval self && (Cond.tru c!"opts").eval self then
      let retval := rstrip retval
      let retval := retval ++ c!" --opts=\"" ++ (self.getD c!"opts").fmt ++ c!"\"\n"
      retval
    else retval
  retval
/-- `commands/nfs.py:75-106` -/
def FC6_NFS.info : Info := { op := FC6_NFS.op }
/-- `commands/nfs.py:75-106` -/
def FC6_NFS.cls : Command := plainCmd c!"FC6_NFS" (some 0) FC6_NFS.init (FC3_NFS.parse FC6_NFS.info) (FC6_NFS.strText)

end Ks.Cmd
