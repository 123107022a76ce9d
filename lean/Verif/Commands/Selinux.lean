import Verif.Commands.Base
/-!
# `/repo/pykickstart/commands/selinux.py`

Written by `scripts/gen_commands.py` from the text of that file; see there and
`Verif/Commands/Base.lean` for how a class is represented.
-/
namespace Ks.Cmd

/-- `commands/selinux.py:29-33` `__init__` -/
def FC3_SELinux.init : Ns := [(c!"selinux", .none)]
/-- `commands/selinux.py:52-73` `_getParser` -/
def FC3_SELinux.op : OptParser :=
  OptParser.empty
    |>.add { names := [c!"--disabled"], dest := some c!"selinux", kind := .storeConst, nargs := .n 0, const := .int 0 }
    |>.add { names := [c!"--enforcing"], dest := some c!"selinux", kind := .storeConst, nargs := .n 0, const := .int 1 }
    |>.add { names := [c!"--permissive"], dest := some c!"selinux", kind := .storeConst, nargs := .n 0, const := .int 2 }
/-- `commands/selinux.py:35-50` `__str__` -/
def FC3_SELinux.strOut : Out :=
  [(.not (.eq c!"selinux" .none), [.lit c!"# SELinux configuration\n"]),
    (.and (.not (.eq c!"selinux" .none)) (.eq c!"selinux" (.int 0)), [.lit c!"selinux --disabled\n"]),
    (.and (.not (.eq c!"selinux" .none)) (.and (.not (.eq c!"selinux" (.int 0))) (.eq c!"selinux" (.int 1))), [.lit c!"selinux --enforcing\n"]),
    (.and (.not (.eq c!"selinux" .none)) (.and (.and (.not (.eq c!"selinux" (.int 0))) (.not (.eq c!"selinux" (.int 1)))) (.eq c!"selinux" (.int 2))), [.lit c!"selinux --permissive\n"])]
/-- `commands/selinux.py:75-78` `parse` -/
def FC3_SELinux.parse (k : Info) (args : List Str) : M Unit := do
  let ns ← M.parseArgs k.op args
  M.setToSelf ns
/-- `commands/selinux.py:25-78` -/
def FC3_SELinux.info : Info := { op := FC3_SELinux.op }
/-- `commands/selinux.py:25-78` -/
def FC3_SELinux.cls : Command := plainCmd c!"FC3_SELinux" (some 0) FC3_SELinux.init (FC3_SELinux.parse FC3_SELinux.info) (FC3_SELinux.strOut.render)

end Ks.Cmd
