import Verif.Commands.Base
/-!
# `/repo/pykickstart/commands/firstboot.py`

Written by `scripts/gen_commands.py` from the text of that file; see there and
`Verif/Commands/Base.lean` for how a class is represented.
-/
namespace Ks.Cmd

/-- `commands/firstboot.py:29-33` `__init__` -/
def FC3_Firstboot.init : Ns := [(c!"firstboot", .none)]
/-- `commands/firstboot.py:50-74` `_getParser` -/
def FC3_Firstboot.op : OptParser :=
  OptParser.empty
    |>.add { names := [c!"--disable", c!"--disabled"], dest := some c!"firstboot", kind := .storeConst, nargs := .n 0, const := .int 1 }
    |>.add { names := [c!"--enable", c!"--enabled"], dest := some c!"firstboot", kind := .storeConst, nargs := .n 0, const := .int 0 }
    |>.add { names := [c!"--reconfig"], dest := some c!"firstboot", kind := .storeConst, nargs := .n 0, const := .int 2 }
/-- `commands/firstboot.py:35-48` `__str__` -/
def FC3_Firstboot.strOut : Out :=
  [(.and (.not (.eq c!"firstboot" .none)) (.eq c!"firstboot" (.int 1)), [.lit c!"firstboot --disable\n"]),
    (.and (.not (.eq c!"firstboot" .none)) (.and (.not (.eq c!"firstboot" (.int 1))) (.eq c!"firstboot" (.int 0))), [.lit c!"# Run the Setup Agent on first boot\nfirstboot --enable\n"]),
    (.and (.not (.eq c!"firstboot" .none)) (.and (.and (.not (.eq c!"firstboot" (.int 1))) (.not (.eq c!"firstboot" (.int 0)))) (.eq c!"firstboot" (.int 2))), [.lit c!"# Run the Setup Agent on first boot\nfirstboot --reconfig\n"])]
/-- `commands/firstboot.py:76-79` `parse` -/
def FC3_Firstboot.parse (k : Info) (args : List Str) : M Unit := do
  let ns ← M.parseArgs k.op args
  M.set c!"firstboot" (ns.getD c!"firstboot")
/-- `commands/firstboot.py:25-79` -/
def FC3_Firstboot.info : Info := { op := FC3_Firstboot.op }
/-- `commands/firstboot.py:25-79` -/
def FC3_Firstboot.cls : Command := plainCmd c!"FC3_Firstboot" (some 0) FC3_Firstboot.init (FC3_Firstboot.parse FC3_Firstboot.info) (FC3_Firstboot.strOut.render)

end Ks.Cmd
