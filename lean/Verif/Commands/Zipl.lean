import Verif.Commands.Base
/-!
# `/repo/pykickstart/commands/zipl.py`

Written by `scripts/gen_commands.py` from the text of that file; see there and
`Verif/Commands/Base.lean` for how a class is represented.
-/
namespace Ks.Cmd

/-- `commands/zipl.py:29-32` `__init__` -/
def F32_Zipl.init : Ns := [(c!"secure_boot", .int (-1))]
/-- `commands/zipl.py:34-63` `_getParser` -/
def F32_Zipl.op : OptParser :=
  OptParser.empty
    |>.add { names := [c!"--secure-boot"], dest := some c!"secure_boot", kind := .storeConst, nargs := .n 0, const := .int 2 }
    |>.add { names := [c!"--force-secure-boot"], dest := some c!"secure_boot", kind := .storeConst, nargs := .n 0, const := .int 1 }
    |>.add { names := [c!"--no-secure-boot"], dest := some c!"secure_boot", kind := .storeConst, nargs := .n 0, const := .int 0 }
/-- `commands/zipl.py:79-89` `_getArgsAsStr` -/
def F32_Zipl.args : Out :=
  [(.eq c!"secure_boot" (.int 2), [.lit c!" --secure-boot"]),
    (.and (.not (.eq c!"secure_boot" (.int 2))) (.eq c!"secure_boot" (.int 1)), [.lit c!" --force-secure-boot"]),
    (.and (.and (.not (.eq c!"secure_boot" (.int 2))) (.not (.eq c!"secure_boot" (.int 1)))) (.eq c!"secure_boot" (.int 0)), [.lit c!" --no-secure-boot"])]
/-- `commands/zipl.py:70-77` `__str__` -/
def F32_Zipl.strOut (args : Out) : Out :=
  [(.not (.eq c!"secure_boot" (.int (-1))), [.lit c!"# ZIPL configuration\nzipl"])] ++
    Out.guard (.not (.eq c!"secure_boot" (.int (-1)))) args ++
    [(.not (.eq c!"secure_boot" (.int (-1))), [.lit c!"\n"])]
/-- `commands/zipl.py:65-68` `parse` -/
def F32_Zipl.parse (k : Info) (args : List Str) : M Unit := do
  let ns ← M.parseArgs k.op args
  M.setToSelf ns
/-- `commands/zipl.py:25-89` -/
def F32_Zipl.info : Info := { op := F32_Zipl.op }
/-- `commands/zipl.py:25-89` -/
def F32_Zipl.cls : Command := plainCmd c!"F32_Zipl" (some 10) F32_Zipl.init (F32_Zipl.parse F32_Zipl.info) ((F32_Zipl.strOut F32_Zipl.args).render)

/-- `commands/zipl.py:92-93`: `__init__` is inherited. -/
def RHEL8_Zipl.init : Ns := F32_Zipl.init
/-- `commands/zipl.py:92-93` -/
def RHEL8_Zipl.info : Info := { op := F32_Zipl.op }
/-- `commands/zipl.py:92-93` -/
def RHEL8_Zipl.cls : Command := plainCmd c!"RHEL8_Zipl" (some 10) RHEL8_Zipl.init (F32_Zipl.parse RHEL8_Zipl.info) ((F32_Zipl.strOut F32_Zipl.args).render)

end Ks.Cmd
