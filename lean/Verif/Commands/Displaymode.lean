import Verif.Commands.Base
/-!
# `/repo/pykickstart/commands/displaymode.py`

Written by `scripts/gen_commands.py` from the text of that file; see there and
`Verif/Commands/Base.lean` for how a class is represented.
-/
namespace Ks.Cmd

/-- `commands/displaymode.py:33-36` `__init__` -/
def FC3_DisplayMode.init : Ns := [(c!"displayMode", .none)]
/-- `commands/displaymode.py:68-75` `_getParser` -/
def FC3_DisplayMode.op : OptParser := OptParser.empty
/-- `commands/displaymode.py:38-51` `__str__` -/
def FC3_DisplayMode.strOut : Out :=
  [(.and (.not (.eq c!"displayMode" .none)) (.eq c!"displayMode" (.int 0)), [.lit c!"cmdline\n"]),
    (.and (.not (.eq c!"displayMode" .none)) (.and (.not (.eq c!"displayMode" (.int 0))) (.eq c!"displayMode" (.int 1))), [.lit c!"# Use graphical install\ngraphical\n"]),
    (.and (.not (.eq c!"displayMode" .none)) (.and (.and (.not (.eq c!"displayMode" (.int 0))) (.not (.eq c!"displayMode" (.int 1)))) (.eq c!"displayMode" (.int 2))), [.lit c!"# Use text mode install\ntext\n"])]
/-- `commands/displaymode.py:53-66` `parse` -/
def FC3_DisplayMode.parse (k : Info) (args : List Str) : M Unit := do
  let ns ← M.parseArgs k.op args
  M.setToSelf ns
  let x1 ← M.currentCmd
  if decide (x1 = c!"cmdline") then do
    M.set c!"displayMode" (Val.int 0)
  else do
    let x2 ← M.currentCmd
    if decide (x2 = c!"graphical") then do
      M.set c!"displayMode" (Val.int 1)
    else do
      let x3 ← M.currentCmd
      if decide (x3 = c!"text") then do
        M.set c!"displayMode" (Val.int 2)
      else do
        M.err c!"Unknown command %s"
  return ()
/-- `commands/displaymode.py:29-75` -/
def FC3_DisplayMode.info : Info := { op := FC3_DisplayMode.op }
/-- `commands/displaymode.py:29-75` -/
def FC3_DisplayMode.cls : Command := plainCmd c!"FC3_DisplayMode" (some 0) FC3_DisplayMode.init (FC3_DisplayMode.parse FC3_DisplayMode.info) (FC3_DisplayMode.strOut.render)

/-- `commands/displaymode.py:81-83` `__init__` -/
def F26_DisplayMode.init : Ns := Ns.updated FC3_DisplayMode.init [(c!"nonInteractive", .bool false)]
/-- `commands/displaymode.py:94-102` `_getParser` -/
def F26_DisplayMode.op : OptParser :=
  FC3_DisplayMode.op
    |>.add { names := [c!"--non-interactive"], dest := some c!"nonInteractive", kind := .storeConst, nargs := .n 0, const := .bool true, default := some (.bool false) }
/-- `commands/displaymode.py:85-92` `__str__` -/
def F26_DisplayMode.strText (self : Ns) : Str :=
  let retval := (FC3_DisplayMode.strOut).render self
  let retval :=
    if (Cond.tru c!"nonInteractive").eval self then
      let retval := rstrip retval
      let retval := retval ++ c!" --non-interactive\n"
      retval
    else retval
  retval
/-- `commands/displaymode.py:104-111` `parse` -/
def F26_DisplayMode.parse (k : Info) (args : List Str) : M Unit := do
  FC3_DisplayMode.parse k args
  let x1 ← M.currentCmd
  let self ← M.self
  M.failIf (decide (x1 = c!"cmdline") && (self.getD c!"nonInteractive").truthy) c!"Kickstart command cmdline does not support --non-interactive parameter"
/-- `commands/displaymode.py:77-111` -/
def F26_DisplayMode.info : Info := { op := F26_DisplayMode.op }
/-- `commands/displaymode.py:77-111` -/
def F26_DisplayMode.cls : Command := plainCmd c!"F26_DisplayMode" (some 0) F26_DisplayMode.init (F26_DisplayMode.parse F26_DisplayMode.info) (F26_DisplayMode.strText)

end Ks.Cmd
