import Verif.Commands.Base
/-!
# `/repo/pykickstart/commands/eula.py`

Written by `scripts/gen_commands.py` from the text of that file; see there and
`Verif/Commands/Base.lean` for how a class is represented.
-/
namespace Ks.Cmd

/-- `commands/eula.py:30-33` `__init__` -/
def F20_Eula.init : Ns := [(c!"agreed", .bool false)]
/-- `commands/eula.py:50-57` `_getParser` -/
def F20_Eula.op : OptParser :=
  OptParser.empty
    |>.add { names := [c!"--agreed", c!"--agree", c!"--accepted", c!"--accept"], dest := some c!"agreed", kind := .storeConst, nargs := .n 0, const := .bool true, default := some (.bool false) }
/-- `commands/eula.py:44-48` `_getArgsAsStr` -/
def F20_Eula.args : Out :=
  [(.tru c!"agreed", [.lit c!"--agreed"])]
/-- `commands/eula.py:35-42` `__str__` -/
def F20_Eula.strOut (args : Out) : Out :=
  [(.tru c!"agreed", [.lit c!"# License agreement\neula "])] ++
    Out.guard (.tru c!"agreed") args ++
    [(.tru c!"agreed", [.lit c!"\n"])]
/-- `commands/eula.py:59-70` `parse` -/
def F20_Eula.parse (k : Info) (args : List Str) : M Unit := do
  let r ← M.parseKnown k.op args
  let ns := r.1
  let extra := r.2
  M.setToSelf ns
  M.failIf (!extra.isEmpty) c!"Kickstart command %s does not take any arguments"
  let self ← M.self
  M.failIf (!((self.getD c!"agreed").truthy)) c!"Kickstart command eula expects the --agreed option"
/-- `commands/eula.py:27-70` -/
def F20_Eula.info : Info := { op := F20_Eula.op }
/-- `commands/eula.py:27-70` -/
def F20_Eula.cls : Command := plainCmd c!"F20_Eula" (some 0) F20_Eula.init (F20_Eula.parse F20_Eula.info) ((F20_Eula.strOut F20_Eula.args).render)

end Ks.Cmd
