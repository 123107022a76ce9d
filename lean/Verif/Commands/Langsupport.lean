import Verif.Commands.Base
/-!
# `/repo/pykickstart/commands/langsupport.py`

Written by `scripts/gen_commands.py` from the text of that file; see there and
`Verif/Commands/Base.lean` for how a class is represented.
-/
namespace Ks.Cmd

/-- `commands/langsupport.py:30-35` `__init__` -/
def FC3_LangSupport.init : Ns := [(c!"deflang", .str []), (c!"supported", .list [])]
/-- `commands/langsupport.py:48-53` `_getParser` -/
def FC3_LangSupport.op : OptParser :=
  OptParser.empty
    |>.add { names := [c!"--default"], dest := some c!"deflang", default := some (.str c!"en_US.UTF-8") }
/-- `commands/langsupport.py:37-46` `__str__` -/
def FC3_LangSupport.strOut : Out :=
  [(.tru c!"deflang", [.lit c!"langsupport --default=", .fld c!"deflang"]),
    (.and (.tru c!"deflang") (.tru c!"supported"), [.lit c!" ", .join c!" " c!"supported"]),
    (.tt, [.lit c!"\n"])]
/-- `commands/langsupport.py:55-63` `parse` -/
def FC3_LangSupport.parse (k : Info) (args : List Str) : M Unit := do
  let r ← M.parseKnown k.op args
  let ns := r.1
  let extra := r.2
  M.failIf (extra.any (fun arg => startsWith arg c!"-")) c!"Unexpected arguments to %(command)s command: %(options)s"
  M.setToSelf ns
  M.set c!"supported" (Val.list (extra))
/-- `commands/langsupport.py:26-63` -/
def FC3_LangSupport.info : Info := { op := FC3_LangSupport.op }
/-- `commands/langsupport.py:26-63` -/
def FC3_LangSupport.cls : Command := plainCmd c!"FC3_LangSupport" (some 0) FC3_LangSupport.init (FC3_LangSupport.parse FC3_LangSupport.info) (FC3_LangSupport.strOut.render)

/-- `commands/langsupport.py:66-67` `__init__` -/
def FC5_LangSupport.init : Ns := []
/-- `commands/langsupport.py:69-72` `_getParser` -/
def FC5_LangSupport.op : OptParser := FC3_LangSupport.op
/-- `commands/langsupport.py:65-72` -/
def FC5_LangSupport.cls : Command := deprecatedCmd c!"FC5_LangSupport" FC5_LangSupport.init

/-- `base.py:229-235` `__init__` -/
def F7_LangSupport.init : Ns := []
/-- `commands/langsupport.py:75-78` `_getParser` -/
def F7_LangSupport.op : OptParser := FC5_LangSupport.op
/-- `commands/langsupport.py:74-78` -/
def F7_LangSupport.cls : Command := removedCmd c!"F7_LangSupport" F7_LangSupport.init

end Ks.Cmd
