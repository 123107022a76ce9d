import Verif.Commands.Base
/-!
# `/repo/pykickstart/commands/lang.py`

Written by `scripts/gen_commands.py` from the text of that file; see there and
`Verif/Commands/Base.lean` for how a class is represented.
-/
namespace Ks.Cmd

/-- `commands/lang.py:31-34` `__init__` -/
def FC3_Lang.init : Ns := [(c!"lang", .str [])]
/-- `commands/lang.py:44-63` `_getParser` -/
def FC3_Lang.op : OptParser :=
  OptParser.empty
    |>.add { names := [c!"lang"], nargs := .n 1 }
/-- `commands/lang.py:36-42` `__str__` -/
def FC3_Lang.strOut : Out :=
  [(.tru c!"lang", [.lit c!"# System language\nlang ", .fld c!"lang", .lit c!"\n"])]
/-- `commands/lang.py:65-75` `parse` -/
def FC3_Lang.parse (k : Info) (args : List Str) : M Unit := do
  let r ← M.parseKnown k.op args
  let ns := r.1
  let extra := r.2
  M.assert (decide ((ns.getD c!"lang").len = 1))
  M.failIf (!extra.isEmpty) c!"Unexpected arguments to %(command)s command: %(options)s"
  M.setToSelf ns
  let x1 ← M.lift ((ns.getD c!"lang").index 0)
  M.set c!"lang" (x1)
/-- `commands/lang.py:27-75` -/
def FC3_Lang.info : Info := { op := FC3_Lang.op }
/-- `commands/lang.py:27-75` -/
def FC3_Lang.cls : Command := plainCmd c!"FC3_Lang" (some 0) FC3_Lang.init (FC3_Lang.parse FC3_Lang.info) (FC3_Lang.strOut.render)

/-- `commands/lang.py:81-85` `__init__` -/
def F19_Lang.init : Ns := Ns.updated FC3_Lang.init [(c!"addsupport", .list [])]
/-- `commands/lang.py:94-102` `_getParser` -/
def F19_Lang.op : OptParser :=
  FC3_Lang.op
    |>.add { names := [c!"--addsupport"], ty := .comma }
/-- `commands/lang.py:87-92` `__str__` -/
def F19_Lang.strText (self : Ns) : Str :=
  let s := (FC3_Lang.strOut).render self
  let s :=
    if !s.isEmpty && (Cond.tru c!"addsupport").eval self then
      let s := rstrip s
      let s := s ++ c!" --addsupport=" ++ (Frag.join c!"," c!"addsupport").render self ++ c!"\n"
      s
    else s
  s
/-- `commands/lang.py:77-102` -/
def F19_Lang.info : Info := { op := F19_Lang.op }
/-- `commands/lang.py:77-102` -/
def F19_Lang.cls : Command := plainCmd c!"F19_Lang" (some 0) F19_Lang.init (FC3_Lang.parse F19_Lang.info) (F19_Lang.strText)

end Ks.Cmd
