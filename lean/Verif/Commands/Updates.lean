import Verif.Commands.Base
/-!
# `/repo/pykickstart/commands/updates.py`

Written by `scripts/gen_commands.py` from the text of that file; see there and
`Verif/Commands/Base.lean` for how a class is represented.
-/
namespace Ks.Cmd

/-- `commands/updates.py:33-36` `__init__` -/
def F7_Updates.init : Ns := [(c!"url", .str [])]
/-- `commands/updates.py:48-60` `_getParser` -/
def F7_Updates.op : OptParser :=
  OptParser.empty
    |>.add { names := [c!"updates"], nargs := .star }
/-- `commands/updates.py:38-46` `__str__` -/
def F7_Updates.strOut : Out :=
  [(.eq c!"url" (.str c!"floppy"), [.lit c!"updates\n"]),
    (.and (.not (.eq c!"url" (.str c!"floppy"))) (.tru c!"url"), [.lit c!"updates ", .fld c!"url", .lit c!"\n"])]
/-- `commands/updates.py:62-75` `parse` -/
def F7_Updates.parse (k : Info) (args : List Str) : M Unit := do
  let r ← M.parseKnown k.op args
  let _ns := r.1
  let extra := r.2
  M.failIf (decide ((_ns.getD c!"updates").len > 1)) c!"Kickstart command %s only takes one argument"
  M.failIf (!extra.isEmpty) c!"Unexpected arguments to %(command)s command: %(options)s"
  if !((_ns.getD c!"updates").truthy) then do
    M.set c!"url" (Val.str c!"floppy")
  else do
    let x1 ← M.lift ((_ns.getD c!"updates").index 0)
    M.set c!"url" (x1)
  return ()
/-- `commands/updates.py:29-75` -/
def F7_Updates.info : Info := { op := F7_Updates.op }
/-- `commands/updates.py:29-75` -/
def F7_Updates.cls : Command := plainCmd c!"F7_Updates" (some 0) F7_Updates.init (F7_Updates.parse F7_Updates.info) (F7_Updates.strOut.render)

/-- `commands/updates.py:78-117`: `__init__` is inherited. -/
def F34_Updates.init : Ns := F7_Updates.init
/-- `commands/updates.py:90-112` `_getParser` -/
def F34_Updates.op : OptParser :=
  OptParser.empty
    |>.add { names := [c!"url"] }
/-- `commands/updates.py:82-88` `__str__` -/
def F34_Updates.strOut : Out :=
  [(.tru c!"url", [.lit c!"updates ", .fld c!"url", .lit c!"\n"])]
/-- `commands/updates.py:114-117` `parse` -/
def F34_Updates.parse (k : Info) (args : List Str) : M Unit := do
  let ns ← M.parseArgs k.op args
  M.setToSelf ns
/-- `commands/updates.py:78-117` -/
def F34_Updates.info : Info := { op := F34_Updates.op }
/-- `commands/updates.py:78-117` -/
def F34_Updates.cls : Command := plainCmd c!"F34_Updates" (some 0) F34_Updates.init (F34_Updates.parse F34_Updates.info) (F34_Updates.strOut.render)

end Ks.Cmd
