import Verif.Commands.Base
/-!
# `/repo/pykickstart/commands/logging.py`

Written by `scripts/gen_commands.py` from the text of that file; see there and
`Verif/Commands/Base.lean` for how a class is represented.
-/
namespace Ks.Cmd

/-- `commands/logging.py:31-41` `__init__` -/
def FC6_Logging.init : Ns := [(c!"host", .str []), (c!"level", .str c!"info"), (c!"port", .str []), (c!"_level_provided", .bool false)]
/-- `commands/logging.py:57-73` `_getParser` -/
def FC6_Logging.op : OptParser :=
  OptParser.empty
    |>.add { names := [c!"--host"] }
    |>.add { names := [c!"--port"] }
    |>.add { names := [c!"--level"], default := some (.str c!"info"), choices := some [c!"debug", c!"info", c!"warning", c!"error", c!"critical"] }
/-- `commands/logging.py:43-55` `__str__` -/
def FC6_Logging.strOut : Out :=
  [(.and (.tru c!"level") (.tru c!"_level_provided"), [.lit c!"# Installation logging level\nlogging --level=", .fld c!"level"]),
    (.and (.and (.tru c!"level") (.tru c!"_level_provided")) (.tru c!"host"), [.lit c!" --host=", .fld c!"host"]),
    (.and (.and (.and (.tru c!"level") (.tru c!"_level_provided")) (.tru c!"host")) (.tru c!"port"), [.lit c!" --port=", .fld c!"port"]),
    (.tt, [.lit c!"\n"])]
/-- `commands/logging.py:75-83` `parse` -/
def FC6_Logging.parse (k : Info) (args : List Str) : M Unit := do
  let ns ← M.parseArgs k.op args
  M.setToSelf ns
  let self ← M.self
  M.failIf ((self.getD c!"port").truthy && !((self.getD c!"host").truthy)) c!"Can't specify --port without --host."
  M.set c!"_level_provided" (Val.bool true)
/-- `commands/logging.py:27-83` -/
def FC6_Logging.info : Info := { op := FC6_Logging.op }
/-- `commands/logging.py:27-83` -/
def FC6_Logging.cls : Command := plainCmd c!"FC6_Logging" (some 0) FC6_Logging.init (FC6_Logging.parse FC6_Logging.info) (FC6_Logging.strOut.render)

/-- `commands/logging.py:86-104`: `__init__` is inherited. -/
def F34_Logging.init : Ns := FC6_Logging.init
/-- `commands/logging.py:101-104` `_getParser` -/
def F34_Logging.op : OptParser :=
  FC6_Logging.op
    |>.add { names := [c!"--level"], deprecated := true }
/-- `commands/logging.py:88-99` `__str__` -/
def F34_Logging.strOut : Out :=
  [(.tru c!"host", [.lit c!"# Installation logging level\nlogging --host=", .fld c!"host"]),
    (.and (.tru c!"host") (.tru c!"port"), [.lit c!" --port=", .fld c!"port"]),
    (.tru c!"host", [.lit c!"\n"])]
/-- `commands/logging.py:86-104` -/
def F34_Logging.info : Info := { op := F34_Logging.op }
/-- `commands/logging.py:86-104` -/
def F34_Logging.cls : Command := plainCmd c!"F34_Logging" (some 0) F34_Logging.init (FC6_Logging.parse F34_Logging.info) (F34_Logging.strOut.render)

end Ks.Cmd
