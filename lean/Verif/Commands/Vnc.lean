import Verif.Commands.Base
/-!
# `/repo/pykickstart/commands/vnc.py`

Written by `scripts/gen_commands.py` from the text of that file; see there and
`Verif/Commands/Base.lean` for how a class is represented.
-/
namespace Ks.Cmd

/-- `commands/vnc.py:28-34` `__init__` -/
def FC3_Vnc.init : Ns := [(c!"enabled", .bool false), (c!"password", .str []), (c!"connect", .str [])]
/-- `commands/vnc.py:51-67` `_getParser` -/
def FC3_Vnc.op : OptParser :=
  OptParser.empty
    |>.add { names := [c!"--connect"] }
    |>.add { names := [c!"--password"] }
/-- `commands/vnc.py:36-49` `__str__` -/
def FC3_Vnc.strOut : Out :=
  [(.tru c!"enabled", [.lit c!"vnc"]),
    (.and (.tru c!"enabled") (.tru c!"connect"), [.lit c!" --connect=", .fld c!"connect"]),
    (.and (.tru c!"enabled") (.tru c!"password"), [.lit c!" --password=", .fld c!"password"]),
    (.tru c!"enabled", [.lit c!"\n"])]
/-- `commands/vnc.py:69-73` `parse` -/
def FC3_Vnc.parse (k : Info) (args : List Str) : M Unit := do
  M.set c!"enabled" (Val.bool true)
  let ns ← M.parseArgs k.op args
  M.setToSelf ns
/-- `commands/vnc.py:24-73` -/
def FC3_Vnc.info : Info := { op := FC3_Vnc.op }
/-- `commands/vnc.py:24-73` -/
def FC3_Vnc.cls : Command := plainCmd c!"FC3_Vnc" (some 0) FC3_Vnc.init (FC3_Vnc.parse FC3_Vnc.info) (FC3_Vnc.strOut.render)

/-- `commands/vnc.py:79-84` `__init__` -/
def FC6_Vnc.init : Ns := Ns.without (Ns.updated FC3_Vnc.init [(c!"host", .str []), (c!"port", .str [])]) [c!"connect"]
/-- `commands/vnc.py:104-117` `_getParser` -/
def FC6_Vnc.op : OptParser :=
  FC3_Vnc.op
    |>.add { names := [c!"--connect"], dest := some c!"_connect" }
    |>.add { names := [c!"--host"] }
    |>.add { names := [c!"--port"] }
/-- `commands/vnc.py:86-102` `__str__` -/
def FC6_Vnc.strOut : Out :=
  [(.tru c!"enabled", [.lit c!"vnc"]),
    (.and (.tru c!"enabled") (.tru c!"host"), [.lit c!" --host=", .fld c!"host"]),
    (.and (.tru c!"enabled") (.and (.tru c!"host") (.tru c!"port")), [.lit c!" --port=", .fld c!"port"]),
    (.and (.tru c!"enabled") (.tru c!"password"), [.lit c!" --password=", .fld c!"password"]),
    (.tru c!"enabled", [.lit c!"\n"])]
/-- `commands/vnc.py:119-133` `parse` -/
def FC6_Vnc.parse (k : Info) (args : List Str) : M Unit := do
  FC3_Vnc.parse k args
  let self ← M.self
  M.when ((self.getD c!"_connect").truthy) (do
    let cargs := (self.getD c!"_connect").split ':'
    let x1 ← M.lift ((cargs).index 0)
    M.set c!"host" (x1)
    M.when (decide ((cargs).len > 1)) (do
      let x2 ← M.lift ((cargs).index 1)
      M.set c!"port" (x2))
    M.del c!"_connect")
  return ()
/-- `commands/vnc.py:75-133` -/
def FC6_Vnc.info : Info := { op := FC6_Vnc.op }
/-- `commands/vnc.py:75-133` -/
def FC6_Vnc.cls : Command := plainCmd c!"FC6_Vnc" (some 0) FC6_Vnc.init (FC6_Vnc.parse FC6_Vnc.info) (FC6_Vnc.strOut.render)

/-- `commands/vnc.py:135-142`: `__init__` is inherited. -/
def F9_Vnc.init : Ns := FC6_Vnc.init
/-- `commands/vnc.py:139-142` `_getParser` -/
def F9_Vnc.op : OptParser :=
  FC6_Vnc.op
    |>.remove c!"--connect"
/-- `commands/vnc.py:135-142` -/
def F9_Vnc.info : Info := { op := F9_Vnc.op }
/-- `commands/vnc.py:135-142` -/
def F9_Vnc.cls : Command := plainCmd c!"F9_Vnc" (some 0) F9_Vnc.init (FC6_Vnc.parse F9_Vnc.info) (FC6_Vnc.strOut.render)

end Ks.Cmd
