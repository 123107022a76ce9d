import Verif.Commands.Base
/-!
# `/repo/pykickstart/commands/liveimg.py`

Written by `scripts/gen_commands.py` from the text of that file; see there and
`Verif/Commands/Base.lean` for how a class is represented.
-/
namespace Ks.Cmd

/-- `commands/liveimg.py:28-35` `__init__` -/
def F19_Liveimg.init : Ns := [(c!"checksum", .str []), (c!"noverifyssl", .none), (c!"proxy", .none), (c!"url", .none)]
/-- `commands/liveimg.py:65-96` `_getParser` -/
def F19_Liveimg.op : OptParser :=
  OptParser.empty
    |>.add { names := [c!"--url"], required := true }
    |>.add { names := [c!"--proxy"] }
    |>.add { names := [c!"--noverifyssl"], kind := .storeConst, nargs := .n 0, const := .bool true, default := some (.bool false) }
    |>.add { names := [c!"--checksum"] }
/-- `commands/liveimg.py:45-63` `__str__` -/
def F19_Liveimg.strOut : Out :=
  [(.tru c!"seen", [.lit c!"# Use live disk image installation\nliveimg --url=\"", .fld c!"url", .lit c!"\""]),
    (.and (.tru c!"seen") (.tru c!"proxy"), [.lit c!" --proxy=\"", .fld c!"proxy", .lit c!"\""]),
    (.and (.tru c!"seen") (.tru c!"noverifyssl"), [.lit c!" --noverifyssl"]),
    (.and (.tru c!"seen") (.tru c!"checksum"), [.lit c!" --checksum=\"", .fld c!"checksum", .lit c!"\""]),
    (.tru c!"seen", [.lit c!"\n"])]
/-- `commands/liveimg.py:98-101` `parse` -/
def F19_Liveimg.parse (k : Info) (args : List Str) : M Unit := do
  let ns ← M.parseArgs k.op args
  M.setToSelf ns
/-- `commands/liveimg.py:24-101` -/
def F19_Liveimg.info : Info := { op := F19_Liveimg.op }
/-- `commands/liveimg.py:24-101` -/
def F19_Liveimg.cls : Command := plainCmd c!"F19_Liveimg" (some 0) F19_Liveimg.init (F19_Liveimg.parse F19_Liveimg.info) (F19_Liveimg.strOut.render)

end Ks.Cmd
