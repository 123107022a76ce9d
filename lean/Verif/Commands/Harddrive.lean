import Verif.Commands.Base
/-!
# `/repo/pykickstart/commands/harddrive.py`

Written by `scripts/gen_commands.py` from the text of that file; see there and
`Verif/Commands/Base.lean` for how a class is represented.
-/
namespace Ks.Cmd

/-- `commands/harddrive.py:31-39` `__init__` -/
def FC3_HardDrive.init : Ns := [(c!"biospart", .none), (c!"partition", .none), (c!"dir", .none)]
/-- `commands/harddrive.py:64-82` `_getParser` -/
def FC3_HardDrive.op : OptParser :=
  OptParser.empty
    |>.add { names := [c!"--biospart"] }
    |>.add { names := [c!"--partition"] }
    |>.add { names := [c!"--dir"], required := true }
/-- `commands/harddrive.py:50-62` `__str__` -/
def FC3_HardDrive.strOut : Out :=
  [(.tru c!"seen", [.lit c!"# Use hard drive installation media\n"]),
    (.and (.tru c!"seen") (.not (.eq c!"biospart" .none)), [.lit c!"harddrive --dir=", .fld c!"dir", .lit c!" --biospart=", .fld c!"biospart", .lit c!"\n"]),
    (.and (.tru c!"seen") (.eq c!"biospart" .none), [.lit c!"harddrive --dir=", .fld c!"dir", .lit c!" --partition=", .fld c!"partition", .lit c!"\n"])]
/-- `commands/harddrive.py:84-92` `parse` -/
def FC3_HardDrive.parse (k : Info) (args : List Str) : M Unit := do
  let ns ← M.parseArgs k.op args
  M.setToSelf ns
  let self ← M.self
  M.failIf ((decide (self.getD c!"biospart" = Val.none) && decide (self.getD c!"partition" = Val.none)) || (!decide (self.getD c!"biospart" = Val.none) && !decide (self.getD c!"partition" = Val.none))) c!"One of biospart or partition options must be specified."
/-- `commands/harddrive.py:27-92` -/
def FC3_HardDrive.info : Info := { op := FC3_HardDrive.op }
/-- `commands/harddrive.py:27-92` -/
def FC3_HardDrive.cls : Command := plainCmd c!"FC3_HardDrive" (some 0) FC3_HardDrive.init (FC3_HardDrive.parse FC3_HardDrive.info) (FC3_HardDrive.strOut.render)

/-- `commands/harddrive.py:99-100` `__init__` -/
def F33_HardDrive.init : Ns := Ns.without (FC3_HardDrive.init) [c!"biospart"]
/-- `commands/harddrive.py:118-123` `_getParser` -/
def F33_HardDrive.op : OptParser :=
  FC3_HardDrive.op
    |>.remove c!"--biospart"
    |>.add { names := [c!"--partition"], required := true }
/-- `commands/harddrive.py:108-116` `__str__` -/
def F33_HardDrive.strOut : Out :=
  [(.tru c!"seen", [.lit c!"# Use hard drive installation media\nharddrive --dir=", .fld c!"dir", .lit c!" --partition=", .fld c!"partition", .lit c!"\n"])]
/-- `commands/harddrive.py:125-129` `parse` -/
def F33_HardDrive.parse (k : Info) (args : List Str) : M Unit := do
  let ns ← M.parseArgs k.op args
  M.setToSelf ns
/-- `commands/harddrive.py:95-129` -/
def F33_HardDrive.info : Info := { op := F33_HardDrive.op }
/-- `commands/harddrive.py:95-129` -/
def F33_HardDrive.cls : Command := plainCmd c!"F33_HardDrive" (some 0) F33_HardDrive.init (F33_HardDrive.parse F33_HardDrive.info) (F33_HardDrive.strOut.render)

end Ks.Cmd
