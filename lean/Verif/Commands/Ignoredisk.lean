import Verif.Commands.Base
/-!
# `/repo/pykickstart/commands/ignoredisk.py`

Written by `scripts/gen_commands.py` from the text of that file; see there and
`Verif/Commands/Base.lean` for how a class is represented.
-/
namespace Ks.Cmd

/-- `commands/ignoredisk.py:30-34` `__init__` -/
def FC3_IgnoreDisk.init : Ns := [(c!"ignoredisk", .list [])]
/-- `commands/ignoredisk.py:44-53` `_getParser` -/
def FC3_IgnoreDisk.op : OptParser :=
  OptParser.empty
    |>.add { names := [c!"--drives"], dest := some c!"ignoredisk", ty := .comma, required := true }
/-- `commands/ignoredisk.py:36-42` `__str__` -/
def FC3_IgnoreDisk.strOut : Out :=
  [(.tru c!"ignoredisk", [.lit c!"ignoredisk --drives=", .join c!"," c!"ignoredisk", .lit c!"\n"])]
/-- `commands/ignoredisk.py:55-58` `parse` -/
def FC3_IgnoreDisk.parse (k : Info) (args : List Str) : M Unit := do
  let ns ← M.parseArgs k.op args
  M.setToSelf ns
/-- `commands/ignoredisk.py:26-58` -/
def FC3_IgnoreDisk.info : Info := { op := FC3_IgnoreDisk.op }
/-- `commands/ignoredisk.py:26-58` -/
def FC3_IgnoreDisk.cls : Command := plainCmd c!"FC3_IgnoreDisk" (some 0) FC3_IgnoreDisk.init (FC3_IgnoreDisk.parse FC3_IgnoreDisk.info) (FC3_IgnoreDisk.strOut.render)

/-- `commands/ignoredisk.py:64-67` `__init__` -/
def F8_IgnoreDisk.init : Ns := Ns.updated FC3_IgnoreDisk.init [(c!"onlyuse", .list [])]
/-- `commands/ignoredisk.py:93-102` `_getParser` -/
def F8_IgnoreDisk.op : OptParser :=
  FC3_IgnoreDisk.op
    |>.add { names := [c!"--drives"], dest := some c!"ignoredisk", ty := .comma }
    |>.add { names := [c!"--only-use"], dest := some c!"onlyuse", ty := .comma }
/-- `commands/ignoredisk.py:69-77` `__str__` -/
def F8_IgnoreDisk.strOut : Out :=
  [(.tru c!"ignoredisk", [.lit c!"ignoredisk --drives=", .join c!"," c!"ignoredisk", .lit c!"\n"]),
    (.and (.not (.tru c!"ignoredisk")) (.tru c!"onlyuse"), [.lit c!"ignoredisk --only-use=", .join c!"," c!"onlyuse", .lit c!"\n"])]
/-- `commands/ignoredisk.py:79-91` `parse` -/
def F8_IgnoreDisk.parse (k : Info) (args : List Str) : M Unit := do
  FC3_IgnoreDisk.parse k args
  let howmany : Nat := 0
  let self ← M.self
  let howmany := if (self.getD c!"ignoredisk").truthy then howmany + 1 else howmany
  let howmany := if (self.getD c!"onlyuse").truthy then howmany + 1 else howmany
  M.failIf (decide (howmany ≠ 1)) c!"One of --drives or --only-use must be specified for ignoredisk command."
/-- `commands/ignoredisk.py:60-102` -/
def F8_IgnoreDisk.info : Info := { op := F8_IgnoreDisk.op }
/-- `commands/ignoredisk.py:60-102` -/
def F8_IgnoreDisk.cls : Command := plainCmd c!"F8_IgnoreDisk" (some 0) F8_IgnoreDisk.init (F8_IgnoreDisk.parse F8_IgnoreDisk.info) (F8_IgnoreDisk.strOut.render)

/-- `commands/ignoredisk.py:108-110` `__init__` -/
def RHEL6_IgnoreDisk.init : Ns := Ns.updated F8_IgnoreDisk.init [(c!"interactive", .bool false)]
/-- `commands/ignoredisk.py:138-144` `_getParser` -/
def RHEL6_IgnoreDisk.op : OptParser :=
  F8_IgnoreDisk.op
    |>.add { names := [c!"--interactive"], kind := .storeConst, nargs := .n 0, const := .bool true, default := some (.bool false) }
/-- `commands/ignoredisk.py:112-118` `__str__` -/
def RHEL6_IgnoreDisk.strOut : Out :=
  Out.guard (.not (.tru c!"interactive")) (F8_IgnoreDisk.strOut) ++
    [(.tru c!"interactive", [.lit c!"ignoredisk --interactive\n"])]
/-- `commands/ignoredisk.py:120-136` `parse` -/
def RHEL6_IgnoreDisk.parse (k : Info) (args : List Str) : M Unit := do
  FC3_IgnoreDisk.parse k args
  let howmany : Nat := 0
  let self ← M.self
  let howmany := if (self.getD c!"ignoredisk").truthy then howmany + 1 else howmany
  let howmany := if (self.getD c!"onlyuse").truthy then howmany + 1 else howmany
  let howmany := if (self.getD c!"interactive").truthy then howmany + 1 else howmany
  M.failIf (decide (howmany ≠ 1)) c!"One of --drives , --only-use , or --interactive must be specified for ignoredisk command."
  M.when ((self.getD c!"interactive").truthy) (do
    M.set c!"ignoredisk" (Val.list []))
  return ()
/-- `commands/ignoredisk.py:104-144` -/
def RHEL6_IgnoreDisk.info : Info := { op := RHEL6_IgnoreDisk.op }
/-- `commands/ignoredisk.py:104-144` -/
def RHEL6_IgnoreDisk.cls : Command := plainCmd c!"RHEL6_IgnoreDisk" (some 0) RHEL6_IgnoreDisk.init (RHEL6_IgnoreDisk.parse RHEL6_IgnoreDisk.info) (RHEL6_IgnoreDisk.strOut.render)

/-- `commands/ignoredisk.py:146-147`: `__init__` is inherited. -/
def F14_IgnoreDisk.init : Ns := RHEL6_IgnoreDisk.init
/-- `commands/ignoredisk.py:146-147` -/
def F14_IgnoreDisk.info : Info := { op := RHEL6_IgnoreDisk.op }
/-- `commands/ignoredisk.py:146-147` -/
def F14_IgnoreDisk.cls : Command := plainCmd c!"F14_IgnoreDisk" (some 0) F14_IgnoreDisk.init (RHEL6_IgnoreDisk.parse F14_IgnoreDisk.info) (RHEL6_IgnoreDisk.strOut.render)

/-- `commands/ignoredisk.py:149-162`: `__init__` is inherited. -/
def F29_IgnoreDisk.init : Ns := F14_IgnoreDisk.init
/-- `commands/ignoredisk.py:156-162` `_getParser` -/
def F29_IgnoreDisk.op : OptParser :=
  RHEL6_IgnoreDisk.op
    |>.add { names := [c!"--interactive"], kind := .storeConst, nargs := .n 0, const := .bool true, default := some (.bool false), deprecated := true }
/-- `commands/ignoredisk.py:153-154` `parse` -/
def F29_IgnoreDisk.parse (k : Info) (args : List Str) : M Unit := do
  F8_IgnoreDisk.parse k args
/-- `commands/ignoredisk.py:149-162` -/
def F29_IgnoreDisk.info : Info := { op := F29_IgnoreDisk.op }
/-- `commands/ignoredisk.py:149-162` -/
def F29_IgnoreDisk.cls : Command := plainCmd c!"F29_IgnoreDisk" (some 0) F29_IgnoreDisk.init (F29_IgnoreDisk.parse F29_IgnoreDisk.info) (RHEL6_IgnoreDisk.strOut.render)

/-- `commands/ignoredisk.py:164-171`: `__init__` is inherited. -/
def F34_IgnoreDisk.init : Ns := F29_IgnoreDisk.init
/-- `commands/ignoredisk.py:168-171` `_getParser` -/
def F34_IgnoreDisk.op : OptParser :=
  F29_IgnoreDisk.op
    |>.remove c!"--interactive"
/-- `commands/ignoredisk.py:164-171` -/
def F34_IgnoreDisk.info : Info := { op := F34_IgnoreDisk.op }
/-- `commands/ignoredisk.py:164-171` -/
def F34_IgnoreDisk.cls : Command := plainCmd c!"F34_IgnoreDisk" (some 0) F34_IgnoreDisk.init (F29_IgnoreDisk.parse F34_IgnoreDisk.info) (RHEL6_IgnoreDisk.strOut.render)

end Ks.Cmd
