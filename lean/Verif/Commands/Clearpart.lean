import Verif.Commands.Base
/-!
# `/repo/pykickstart/commands/clearpart.py`

Written by `scripts/gen_commands.py` from the text of that file; see there and
`Verif/Commands/Base.lean` for how a class is represented.
-/
namespace Ks.Cmd

/-- `commands/clearpart.py:29-35` `__init__` -/
def FC3_ClearPart.init : Ns := [(c!"drives", .list []), (c!"initAll", .bool false), (c!"type", .none)]
/-- `commands/clearpart.py:65-96` `_getParser` -/
def FC3_ClearPart.op : OptParser :=
  OptParser.empty
    |>.add { names := [c!"--all"], dest := some c!"type", kind := .storeConst, nargs := .n 0, const := .int 1 }
    |>.add { names := [c!"--drives"], ty := .comma }
    |>.add { names := [c!"--initlabel"], dest := some c!"initAll", kind := .storeConst, nargs := .n 0, const := .bool true, default := some (.bool false) }
    |>.add { names := [c!"--linux"], dest := some c!"type", kind := .storeConst, nargs := .n 0, const := .int 0 }
    |>.add { names := [c!"--none"], dest := some c!"type", kind := .storeConst, nargs := .n 0, const := .int 2 }
/-- `commands/clearpart.py:37-63` `__str__` -/
def FC3_ClearPart.strOut : Out :=
  [(.not (.eq c!"type" .none), [.lit c!"# Partition clearing information\nclearpart"]),
    (.and (.not (.eq c!"type" .none)) (.and (.not (.and (.and (.not (.eq c!"type" (.int 2))) (.not (.eq c!"type" (.int 0)))) (.not (.eq c!"type" (.int 1))))) (.and (.not (.and (.and (.not (.eq c!"type" (.int 2))) (.not (.eq c!"type" (.int 0)))) (.eq c!"type" (.int 1)))) (.and (.not (.and (.not (.eq c!"type" (.int 2))) (.eq c!"type" (.int 0)))) (.eq c!"type" (.int 2))))), [.lit c!" --none"]),
    (.and (.not (.eq c!"type" .none)) (.and (.not (.and (.and (.not (.eq c!"type" (.int 2))) (.not (.eq c!"type" (.int 0)))) (.not (.eq c!"type" (.int 1))))) (.and (.not (.and (.and (.not (.eq c!"type" (.int 2))) (.not (.eq c!"type" (.int 0)))) (.eq c!"type" (.int 1)))) (.and (.not (.eq c!"type" (.int 2))) (.eq c!"type" (.int 0))))), [.lit c!" --linux"]),
    (.and (.not (.eq c!"type" .none)) (.and (.not (.and (.and (.not (.eq c!"type" (.int 2))) (.not (.eq c!"type" (.int 0)))) (.not (.eq c!"type" (.int 1))))) (.and (.and (.not (.eq c!"type" (.int 2))) (.not (.eq c!"type" (.int 0)))) (.eq c!"type" (.int 1)))), [.lit c!" --all"]),
    (.and (.not (.eq c!"type" .none)) (.tru c!"initAll"), [.lit c!" --initlabel"]),
    (.and (.not (.eq c!"type" .none)) (.tru c!"drives"), [.lit c!" --drives=", .join c!"," c!"drives"]),
    (.not (.eq c!"type" .none), [.lit c!"\n"])]
/-- `commands/clearpart.py:98-101` `parse` -/
def FC3_ClearPart.parse (k : Info) (args : List Str) : M Unit := do
  let ns ← M.parseArgs k.op args
  M.setToSelf ns
/-- `commands/clearpart.py:25-101` -/
def FC3_ClearPart.info : Info := { op := FC3_ClearPart.op }
/-- `commands/clearpart.py:25-101` -/
def FC3_ClearPart.cls : Command := plainCmd c!"FC3_ClearPart" (some 120) FC3_ClearPart.init (FC3_ClearPart.parse FC3_ClearPart.info) (FC3_ClearPart.strOut.render)

/-- `commands/clearpart.py:104-106` `__init__` -/
def F17_ClearPart.init : Ns := Ns.updated FC3_ClearPart.init [(c!"devices", .list [])]
/-- `commands/clearpart.py:116-125` `_getParser` -/
def F17_ClearPart.op : OptParser :=
  FC3_ClearPart.op
    |>.add { names := [c!"--list"], dest := some c!"devices", ty := .comma }
/-- `commands/clearpart.py:108-114` `__str__` -/
def F17_ClearPart.strText (self : Ns) : Str :=
  let s := (FC3_ClearPart.strOut).render self
  let s :=
    if !s.isEmpty && (Cond.tru c!"devices").eval self then
      let s := rstrip s
      let s := s ++ c!" --list=" ++ (Frag.join c!"," c!"devices").render self
      let s := s ++ c!"\n"
      s
    else s
  s
/-- `commands/clearpart.py:127-132` `parse` -/
def F17_ClearPart.parse (k : Info) (args : List Str) : M Unit := do
  FC3_ClearPart.parse k args
  let self ← M.self
  M.when ((self.getD c!"devices").truthy) (do
    M.set c!"type" (Val.int 3))
  return ()
/-- `commands/clearpart.py:103-132` -/
def F17_ClearPart.info : Info := { op := F17_ClearPart.op }
/-- `commands/clearpart.py:103-132` -/
def F17_ClearPart.cls : Command := plainCmd c!"F17_ClearPart" (some 120) F17_ClearPart.init (F17_ClearPart.parse F17_ClearPart.info) (F17_ClearPart.strText)

/-- `commands/clearpart.py:135-137` `__init__` -/
def F21_ClearPart.init : Ns := Ns.updated F17_ClearPart.init [(c!"disklabel", .str [])]
/-- `commands/clearpart.py:146-152` `_getParser` -/
def F21_ClearPart.op : OptParser :=
  F17_ClearPart.op
    |>.add { names := [c!"--disklabel"], default := some (.str []) }
/-- `commands/clearpart.py:139-144` `__str__` -/
def F21_ClearPart.strText (self : Ns) : Str :=
  let s := F17_ClearPart.strText self
  let s :=
    if !s.isEmpty && (Cond.tru c!"disklabel").eval self then
      let s := rstrip s
      let s := s ++ c!" --disklabel=" ++ (self.getD c!"disklabel").fmt ++ c!"\n"
      s
    else s
  s
/-- `commands/clearpart.py:134-152` -/
def F21_ClearPart.info : Info := { op := F21_ClearPart.op }
/-- `commands/clearpart.py:134-152` -/
def F21_ClearPart.cls : Command := plainCmd c!"F21_ClearPart" (some 120) F21_ClearPart.init (F17_ClearPart.parse F21_ClearPart.info) (F21_ClearPart.strText)

/-- `commands/clearpart.py:155-157` `__init__` -/
def F28_ClearPart.init : Ns := Ns.updated F21_ClearPart.init [(c!"cdl", .bool false)]
/-- `commands/clearpart.py:166-171` `_getParser` -/
def F28_ClearPart.op : OptParser :=
  F21_ClearPart.op
    |>.add { names := [c!"--cdl"], dest := some c!"cdl", kind := .storeConst, nargs := .n 0, const := .bool true, default := some (.bool false) }
/-- `commands/clearpart.py:159-164` `__str__` -/
def F28_ClearPart.strText (self : Ns) : Str :=
  let s := F21_ClearPart.strText self
  let s :=
    if !s.isEmpty && (Cond.tru c!"cdl").eval self then
      let s := rstrip s
      let s := s ++ c!" --cdl\n"
      s
    else s
  s
/-- `commands/clearpart.py:154-171` -/
def F28_ClearPart.info : Info := { op := F28_ClearPart.op }
/-- `commands/clearpart.py:154-171` -/
def F28_ClearPart.cls : Command := plainCmd c!"F28_ClearPart" (some 120) F28_ClearPart.init (F17_ClearPart.parse F28_ClearPart.info) (F28_ClearPart.strText)

/-- `commands/clearpart.py:173-174`: `__init__` is inherited. -/
def RHEL7_ClearPart.init : Ns := F28_ClearPart.init
/-- `commands/clearpart.py:173-174` -/
def RHEL7_ClearPart.info : Info := { op := F28_ClearPart.op }
/-- `commands/clearpart.py:173-174` -/
def RHEL7_ClearPart.cls : Command := plainCmd c!"RHEL7_ClearPart" (some 120) RHEL7_ClearPart.init (F17_ClearPart.parse RHEL7_ClearPart.info) (F28_ClearPart.strText)

end Ks.Cmd
