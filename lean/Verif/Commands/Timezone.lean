import Verif.Commands.Base
/-!
# `/repo/pykickstart/commands/timezone.py`

Written by `scripts/gen_commands.py` from the text of that file; see there and
`Verif/Commands/Base.lean` for how a class is represented.
-/
namespace Ks.Cmd

/-- `commands/timezone.py:32-37` `__init__` -/
def FC3_Timezone.init : Ns := [(c!"isUtc", .bool false), (c!"timezone", .str [])]
/-- `commands/timezone.py:52-71` `_getParser` -/
def FC3_Timezone.op : OptParser :=
  OptParser.empty
    |>.add { names := [c!"--utc"], dest := some c!"isUtc", kind := .storeConst, nargs := .n 0, const := .bool true, default := some (.bool false) }
    |>.add { names := [c!"timezone"], nargs := .n 1 }
/-- `commands/timezone.py:39-50` `__str__` -/
def FC3_Timezone.strOut : Out :=
  [(.tru c!"timezone", [.lit c!"# System timezone\ntimezone "]),
    (.and (.tru c!"timezone") (.and (.not (.and (.tru c!"timezone") (.not (.tru c!"isUtc")))) (.and (.tru c!"timezone") (.tru c!"isUtc"))), [.lit c!"--utc"]),
    (.tru c!"timezone", [.lit c!" ", .fld c!"timezone", .lit c!"\n"])]
/-- `commands/timezone.py:75-85` `parse` -/
def FC3_Timezone.parse (k : Info) (args : List Str) : M Unit := do
  let r ← M.parseKnown k.op args
  let ns := r.1
  let extra := r.2
  M.setToSelf ns
  M.assert (decide ((ns.getD c!"timezone").len = 1))
  M.failIf (!extra.isEmpty) c!"Unexpected arguments to %(command)s command: %(options)s"
  let x1 ← M.lift ((ns.getD c!"timezone").index 0)
  M.set c!"timezone" (x1)
/-- `commands/timezone.py:28-85` -/
def FC3_Timezone.info : Info := { op := FC3_Timezone.op }
/-- `commands/timezone.py:28-85` -/
def FC3_Timezone.cls : Command := plainCmd c!"FC3_Timezone" (some 0) FC3_Timezone.init (FC3_Timezone.parse FC3_Timezone.info) (FC3_Timezone.strOut.render)

/-- `commands/timezone.py:87-109`: `__init__` is inherited. -/
def FC6_Timezone.init : Ns := FC3_Timezone.init
/-- `commands/timezone.py:104-109` `_getParser` -/
def FC6_Timezone.op : OptParser :=
  FC3_Timezone.op
    |>.add { names := [c!"--utc", c!"--isUtc"], dest := some c!"isUtc", kind := .storeConst, nargs := .n 0, const := .bool true, default := some (.bool false) }
/-- `commands/timezone.py:91-102` `__str__` -/
def FC6_Timezone.strOut : Out :=
  [(.tru c!"timezone", [.lit c!"# System timezone\ntimezone "]),
    (.and (.tru c!"timezone") (.and (.not (.and (.tru c!"timezone") (.not (.tru c!"isUtc")))) (.and (.tru c!"timezone") (.tru c!"isUtc"))), [.lit c!"--isUtc"]),
    (.tru c!"timezone", [.lit c!" ", .fld c!"timezone", .lit c!"\n"])]
/-- `commands/timezone.py:87-109` -/
def FC6_Timezone.info : Info := { op := FC6_Timezone.op }
/-- `commands/timezone.py:87-109` -/
def FC6_Timezone.cls : Command := plainCmd c!"FC6_Timezone" (some 0) FC6_Timezone.init (FC3_Timezone.parse FC6_Timezone.info) (FC6_Timezone.strOut.render)

/-- `commands/timezone.py:112-116` `__init__` -/
def F18_Timezone.init : Ns := Ns.updated FC6_Timezone.init [(c!"nontp", .bool false), (c!"ntpservers", .list [])]
/-- `commands/timezone.py:141-160` `_getParser` -/
def F18_Timezone.op : OptParser :=
  FC6_Timezone.op
    |>.add { names := [c!"--nontp"], kind := .storeConst, nargs := .n 0, const := .bool true, default := some (.bool false) }
    |>.add { names := [c!"--ntpservers"], dest := some c!"ntpservers", ty := .comma }
/-- `commands/timezone.py:127-139` `_getArgsAsStr` -/
def F18_Timezone.args : Out :=
  [(.tt, [.fld c!"timezone"]),
    (.tru c!"isUtc", [.lit c!" --isUtc"]),
    (.tru c!"nontp", [.lit c!" --nontp"]),
    (.tru c!"ntpservers", [.lit c!" --ntpservers=", .join c!"," c!"ntpservers"])]
/-- `commands/timezone.py:118-125` `__str__` -/
def F18_Timezone.strOut (args : Out) : Out :=
  [(.tru c!"timezone", [.lit c!"# System timezone\ntimezone "])] ++
    Out.guard (.tru c!"timezone") args ++
    [(.tru c!"timezone", [.lit c!"\n"])]
/-- `commands/timezone.py:164-174` `parse` -/
def F18_Timezone.parse (k : Info) (args : List Str) : M Unit := do
  FC3_Timezone.parse k args
  let self ← M.self
  M.set c!"ntpservers" (Val.list (dedup (self.getD c!"ntpservers").items))
  let self ← M.self
  M.failIf ((self.getD c!"ntpservers").truthy && (self.getD c!"nontp").truthy) c!"Options --nontp and --ntpservers are mutually exclusive"
/-- `commands/timezone.py:111-174` -/
def F18_Timezone.info : Info := { op := F18_Timezone.op }
/-- `commands/timezone.py:111-174` -/
def F18_Timezone.cls : Command := plainCmd c!"F18_Timezone" (some 0) F18_Timezone.init (F18_Timezone.parse F18_Timezone.info) ((F18_Timezone.strOut F18_Timezone.args).render)

/-- `commands/timezone.py:177-179` `__init__` -/
def F23_Timezone.init : Ns := F18_Timezone.init
/-- `commands/timezone.py:183-190` `parse` -/
def F23_Timezone.parse (k : Info) (args : List Str) : M Unit := do
  FC3_Timezone.parse k args
  let self ← M.self
  M.failIf ((self.getD c!"ntpservers").truthy && (self.getD c!"nontp").truthy) c!"Options --nontp and --ntpservers are mutually exclusive"
/-- `commands/timezone.py:176-190` -/
def F23_Timezone.info : Info := { op := F18_Timezone.op }
/-- `commands/timezone.py:176-190` -/
def F23_Timezone.cls : Command := plainCmd c!"F23_Timezone" (some 0) F23_Timezone.init (F23_Timezone.parse F23_Timezone.info) ((F18_Timezone.strOut F18_Timezone.args).render)

/-- `commands/timezone.py:215-217` `__init__` -/
def RHEL7_Timezone.init : Ns := F18_Timezone.init
/-- `commands/timezone.py:219-258` `_getParser` -/
def RHEL7_Timezone.op : OptParser :=
  OptParser.empty
    |>.add { names := [c!"timezone"], nargs := .star }
    |>.add { names := [c!"--utc", c!"--isUtc"], dest := some c!"isUtc", kind := .storeConst, nargs := .n 0, const := .bool true, default := some (.bool false) }
    |>.add { names := [c!"--nontp"], kind := .storeConst, nargs := .n 0, const := .bool true, default := some (.bool false) }
    |>.add { names := [c!"--ntpservers"], dest := some c!"ntpservers", ty := .comma }
/-- `commands/timezone.py:260-287` `parse` -/
def RHEL7_Timezone.parse (k : Info) (args : List Str) : M Unit := do
  let ns ← M.parseArgs k.op args
  M.setToSelf ns
  M.failIf (!(!args.isEmpty)) c!"At least one option and/or an argument are expected for the %s command"
  if decide ((ns.getD c!"timezone").len = 1) then do
    let x1 ← M.lift ((ns.getD c!"timezone").index 0)
    M.set c!"timezone" (x1)
  else do
    M.failIf (decide ((ns.getD c!"timezone").len > 1)) c!"One or zero arguments are expected for the %s command"
  let self ← M.self
  M.failIf ((self.getD c!"ntpservers").truthy && (self.getD c!"nontp").truthy) c!"Options --nontp and --ntpservers are mutually exclusive"
/-- `commands/timezone.py:214-287` -/
def RHEL7_Timezone.info : Info := { op := RHEL7_Timezone.op }
/-- `commands/timezone.py:214-287` -/
def RHEL7_Timezone.cls : Command := plainCmd c!"RHEL7_Timezone" (some 0) RHEL7_Timezone.init (RHEL7_Timezone.parse RHEL7_Timezone.info) ((F18_Timezone.strOut F18_Timezone.args).render)

/-- `commands/timezone.py:290-292` `__init__` -/
def F25_Timezone.init : Ns := F23_Timezone.init
/-- `commands/timezone.py:320-359` `_getParser` -/
def F25_Timezone.op : OptParser :=
  OptParser.empty
    |>.add { names := [c!"timezone"], nargs := .star }
    |>.add { names := [c!"--utc", c!"--isUtc"], dest := some c!"isUtc", kind := .storeConst, nargs := .n 0, const := .bool true, default := some (.bool false) }
    |>.add { names := [c!"--nontp"], kind := .storeConst, nargs := .n 0, const := .bool true, default := some (.bool false) }
    |>.add { names := [c!"--ntpservers"], dest := some c!"ntpservers", ty := .comma }
/-- `commands/timezone.py:303-318` `_getArgsAsStr` -/
def F25_Timezone.args : Out :=
  [(.tru c!"timezone", [.lit c!" ", .fld c!"timezone"]),
    (.tru c!"isUtc", [.lit c!" --isUtc"]),
    (.tru c!"nontp", [.lit c!" --nontp"]),
    (.tru c!"ntpservers", [.lit c!" --ntpservers=", .join c!"," c!"ntpservers"])]
/-- `commands/timezone.py:294-301` `__str__` -/
def F25_Timezone.strOut (args : Out) : Out :=
  [(Out.anyCond args, [.lit c!"# System timezone\ntimezone"])] ++
    Out.guard (Out.anyCond args) args ++
    [(Out.anyCond args, [.lit c!"\n"])]
/-- `commands/timezone.py:361-388` `parse` -/
def F25_Timezone.parse (k : Info) (args : List Str) : M Unit := do
  let ns ← M.parseArgs k.op args
  M.setToSelf ns
  M.failIf (!(!args.isEmpty)) c!"At least one option and/or an argument are expected for the %s command"
  if decide ((ns.getD c!"timezone").len = 1) then do
    let x1 ← M.lift ((ns.getD c!"timezone").index 0)
    M.set c!"timezone" (x1)
  else do
    M.failIf (decide ((ns.getD c!"timezone").len > 1)) c!"One or zero arguments are expected for the %s command"
  let self ← M.self
  M.failIf ((self.getD c!"ntpservers").truthy && (self.getD c!"nontp").truthy) c!"Options --nontp and --ntpservers are mutually exclusive"
/-- `commands/timezone.py:289-388` -/
def F25_Timezone.info : Info := { op := F25_Timezone.op }
/-- `commands/timezone.py:289-388` -/
def F25_Timezone.cls : Command := plainCmd c!"F25_Timezone" (some 0) F25_Timezone.init (F25_Timezone.parse F25_Timezone.info) ((F25_Timezone.strOut F25_Timezone.args).render)

/-- `commands/timezone.py:392-394` `__init__` -/
def F32_Timezone.init : Ns := F25_Timezone.init
/-- `commands/timezone.py:396-411` `_getArgsAsStr` -/
def F32_Timezone.args : Out :=
  [(.tru c!"timezone", [.lit c!" ", .fld c!"timezone"]),
    (.tru c!"isUtc", [.lit c!" --utc"]),
    (.tru c!"nontp", [.lit c!" --nontp"]),
    (.tru c!"ntpservers", [.lit c!" --ntpservers=", .join c!"," c!"ntpservers"])]
/-- `commands/timezone.py:413-422` `parse` -/
def F32_Timezone.parse (k : Info) (args : List Str) : M Unit := do
  F25_Timezone.parse k args
  M.when (args.contains c!"--isUtc") (do
    M.warn (.deprecation c!"The option --isUtc will be deprecated in future releases. Please modify your kickstart file to replace this option with its preferred alias --utc."))
  return ()
/-- `commands/timezone.py:390-422` -/
def F32_Timezone.info : Info := { op := F25_Timezone.op }
/-- `commands/timezone.py:390-422` -/
def F32_Timezone.cls : Command := plainCmd c!"F32_Timezone" (some 0) F32_Timezone.init (F32_Timezone.parse F32_Timezone.info) ((F25_Timezone.strOut F32_Timezone.args).render)

/-- `commands/timezone.py:427-429` `__init__` -/
def F33_Timezone.init : Ns := F32_Timezone.init
/-- `commands/timezone.py:431-445` `parse` -/
def F33_Timezone.parse (k : Info) (args : List Str) : M Unit := do
  F32_Timezone.parse k args
  let self ← M.self
  M.when ((self.getD c!"ntpservers").truthy) (do
    M.warn (.deprecation c!"The option --ntpservers will be deprecated in future releases. Please modify your kickstart file to replace this option with timesource --ntp-server <server hostname> command invocation, one per NTP server."))
  M.when ((self.getD c!"nontp").truthy) (do
    M.warn (.deprecation c!"The option --nontp will be deprecated in future releases. Please modify your kickstart file to replace this option with timesource --ntp-disable command invocation."))
  return ()
/-- `commands/timezone.py:425-445` -/
def F33_Timezone.info : Info := { op := F25_Timezone.op }
/-- `commands/timezone.py:425-445` -/
def F33_Timezone.cls : Command := plainCmd c!"F33_Timezone" (some 0) F33_Timezone.init (F33_Timezone.parse F33_Timezone.info) ((F25_Timezone.strOut F32_Timezone.args).render)

end Ks.Cmd
