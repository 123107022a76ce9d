import Verif.Commands.Base
/-!
# `/repo/pykickstart/commands/autopart.py`

Written by `scripts/gen_commands.py` from the text of that file; see there and
`Verif/Commands/Base.lean` for how a class is represented.
-/
namespace Ks.Cmd

/-- `commands/autopart.py:33-35` `__init__` -/
def FC3_AutoPart.init : Ns := [(c!"autopart", .bool false)]
/-- `commands/autopart.py:52-61` `_getParser` -/
def FC3_AutoPart.op : OptParser := OptParser.empty
/-- `commands/autopart.py:37-43` `__str__` -/
def FC3_AutoPart.strOut : Out :=
  [(.tru c!"autopart", [.lit c!"autopart\n"])]
/-- `commands/autopart.py:45-50` `parse` -/
def FC3_AutoPart.parse (_k : Info) (args : List Str) : M Unit := do
  M.failIf (decide (args.length > 0)) c!"Kickstart command %s does not take any arguments"
  M.set c!"autopart" (Val.bool true)
/-- `commands/autopart.py:29-61` -/
def FC3_AutoPart.info : Info := { op := FC3_AutoPart.op }
/-- `commands/autopart.py:29-61` -/
def FC3_AutoPart.cls : Command := plainCmd c!"FC3_AutoPart" (some 100) FC3_AutoPart.init (FC3_AutoPart.parse FC3_AutoPart.info) (FC3_AutoPart.strOut.render)

/-- `commands/autopart.py:67-72` `__init__` -/
def F9_AutoPart.init : Ns := Ns.updated FC3_AutoPart.init [(c!"encrypted", .bool false), (c!"passphrase", .str [])]
/-- `commands/autopart.py:91-102` `_getParser` -/
def F9_AutoPart.op : OptParser :=
  FC3_AutoPart.op
    |>.add { names := [c!"--encrypted"], kind := .storeConst, nargs := .n 0, const := .bool true, default := some (.bool false) }
    |>.add { names := [c!"--passphrase"] }
/-- `commands/autopart.py:74-89` `__str__` -/
def F9_AutoPart.strOut : Out :=
  [(.tru c!"autopart", [.lit c!"autopart"]),
    (.and (.tru c!"autopart") (.tru c!"encrypted"), [.lit c!" --encrypted"]),
    (.and (.tru c!"autopart") (.and (.tru c!"encrypted") (.tru c!"passphrase")), [.lit c!" --passphrase=\"", .fld c!"passphrase", .lit c!"\""]),
    (.tru c!"autopart", [.lit c!"\n"])]
/-- `commands/autopart.py:104-108` `parse` -/
def F9_AutoPart.parse (k : Info) (args : List Str) : M Unit := do
  let ns ← M.parseArgs k.op args
  M.setToSelf ns
  M.set c!"autopart" (Val.bool true)
/-- `commands/autopart.py:63-108` -/
def F9_AutoPart.info : Info := { op := F9_AutoPart.op }
/-- `commands/autopart.py:63-108` -/
def F9_AutoPart.cls : Command := plainCmd c!"F9_AutoPart" (some 100) F9_AutoPart.init (F9_AutoPart.parse F9_AutoPart.info) (F9_AutoPart.strOut.render)

/-- `commands/autopart.py:114-118` `__init__` -/
def F12_AutoPart.init : Ns := Ns.updated F9_AutoPart.init [(c!"escrowcert", .str []), (c!"backuppassphrase", .bool false)]
/-- `commands/autopart.py:138-155` `_getParser` -/
def F12_AutoPart.op : OptParser :=
  F9_AutoPart.op
    |>.add { names := [c!"--escrowcert"] }
    |>.add { names := [c!"--backuppassphrase"], kind := .storeConst, nargs := .n 0, const := .bool true, default := some (.bool false) }
/-- `commands/autopart.py:120-136` `__str__` -/
def F12_AutoPart.strText (self : Ns) : Str :=
  let retval := (F9_AutoPart.strOut).render self
  if (Cond.not (.tru c!"autopart")).eval self then
    retval
  else
    let retval :=
      if (Cond.tru c!"encrypted").eval self && (Cond.tru c!"escrowcert").eval self then
        let retval := strip retval
        let retval := retval ++ c!" --escrowcert=\"" ++ (self.getD c!"escrowcert").fmt ++ c!"\""
        let retval :=
          if (Cond.tru c!"backuppassphrase").eval self then
            let retval := retval ++ c!" --backuppassphrase"
            retval
          else retval
        let retval := retval ++ c!"\n"
        retval
      else retval
    retval
/-- `commands/autopart.py:110-155` -/
def F12_AutoPart.info : Info := { op := F12_AutoPart.op }
/-- `commands/autopart.py:110-155` -/
def F12_AutoPart.cls : Command := plainCmd c!"F12_AutoPart" (some 100) F12_AutoPart.init (F9_AutoPart.parse F12_AutoPart.info) (F12_AutoPart.strText)

/-- `commands/autopart.py:161-163` `__init__` -/
def RHEL6_AutoPart.init : Ns := Ns.updated F12_AutoPart.init [(c!"cipher", .str [])]
/-- `commands/autopart.py:178-184` `_getParser` -/
def RHEL6_AutoPart.op : OptParser :=
  F12_AutoPart.op
    |>.add { names := [c!"--cipher"] }
/-- `commands/autopart.py:165-176` `__str__` -/
def RHEL6_AutoPart.strText (self : Ns) : Str :=
  let retval := F12_AutoPart.strText self
  if (Cond.not (.tru c!"autopart")).eval self then
    retval
  else
    let retval :=
      if (Cond.tru c!"encrypted").eval self && (Cond.tru c!"cipher").eval self then
        let retval := strip retval
        let retval := retval ++ c!" --cipher=\"" ++ (self.getD c!"cipher").fmt ++ c!"\""
        let retval := retval ++ c!"\n"
        retval
      else retval
    retval
/-- `commands/autopart.py:186-214` `parse` -/
def RHEL6_AutoPart.parse (k : Info) (args : List Str) : M Unit := do
  F9_AutoPart.parse k args
  let conflicting_command : Str := []
  let conflicting_command ← M.cond (M.seenCmd c!"partition") (pure c!"part/partition") (M.cond (M.seenCmd c!"raid") (pure c!"raid") (M.cond (M.seenCmd c!"volgroup") (pure c!"volgroup") (M.cond (M.seenCmd c!"logvol") (pure c!"logvol") (pure conflicting_command))))
  M.failIf (!(conflicting_command).isEmpty) c!"The %s and autopart commands can't be used at the same time"
/-- `commands/autopart.py:157-214` -/
def RHEL6_AutoPart.info : Info := { op := RHEL6_AutoPart.op }
/-- `commands/autopart.py:157-214` -/
def RHEL6_AutoPart.cls : Command := plainCmd c!"RHEL6_AutoPart" (some 100) RHEL6_AutoPart.init (RHEL6_AutoPart.parse RHEL6_AutoPart.info) (RHEL6_AutoPart.strText)

/-- `commands/autopart.py:221-223` `__init__` -/
def F16_AutoPart.init : Ns := Ns.updated F12_AutoPart.init [(c!"lvm", .bool true)]
/-- `commands/autopart.py:239-244` `_getParser` -/
def F16_AutoPart.op : OptParser :=
  F12_AutoPart.op
    |>.add { names := [c!"--nolvm"], dest := some c!"lvm", kind := .storeConst, nargs := .n 0, const := .bool false, default := some (.bool true) }
/-- `commands/autopart.py:225-237` `__str__` -/
def F16_AutoPart.strText (self : Ns) : Str :=
  let retval := F12_AutoPart.strText self
  if (Cond.not (.tru c!"autopart")).eval self then
    retval
  else
    let retval :=
      if (Cond.not (.tru c!"lvm")).eval self then
        let retval := strip retval
        let retval := retval ++ c!" --nolvm"
        let retval := retval ++ c!"\n"
        retval
      else retval
    retval
/-- `commands/autopart.py:217-244` -/
def F16_AutoPart.info : Info := { op := F16_AutoPart.op }
/-- `commands/autopart.py:217-244` -/
def F16_AutoPart.cls : Command := plainCmd c!"F16_AutoPart" (some 100) F16_AutoPart.init (F9_AutoPart.parse F16_AutoPart.info) (F16_AutoPart.strText)

/-- `commands/autopart.py:247-253` `__init__` -/
def F17_AutoPart.init : Ns := Ns.updated F16_AutoPart.init [(c!"type", .none)]
/-- `commands/autopart.py:287-296` `_getParser` -/
def F17_AutoPart.opWith (typeMap : List (Str × Val)) : OptParser :=
  F16_AutoPart.op
    |>.add { names := [c!"--nolvm"], dest := some c!"type", kind := .storeConst, nargs := .n 0, const := .int 0 }
    |>.add { names := [c!"--type"], ty := .table false typeMap }
/-- `commands/autopart.py:268-279` `__str__` -/
def F17_AutoPart.strText (typeMap : List (Str × Val)) (self : Ns) : Str :=
  let retval := F16_AutoPart.strText self
  if (Cond.not (.tru c!"autopart")).eval self then
    retval
  else
    let ty := typeAsStr typeMap (self.getD c!"type")
    let retval :=
      if ty.isSome then
        let retval := strip retval
        let retval := retval ++ c!" --type=" ++ ty.getD [] ++ c!"\n"
        retval
      else retval
    retval
/-- `commands/autopart.py:298-304` `parse` -/
def F17_AutoPart.parse (k : Info) (args : List Str) : M Unit := do
  F9_AutoPart.parse k args
  M.set c!"lvm" (Val.bool true)
/-- `commands/autopart.py:246-304` -/
def F17_AutoPart.info : Info := { op := F17_AutoPart.opWith [(c!"lvm", .int 2), (c!"btrfs", .int 1), (c!"plain", .int 0), (c!"partition", .int 0)], typeMap := [(c!"lvm", .int 2), (c!"btrfs", .int 1), (c!"plain", .int 0), (c!"partition", .int 0)] }
/-- `commands/autopart.py:246-304` -/
def F17_AutoPart.cls : Command := plainCmd c!"F17_AutoPart" (some 100) F17_AutoPart.init (F17_AutoPart.parse F17_AutoPart.info) (F17_AutoPart.strText [(c!"lvm", .int 2), (c!"btrfs", .int 1), (c!"plain", .int 0), (c!"partition", .int 0)])

/-- `commands/autopart.py:310-312` `__init__` -/
def F18_AutoPart.init : Ns := Ns.updated F17_AutoPart.init [(c!"cipher", .str [])]
/-- `commands/autopart.py:327-333` `_getParser` -/
def F18_AutoPart.opWith (typeMap : List (Str × Val)) : OptParser :=
  (F17_AutoPart.opWith typeMap)
    |>.add { names := [c!"--cipher"] }
/-- `commands/autopart.py:314-325` `__str__` -/
def F18_AutoPart.strText (typeMap : List (Str × Val)) (self : Ns) : Str :=
  let retval := F17_AutoPart.strText typeMap self
  if (Cond.not (.tru c!"autopart")).eval self then
    retval
  else
    let retval :=
      if (Cond.tru c!"encrypted").eval self && (Cond.tru c!"cipher").eval self then
        let retval := strip retval
        let retval := retval ++ c!" --cipher=\"" ++ (self.getD c!"cipher").fmt ++ c!"\""
        let retval := retval ++ c!"\n"
        retval
      else retval
    retval
/-- `commands/autopart.py:306-333` -/
def F18_AutoPart.info : Info := { op := F18_AutoPart.opWith [(c!"lvm", .int 2), (c!"btrfs", .int 1), (c!"plain", .int 0), (c!"partition", .int 0)], typeMap := [(c!"lvm", .int 2), (c!"btrfs", .int 1), (c!"plain", .int 0), (c!"partition", .int 0)] }
/-- `commands/autopart.py:306-333` -/
def F18_AutoPart.cls : Command := plainCmd c!"F18_AutoPart" (some 100) F18_AutoPart.init (F17_AutoPart.parse F18_AutoPart.info) (F18_AutoPart.strText [(c!"lvm", .int 2), (c!"btrfs", .int 1), (c!"plain", .int 0), (c!"partition", .int 0)])

/-- `commands/autopart.py:336-338` `__init__` -/
def F20_AutoPart.init : Ns := F18_AutoPart.init
/-- `commands/autopart.py:372-382` `_getParser` -/
def F20_AutoPart.opWith (typeMap : List (Str × Val)) : OptParser := F18_AutoPart.opWith typeMap
/-- `commands/autopart.py:340-370` `parse` -/
def F20_AutoPart.parse (k : Info) (args : List Str) : M Unit := do
  F17_AutoPart.parse k args
  let conflicting_command : Str := []
  let conflicting_command ← M.cond (M.seenCmd c!"partition") (pure c!"part/partition") (M.cond (M.seenCmd c!"raid") (pure c!"raid") (M.cond (M.seenCmd c!"volgroup") (pure c!"volgroup") (M.cond (M.seenCmd c!"logvol") (pure c!"logvol") (M.cond (M.usedCmd c!"mount") (pure c!"mount") (pure conflicting_command)))))
  M.failIf (!(conflicting_command).isEmpty) c!"The %s and autopart commands can't be used at the same time"
/-- `commands/autopart.py:335-382` -/
def F20_AutoPart.info : Info := { op := F20_AutoPart.opWith [(c!"lvm", .int 2), (c!"btrfs", .int 1), (c!"plain", .int 0), (c!"partition", .int 0), (c!"thinp", .int 3)], typeMap := [(c!"lvm", .int 2), (c!"btrfs", .int 1), (c!"plain", .int 0), (c!"partition", .int 0), (c!"thinp", .int 3)] }
/-- `commands/autopart.py:335-382` -/
def F20_AutoPart.cls : Command := plainCmd c!"F20_AutoPart" (some 100) F20_AutoPart.init (F20_AutoPart.parse F20_AutoPart.info) (F18_AutoPart.strText [(c!"lvm", .int 2), (c!"btrfs", .int 1), (c!"plain", .int 0), (c!"partition", .int 0), (c!"thinp", .int 3)])

/-- `commands/autopart.py:388-390` `__init__` -/
def F21_AutoPart.init : Ns := Ns.updated F20_AutoPart.init [(c!"fstype", .str [])]
/-- `commands/autopart.py:405-412` `_getParser` -/
def F21_AutoPart.opWith (typeMap : List (Str × Val)) : OptParser :=
  (F20_AutoPart.opWith typeMap)
    |>.add { names := [c!"--fstype"] }
/-- `commands/autopart.py:392-403` `__str__` -/
def F21_AutoPart.strText (typeMap : List (Str × Val)) (self : Ns) : Str :=
  let retval := F18_AutoPart.strText typeMap self
  if (Cond.not (.tru c!"autopart")).eval self then
    retval
  else
    let retval :=
      if (Cond.tru c!"fstype").eval self then
        let retval := strip retval
        let retval := retval ++ c!" --fstype=" ++ (self.getD c!"fstype").fmt
        let retval := retval ++ c!"\n"
        retval
      else retval
    retval
/-- `commands/autopart.py:414-425` `parse` -/
def F21_AutoPart.parse (k : Info) (args : List Str) : M Unit := do
  F20_AutoPart.parse k args
  let self ← M.self
  M.failIf ((self.getD c!"fstype").pyEq (Val.str c!"btrfs")) c!"autopart --fstype=btrfs is not valid fstype, use --type=btrfs instead"
  M.failIf ((Val.ofOption (typeAsStr k.typeMap (self.getD c!"type"))).pyEq (Val.str c!"btrfs") && (self.getD c!"fstype").truthy) c!"autopart --fstype cannot be used with --type=btrfs"
/-- `commands/autopart.py:384-425` -/
def F21_AutoPart.info : Info := { op := F21_AutoPart.opWith [(c!"lvm", .int 2), (c!"btrfs", .int 1), (c!"plain", .int 0), (c!"partition", .int 0), (c!"thinp", .int 3)], typeMap := [(c!"lvm", .int 2), (c!"btrfs", .int 1), (c!"plain", .int 0), (c!"partition", .int 0), (c!"thinp", .int 3)] }
/-- `commands/autopart.py:384-425` -/
def F21_AutoPart.cls : Command := plainCmd c!"F21_AutoPart" (some 100) F21_AutoPart.init (F21_AutoPart.parse F21_AutoPart.info) (F21_AutoPart.strText [(c!"lvm", .int 2), (c!"btrfs", .int 1), (c!"plain", .int 0), (c!"partition", .int 0), (c!"thinp", .int 3)])

/-- `commands/autopart.py:427-441`: `__init__` is inherited. -/
def F23_AutoPart.init : Ns := F21_AutoPart.init
/-- `commands/autopart.py:428-441` `parse` -/
def F23_AutoPart.parse (k : Info) (args : List Str) : M Unit := do
  F21_AutoPart.parse k args
  let conflicting_command : Str := []
  let conflicting_command ← M.cond (M.usedCmd c!"reqpart") (pure c!"reqpart") (pure conflicting_command)
  M.failIf (!(conflicting_command).isEmpty) c!"The %s and autopart commands can't be used at the same time"
/-- `commands/autopart.py:427-441` -/
def F23_AutoPart.info : Info := { op := F21_AutoPart.opWith [(c!"lvm", .int 2), (c!"btrfs", .int 1), (c!"plain", .int 0), (c!"partition", .int 0), (c!"thinp", .int 3)], typeMap := [(c!"lvm", .int 2), (c!"btrfs", .int 1), (c!"plain", .int 0), (c!"partition", .int 0), (c!"thinp", .int 3)] }
/-- `commands/autopart.py:427-441` -/
def F23_AutoPart.cls : Command := plainCmd c!"F23_AutoPart" (some 100) F23_AutoPart.init (F23_AutoPart.parse F23_AutoPart.info) (F21_AutoPart.strText [(c!"lvm", .int 2), (c!"btrfs", .int 1), (c!"plain", .int 0), (c!"partition", .int 0), (c!"thinp", .int 3)])

/-- `commands/autopart.py:445-447` `__init__` -/
def RHEL7_AutoPart.init : Ns := Ns.updated F21_AutoPart.init [(c!"nohome", .bool false)]
/-- `commands/autopart.py:462-467` `_getParser` -/
def RHEL7_AutoPart.opWith (typeMap : List (Str × Val)) : OptParser :=
  (F21_AutoPart.opWith typeMap)
    |>.add { names := [c!"--nohome"], kind := .storeConst, nargs := .n 0, const := .bool true, default := some (.bool false) }
/-- `commands/autopart.py:449-460` `__str__` -/
def RHEL7_AutoPart.strText (typeMap : List (Str × Val)) (self : Ns) : Str :=
  let retval := F21_AutoPart.strText typeMap self
  if (Cond.not (.tru c!"autopart")).eval self then
    retval
  else
    let retval :=
      if (Cond.tru c!"nohome").eval self then
        let retval := strip retval
        let retval := retval ++ c!" --nohome"
        let retval := retval ++ c!"\n"
        retval
      else retval
    retval
/-- `commands/autopart.py:469-482` `parse` -/
def RHEL7_AutoPart.parse (k : Info) (args : List Str) : M Unit := do
  F21_AutoPart.parse k args
  let conflicting_command : Str := []
  let conflicting_command ← M.cond (M.usedCmd c!"reqpart") (pure c!"reqpart") (pure conflicting_command)
  M.failIf (!(conflicting_command).isEmpty) c!"The %s and autopart commands can't be used at the same time"
/-- `commands/autopart.py:443-482` -/
def RHEL7_AutoPart.info : Info := { op := RHEL7_AutoPart.opWith [(c!"lvm", .int 2), (c!"btrfs", .int 1), (c!"plain", .int 0), (c!"partition", .int 0), (c!"thinp", .int 3)], typeMap := [(c!"lvm", .int 2), (c!"btrfs", .int 1), (c!"plain", .int 0), (c!"partition", .int 0), (c!"thinp", .int 3)] }
/-- `commands/autopart.py:443-482` -/
def RHEL7_AutoPart.cls : Command := plainCmd c!"RHEL7_AutoPart" (some 100) RHEL7_AutoPart.init (RHEL7_AutoPart.parse RHEL7_AutoPart.info) (RHEL7_AutoPart.strText [(c!"lvm", .int 2), (c!"btrfs", .int 1), (c!"plain", .int 0), (c!"partition", .int 0), (c!"thinp", .int 3)])

/-- `commands/autopart.py:488-492` `__init__` -/
def F26_AutoPart.init : Ns := Ns.updated F23_AutoPart.init [(c!"nohome", .bool false), (c!"noboot", .bool false), (c!"noswap", .bool false)]
/-- `commands/autopart.py:519-530` `_getParser` -/
def F26_AutoPart.opWith (typeMap : List (Str × Val)) : OptParser :=
  (F21_AutoPart.opWith typeMap)
    |>.add { names := [c!"--nohome"], kind := .storeConst, nargs := .n 0, const := .bool true, default := some (.bool false) }
    |>.add { names := [c!"--noboot"], kind := .storeConst, nargs := .n 0, const := .bool true, default := some (.bool false) }
    |>.add { names := [c!"--noswap"], kind := .storeConst, nargs := .n 0, const := .bool true, default := some (.bool false) }
/-- `commands/autopart.py:494-517` `__str__` -/
def F26_AutoPart.strText (typeMap : List (Str × Val)) (self : Ns) : Str :=
  let retval := F21_AutoPart.strText typeMap self
  if (Cond.not (.tru c!"autopart")).eval self then
    retval
  else
    let retval :=
      if (Cond.tru c!"nohome").eval self then
        let retval := strip retval
        let retval := retval ++ c!" --nohome"
        let retval := retval ++ c!"\n"
        retval
      else retval
    let retval :=
      if (Cond.tru c!"noboot").eval self then
        let retval := strip retval
        let retval := retval ++ c!" --noboot"
        let retval := retval ++ c!"\n"
        retval
      else retval
    let retval :=
      if (Cond.tru c!"noswap").eval self then
        let retval := strip retval
        let retval := retval ++ c!" --noswap"
        let retval := retval ++ c!"\n"
        retval
      else retval
    retval
/-- `commands/autopart.py:484-530` -/
def F26_AutoPart.info : Info := { op := F26_AutoPart.opWith [(c!"lvm", .int 2), (c!"btrfs", .int 1), (c!"plain", .int 0), (c!"partition", .int 0), (c!"thinp", .int 3)], typeMap := [(c!"lvm", .int 2), (c!"btrfs", .int 1), (c!"plain", .int 0), (c!"partition", .int 0), (c!"thinp", .int 3)] }
/-- `commands/autopart.py:484-530` -/
def F26_AutoPart.cls : Command := plainCmd c!"F26_AutoPart" (some 100) F26_AutoPart.init (F23_AutoPart.parse F26_AutoPart.info) (F26_AutoPart.strText [(c!"lvm", .int 2), (c!"btrfs", .int 1), (c!"plain", .int 0), (c!"partition", .int 0), (c!"thinp", .int 3)])

/-- `commands/autopart.py:536-542` `__init__` -/
def F29_AutoPart.init : Ns := Ns.updated F26_AutoPart.init [(c!"luks_version", .str []), (c!"pbkdf", .str []), (c!"pbkdf_memory", .int 0), (c!"pbkdf_time", .int 0), (c!"pbkdf_iterations", .int 0)]
/-- `commands/autopart.py:576-609` `_getParser` -/
def F29_AutoPart.opWith (typeMap : List (Str × Val)) : OptParser :=
  (F26_AutoPart.opWith typeMap)
    |>.add { names := [c!"--luks-version"], dest := some c!"luks_version", default := some (.str []) }
    |>.add { names := [c!"--pbkdf"], default := some (.str []) }
    |>.add { names := [c!"--pbkdf-memory"], dest := some c!"pbkdf_memory", default := some (.int 0), ty := .int }
    |>.add { names := [c!"--pbkdf-time"], dest := some c!"pbkdf_time", default := some (.int 0), ty := .int }
    |>.add { names := [c!"--pbkdf-iterations"], dest := some c!"pbkdf_iterations", default := some (.int 0), ty := .int }
/-- `commands/autopart.py:544-574` `__str__` -/
def F29_AutoPart.strText (typeMap : List (Str × Val)) (self : Ns) : Str :=
  let retval := F26_AutoPart.strText typeMap self
  if (Cond.not (.tru c!"autopart")).eval self then
    retval
  else
    let retval :=
      if (Cond.tru c!"encrypted").eval self && (Cond.tru c!"luks_version").eval self then
        let retval := strip retval
        let retval := retval ++ c!" --luks-version=" ++ (self.getD c!"luks_version").fmt
        let retval := retval ++ c!"\n"
        retval
      else retval
    let retval :=
      if (Cond.tru c!"encrypted").eval self && (Cond.tru c!"pbkdf").eval self then
        let retval := strip retval
        let retval := retval ++ c!" --pbkdf=" ++ (self.getD c!"pbkdf").fmt
        let retval := retval ++ c!"\n"
        retval
      else retval
    let retval :=
      if (Cond.tru c!"encrypted").eval self && (Cond.tru c!"pbkdf_memory").eval self then
        let retval := strip retval
        let retval := retval ++ c!" --pbkdf-memory=" ++ (self.getD c!"pbkdf_memory").fmt
        let retval := retval ++ c!"\n"
        retval
      else retval
    let retval :=
      if (Cond.tru c!"encrypted").eval self && (Cond.tru c!"pbkdf_time").eval self then
        let retval := strip retval
        let retval := retval ++ c!" --pbkdf-time=" ++ (self.getD c!"pbkdf_time").fmt
        let retval := retval ++ c!"\n"
        retval
      else retval
    let retval :=
      if (Cond.tru c!"encrypted").eval self && (Cond.tru c!"pbkdf_iterations").eval self then
        let retval := strip retval
        let retval := retval ++ c!" --pbkdf-iterations=" ++ (self.getD c!"pbkdf_iterations").fmt
        let retval := retval ++ c!"\n"
        retval
      else retval
    retval
/-- `commands/autopart.py:611-618` `parse` -/
def F29_AutoPart.parse (k : Info) (args : List Str) : M Unit := do
  F23_AutoPart.parse k args
  let self ← M.self
  M.failIf ((self.getD c!"pbkdf_time").truthy && (self.getD c!"pbkdf_iterations").truthy) c!"Only one of --pbkdf-time and --pbkdf-iterations can be specified."
/-- `commands/autopart.py:532-618` -/
def F29_AutoPart.info : Info := { op := F29_AutoPart.opWith [(c!"lvm", .int 2), (c!"btrfs", .int 1), (c!"plain", .int 0), (c!"partition", .int 0), (c!"thinp", .int 3)], typeMap := [(c!"lvm", .int 2), (c!"btrfs", .int 1), (c!"plain", .int 0), (c!"partition", .int 0), (c!"thinp", .int 3)] }
/-- `commands/autopart.py:532-618` -/
def F29_AutoPart.cls : Command := plainCmd c!"F29_AutoPart" (some 100) F29_AutoPart.init (F29_AutoPart.parse F29_AutoPart.info) (F29_AutoPart.strText [(c!"lvm", .int 2), (c!"btrfs", .int 1), (c!"plain", .int 0), (c!"partition", .int 0), (c!"thinp", .int 3)])

/-- `commands/autopart.py:620-651`: `__init__` is inherited. -/
def RHEL8_AutoPart.init : Ns := F29_AutoPart.init
/-- `commands/autopart.py:635-651` `_getParser` -/
def RHEL8_AutoPart.opWith (typeMap : List (Str × Val)) : OptParser := F29_AutoPart.opWith typeMap
/-- `commands/autopart.py:624-633` `parse` -/
def RHEL8_AutoPart.parse (k : Info) (args : List Str) : M Unit := do
  F29_AutoPart.parse k args
  let self ← M.self
  M.failIf ((Val.ofOption (typeAsStr k.typeMap (self.getD c!"type"))).pyEq (Val.str c!"btrfs")) c!"autopart --type=btrfs is not supported"
/-- `commands/autopart.py:620-651` -/
def RHEL8_AutoPart.info : Info := { op := RHEL8_AutoPart.opWith [(c!"lvm", .int 2), (c!"btrfs", .int 1), (c!"plain", .int 0), (c!"partition", .int 0), (c!"thinp", .int 3)], typeMap := [(c!"lvm", .int 2), (c!"btrfs", .int 1), (c!"plain", .int 0), (c!"partition", .int 0), (c!"thinp", .int 3)] }
/-- `commands/autopart.py:620-651` -/
def RHEL8_AutoPart.cls : Command := plainCmd c!"RHEL8_AutoPart" (some 100) RHEL8_AutoPart.init (RHEL8_AutoPart.parse RHEL8_AutoPart.info) (F29_AutoPart.strText [(c!"lvm", .int 2), (c!"btrfs", .int 1), (c!"plain", .int 0), (c!"partition", .int 0), (c!"thinp", .int 3)])

end Ks.Cmd
