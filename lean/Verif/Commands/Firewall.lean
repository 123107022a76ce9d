import Verif.Commands.Base
/-!
# `/repo/pykickstart/commands/firewall.py`

Written by `scripts/gen_commands.py` from the text of that file; see there and
`Verif/Commands/Base.lean` for how a class is represented.
-/
namespace Ks.Cmd

/-- `commands/firewall.py:60-73`: the option written for a port. -/
def firewallFlag (port : Str) : Option Str :=
  if port = c!"ssh:tcp" then some c!" --ssh"
  else if port = c!"telnet:tcp" then some c!" --telnet"
  else if port = c!"smtp:tcp" then some c!" --smtp"
  else if port = c!"http:tcp" then some c!" --http"
  else if port = c!"ftp:tcp" then some c!" --ftp"
  else none

/-- `commands/firewall.py:28-34` `__init__` -/
def FC3_Firewall.init : Ns := [(c!"enabled", .none), (c!"ports", .list []), (c!"trusts", .list [])]
/-- `commands/firewall.py:83-141` `_getParser` -/
def FC3_Firewall.op : OptParser :=
  OptParser.empty
    |>.add { names := [c!"--disable", c!"--disabled"], dest := some c!"enabled", kind := .storeConst, nargs := .n 0, const := .bool false, default := some (.bool true) }
    |>.add { names := [c!"--enable", c!"--enabled"], dest := some c!"enabled", kind := .storeConst, nargs := .n 0, const := .bool true, default := some (.bool true) }
    |>.add { names := [c!"--ftp"], dest := some c!"ports", kind := .appendConst, nargs := .n 0, const := .str c!"21:tcp" }
    |>.add { names := [c!"--http"], dest := some c!"ports", kind := .extendConst, nargs := .n 0, const := .list [c!"80:tcp", c!"443:tcp"] }
    |>.add { names := [c!"--smtp"], dest := some c!"ports", kind := .appendConst, nargs := .n 0, const := .str c!"25:tcp" }
    |>.add { names := [c!"--ssh"], dest := some c!"ports", kind := .appendConst, nargs := .n 0, const := .str c!"22:tcp" }
    |>.add { names := [c!"--telnet"], dest := some c!"ports", kind := .appendConst, nargs := .n 0, const := .str c!"23:tcp" }
    |>.add { names := [c!"--high"], deprecated := true }
    |>.add { names := [c!"--medium"], deprecated := true }
    |>.add { names := [c!"--port"], dest := some c!"ports", kind := .extend, ty := .port }
    |>.add { names := [c!"--trust"], dest := some c!"trusts", kind := .append }
/-- `commands/firewall.py:36-81` `__str__` -/
def FC3_Firewall.strText (self : Ns) : Str :=
  if (self.getD c!"enabled").pyEq .none then []
  else if (self.getD c!"enabled").truthy then
    let ports := (self.getD c!"ports").items
    let extrastr := (ports.map fun p => (firewallFlag p).getD []).flatten
    let portstr := joinWith c!"," (ports.filter fun p => (firewallFlag p).isNone)
    let portstr := if portstr.isEmpty then [] else c!" --port=" ++ portstr
    let truststr := joinWith c!"," (self.getD c!"trusts").items
    let truststr := if truststr.isEmpty then [] else c!" --trust=" ++ truststr
    c!"# Firewall configuration\nfirewall --enabled" ++ extrastr ++ portstr ++ truststr ++ c!"\n"
  else c!"# Firewall configuration\nfirewall --disabled\n"
/-- `commands/firewall.py:143-146` `parse` -/
def FC3_Firewall.parse (k : Info) (args : List Str) : M Unit := do
  let ns ← M.parseArgs k.op args
  M.setToSelf ns
/-- `commands/firewall.py:24-146` -/
def FC3_Firewall.info : Info := { op := FC3_Firewall.op }
/-- `commands/firewall.py:24-146` -/
def FC3_Firewall.cls : Command := plainCmd c!"FC3_Firewall" (some 0) FC3_Firewall.init (FC3_Firewall.parse FC3_Firewall.info) (FC3_Firewall.strText)

/-- `commands/firewall.py:148-156`: `__init__` is inherited. -/
def F9_Firewall.init : Ns := FC3_Firewall.init
/-- `commands/firewall.py:152-156` `_getParser` -/
def F9_Firewall.op : OptParser :=
  FC3_Firewall.op
    |>.remove c!"--high"
    |>.remove c!"--medium"
/-- `commands/firewall.py:148-156` -/
def F9_Firewall.info : Info := { op := F9_Firewall.op }
/-- `commands/firewall.py:148-156` -/
def F9_Firewall.cls : Command := plainCmd c!"F9_Firewall" (some 0) F9_Firewall.init (FC3_Firewall.parse F9_Firewall.info) (FC3_Firewall.strText)

/-- `commands/firewall.py:162-164` `__init__` -/
def F10_Firewall.init : Ns := Ns.updated F9_Firewall.init [(c!"services", .list [])]
/-- `commands/firewall.py:182-210` `_getParser` -/
def F10_Firewall.op : OptParser :=
  F9_Firewall.op
    |>.add { names := [c!"--service"], dest := some c!"services", kind := .extend, ty := .comma }
    |>.add { names := [c!"--ftp"], dest := some c!"services", kind := .appendConst, nargs := .n 0, const := .str c!"ftp" }
    |>.add { names := [c!"--http"], dest := some c!"services", kind := .appendConst, nargs := .n 0, const := .str c!"http" }
    |>.add { names := [c!"--smtp"], dest := some c!"services", kind := .appendConst, nargs := .n 0, const := .str c!"smtp" }
    |>.add { names := [c!"--ssh"], dest := some c!"services", kind := .appendConst, nargs := .n 0, const := .str c!"ssh" }
    |>.add { names := [c!"--telnet"], deprecated := true }
/-- `commands/firewall.py:166-180` `__str__` -/
def F10_Firewall.strText (self : Ns) : Str :=
  if (self.getD c!"enabled").pyEq .none then []
  else if (self.getD c!"enabled").truthy then
    let retval := strip (FC3_Firewall.strText self)
    let svcstr := joinWith c!"," (self.getD c!"services").items
    let svcstr := if svcstr.isEmpty then [] else c!" --service=" ++ svcstr
    retval ++ svcstr ++ c!"\n"
  else FC3_Firewall.strText self
/-- `commands/firewall.py:158-210` -/
def F10_Firewall.info : Info := { op := F10_Firewall.op }
/-- `commands/firewall.py:158-210` -/
def F10_Firewall.cls : Command := plainCmd c!"F10_Firewall" (some 0) F10_Firewall.init (FC3_Firewall.parse F10_Firewall.info) (F10_Firewall.strText)

/-- `commands/firewall.py:212-219`: `__init__` is inherited. -/
def F14_Firewall.init : Ns := F10_Firewall.init
/-- `commands/firewall.py:216-219` `_getParser` -/
def F14_Firewall.op : OptParser :=
  F10_Firewall.op
    |>.remove c!"--telnet"
/-- `commands/firewall.py:212-219` -/
def F14_Firewall.info : Info := { op := F14_Firewall.op }
/-- `commands/firewall.py:212-219` -/
def F14_Firewall.cls : Command := plainCmd c!"F14_Firewall" (some 0) F14_Firewall.init (FC3_Firewall.parse F14_Firewall.info) (F10_Firewall.strText)

/-- `commands/firewall.py:222-224` `__init__` -/
def F20_Firewall.init : Ns := Ns.updated F14_Firewall.init [(c!"remove_services", .list [])]
/-- `commands/firewall.py:226-231` `_getParser` -/
def F20_Firewall.op : OptParser :=
  F14_Firewall.op
    |>.add { names := [c!"--remove-service"], dest := some c!"remove_services", kind := .extend, ty := .comma }
/-- `commands/firewall.py:233-247` `__str__` -/
def F20_Firewall.strText (self : Ns) : Str :=
  if (self.getD c!"enabled").pyEq .none then []
  else if (self.getD c!"enabled").truthy then
    let retval := strip (F10_Firewall.strText self)
    let svcstr := joinWith c!"," (self.getD c!"remove_services").items
    let svcstr := if svcstr.isEmpty then [] else c!" --remove-service=" ++ svcstr
    retval ++ svcstr ++ c!"\n"
  else F10_Firewall.strText self
/-- `commands/firewall.py:221-247` -/
def F20_Firewall.info : Info := { op := F20_Firewall.op }
/-- `commands/firewall.py:221-247` -/
def F20_Firewall.cls : Command := plainCmd c!"F20_Firewall" (some 0) F20_Firewall.init (FC3_Firewall.parse F20_Firewall.info) (F20_Firewall.strText)

/-- `commands/firewall.py:250-252` `__init__` -/
def F28_Firewall.init : Ns := Ns.updated F20_Firewall.init [(c!"use_system_defaults", .none)]
/-- `commands/firewall.py:254-263` `_getParser` -/
def F28_Firewall.op : OptParser :=
  F20_Firewall.op
    |>.add { names := [c!"--use-system-defaults"], dest := some c!"use_system_defaults", kind := .storeConst, nargs := .n 0, const := .bool true, default := some (.bool false) }
/-- `commands/firewall.py:265-269` `__str__` -/
def F28_Firewall.strText (self : Ns) : Str :=
  if (Cond.tru c!"use_system_defaults").eval self then
    c!"# Firewall configuration\nfirewall --use-system-defaults\n"
  else
    F20_Firewall.strText self
/-- `commands/firewall.py:249-269` -/
def F28_Firewall.info : Info := { op := F28_Firewall.op }
/-- `commands/firewall.py:249-269` -/
def F28_Firewall.cls : Command := plainCmd c!"F28_Firewall" (some 0) F28_Firewall.init (FC3_Firewall.parse F28_Firewall.info) (F28_Firewall.strText)

end Ks.Cmd
