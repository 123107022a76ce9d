import Verif.Commands.Base
/-!
# `/repo/pykickstart/commands/rhsm.py`

Written by `scripts/gen_commands.py` from the text of that file; see there and
`Verif/Commands/Base.lean` for how a class is represented.
-/
namespace Ks.Cmd

/-- `commands/rhsm.py:30-39` `__init__` -/
def RHEL8_RHSM.init : Ns := [(c!"organization", .none), (c!"activation_keys", .none), (c!"connect_to_insights", .none), (c!"proxy", .none), (c!"server_hostname", .none), (c!"rhsm_baseurl", .none)]
/-- `commands/rhsm.py:68-102` `_getParser` -/
def RHEL8_RHSM.op : OptParser :=
  OptParser.empty
    |>.add { names := [c!"--organization"], required := true }
    |>.add { names := [c!"--activation-key"], dest := some c!"activation_keys", kind := .append, required := true }
    |>.add { names := [c!"--connect-to-insights"], kind := .storeConst, nargs := .n 0, const := .bool true, default := some (.bool false) }
    |>.add { names := [c!"--proxy"] }
    |>.add { names := [c!"--server-hostname"] }
    |>.add { names := [c!"--rhsm-baseurl"] }
/-- `commands/rhsm.py:42-66` `__str__` -/
def RHEL8_RHSM.strOut : Out :=
  [(.or (.tru c!"organization") (.or (.tru c!"activation_keys") (.or (.tru c!"proxy") (.or (.tru c!"server_hostname") (.tru c!"rhsm_baseurl")))), [.lit c!"# Red Hat Subscription Manager\nrhsm"]),
    (.and (.or (.tru c!"organization") (.or (.tru c!"activation_keys") (.or (.tru c!"proxy") (.or (.tru c!"server_hostname") (.tru c!"rhsm_baseurl"))))) (.tru c!"organization"), [.lit c!" --organization=\"", .fld c!"organization", .lit c!"\""]),
    (.or (.tru c!"organization") (.or (.tru c!"activation_keys") (.or (.tru c!"proxy") (.or (.tru c!"server_hostname") (.tru c!"rhsm_baseurl")))), [.each c!" --activation-key=\"" c!"activation_keys" c!"\""]),
    (.and (.or (.tru c!"organization") (.or (.tru c!"activation_keys") (.or (.tru c!"proxy") (.or (.tru c!"server_hostname") (.tru c!"rhsm_baseurl"))))) (.tru c!"connect_to_insights"), [.lit c!" --connect-to-insights"]),
    (.and (.or (.tru c!"organization") (.or (.tru c!"activation_keys") (.or (.tru c!"proxy") (.or (.tru c!"server_hostname") (.tru c!"rhsm_baseurl"))))) (.tru c!"proxy"), [.lit c!" --proxy=\"", .fld c!"proxy", .lit c!"\""]),
    (.and (.or (.tru c!"organization") (.or (.tru c!"activation_keys") (.or (.tru c!"proxy") (.or (.tru c!"server_hostname") (.tru c!"rhsm_baseurl"))))) (.tru c!"server_hostname"), [.lit c!" --server-hostname=\"", .fld c!"server_hostname", .lit c!"\""]),
    (.and (.or (.tru c!"organization") (.or (.tru c!"activation_keys") (.or (.tru c!"proxy") (.or (.tru c!"server_hostname") (.tru c!"rhsm_baseurl"))))) (.tru c!"rhsm_baseurl"), [.lit c!" --rhsm-baseurl=\"", .fld c!"rhsm_baseurl", .lit c!"\""]),
    (.or (.tru c!"organization") (.or (.tru c!"activation_keys") (.or (.tru c!"proxy") (.or (.tru c!"server_hostname") (.tru c!"rhsm_baseurl")))), [.lit c!"\n"])]
/-- `commands/rhsm.py:104-112` `parse` -/
def RHEL8_RHSM.parse (k : Info) (args : List Str) : M Unit := do
  let ns ← M.parseArgs k.op args
  M.failIf ((ns.getD c!"activation_keys").items.any (·.isEmpty)) c!"Empty string is not a valid activation key."
  M.setToSelf ns
/-- `commands/rhsm.py:26-112` -/
def RHEL8_RHSM.info : Info := { op := RHEL8_RHSM.op }
/-- `commands/rhsm.py:26-112` -/
def RHEL8_RHSM.cls : Command := plainCmd c!"RHEL8_RHSM" (some 0) RHEL8_RHSM.init (RHEL8_RHSM.parse RHEL8_RHSM.info) (RHEL8_RHSM.strOut.render)

end Ks.Cmd
