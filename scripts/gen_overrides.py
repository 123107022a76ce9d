"""Methods of the command classes written by hand (see gen_commands.py)."""

# parse methods
OVERRIDES = {
    'F22_Network': '''
let retval ← FC3_Network.parse k args
M.when ((retval.getD c!"bridgeopts").truthy) (do
  M.failIf (!(retval.getD c!"bridgeslaves").truthy) c!"Option --bridgeopts requires --bridgeslaves to be specified"
  M.failIf (((retval.getD c!"bridgeopts").split ',').items.any badBridgeOpt) c!"Bad format of --bridgeopts, expecting key=value options separated by ','")
return retval
''',
    'RHEL7_Network': '''
let retval ← FC3_Network.parse k args
match validateInterfaceName (retval.getD c!"interfacename").fmt with
| some msg => M.err msg
| none => pure ()
M.when ((retval.getD c!"bridgeopts").truthy) (do
  M.failIf (!(retval.getD c!"bridgeslaves").truthy) c!"Option --bridgeopts requires --bridgeslaves to be specified"
  M.failIf (((retval.getD c!"bridgeopts").split ',').items.any badBridgeOpt) c!"Bad format of --bridgeopts, expecting key=value options separated by ','")
M.when ((retval.getD c!"bindto").pyEq (Val.str c!"mac")) (do
  M.failIf ((retval.getD c!"vlanid").truthy && !((retval.getD c!"bondopts").truthy)) c!"--bindto=%s is not supported for this type of device")
return retval
''',
    'RHEL8_RHSM': '''
let ns ← M.parseArgs k.op args
M.failIf ((ns.getD c!"activation_keys").items.any (·.isEmpty)) c!"Empty string is not a valid activation key."
M.setToSelf ns
''',
}

# __str__ methods, as functions of the attributes
TEXT_OVERRIDES = {
    'FC3_Firewall': '''
if (self.getD c!"enabled").pyEq .none then []
  else if (self.getD c!"enabled").truthy then
    let ports := (self.getD c!"ports").items
    let extrastr := (ports.map fun p => (firewallFlag p).getD []).flatten
    let portstr := joinWith c!"," (ports.filter fun p => (firewallFlag p).isNone)
    let portstr := if portstr.isEmpty then [] else c!" --port=" ++ portstr
    let truststr := joinWith c!"," (self.getD c!"trusts").items
    let truststr := if truststr.isEmpty then [] else c!" --trust=" ++ truststr
    c!"# Firewall configuration\\nfirewall --enabled" ++ extrastr ++ portstr ++ truststr ++ c!"\\n"
  else c!"# Firewall configuration\\nfirewall --disabled\\n"
''',
    'F10_Firewall': '''
if (self.getD c!"enabled").pyEq .none then []
  else if (self.getD c!"enabled").truthy then
    let retval := strip (FC3_Firewall.strText self)
    let svcstr := joinWith c!"," (self.getD c!"services").items
    let svcstr := if svcstr.isEmpty then [] else c!" --service=" ++ svcstr
    retval ++ svcstr ++ c!"\\n"
  else FC3_Firewall.strText self
''',
    'F20_Firewall': '''
if (self.getD c!"enabled").pyEq .none then []
  else if (self.getD c!"enabled").truthy then
    let retval := strip (F10_Firewall.strText self)
    let svcstr := joinWith c!"," (self.getD c!"remove_services").items
    let svcstr := if svcstr.isEmpty then [] else c!" --remove-service=" ++ svcstr
    retval ++ svcstr ++ c!"\\n"
  else F10_Firewall.strText self
''',
}

# _getArgsAsStr methods
ARGS_OVERRIDES = {
    'F18_Keyboard': '''[(.tru c!"vc_keymap", [.lit c!" --vckeymap=", .fld c!"vc_keymap"]),
    (.tru c!"x_layouts", [.lit c!" --xlayouts=", .joinQ c!"x_layouts"]),
    (.tru c!"switch_options", [.lit c!" --switch=", .joinQ c!"switch_options"])]''',
    'F20_NetworkData': '''F19_NetworkData.args ++
    [(.tru c!"teamslaves", [.lit c!" --teamslaves=\\"", .team c!"teamslaves", .lit c!"\\""]),
    (.tru c!"teamconfig", [.lit c!" --teamconfig=\\"", .esc c!"teamconfig", .lit c!"\\""])]''',
    # ' '.join: the only caller writes the line when osname is not empty
    'F21_OSTreeSetup': '''[(.tru c!"osname", [.lit c!"--osname=\\"", .fld c!"osname", .lit c!"\\""]),
    (.tru c!"remote", [.lit c!" --remote=\\"", .fld c!"remote", .lit c!"\\""]),
    (.tru c!"url", [.lit c!" --url=\\"", .fld c!"url", .lit c!"\\""]),
    (.tru c!"ref", [.lit c!" --ref=\\"", .fld c!"ref", .lit c!"\\""]),
    (.tru c!"nogpg", [.lit c!" --nogpg"])]''',
}

# definitions put in front of a module
EXTRA_DEFS = {
    'firewall': '''
/-- `commands/firewall.py:60-73`: the option written for a port. -/
def firewallFlag (port : Str) : Option Str :=
  if port = c!"ssh:tcp" then some c!" --ssh"
  else if port = c!"telnet:tcp" then some c!" --telnet"
  else if port = c!"smtp:tcp" then some c!" --smtp"
  else if port = c!"http:tcp" then some c!" --http"
  else if port = c!"ftp:tcp" then some c!" --ftp"
  else none
''',
    'raid': '''
/-- `commands/raid.py` `FC3_Raid._getDevice`: `int(s)`. -/
def FC3_Raid.getDevice : Val → Except Exc Val
  | .str s => match pyInt s with
    | some n => .ok (.int n)
    | none => .error .value
  | .int n => .ok (.int n)
  | _ => .error .type

/-- `commands/raid.py` `F19_Raid._getDevice`. -/
def F19_Raid.getDevice (v : Val) : Except Exc Val := .ok v
''',
    'network': '''
/-- `commands/network.py` `F22_Network.parse`: a bridge option without a value, or with `=` in it. -/
def badBridgeOpt (opt : Str) : Bool :=
  let value := (partition '=' opt).2.2
  value.isEmpty || value.contains '='

/-- `commands/network.py` `validate_network_interface_name`. -/
def validateInterfaceName (name : Str) : Option Str :=
  let p := partition '.' name
  let one : Except Str (Option Int) :=
    if !p.2.1 then .ok none
    else if p.1 = c!"vlan" then
      .error c!"When using the <prefix>.<vlan id> interface name notation, <prefix> can't be equal to 'vlan'."
    else match pyInt p.2.2 with
      | some n => .ok (some n)
      | none => .error c!"If network --interfacename contains a '.', valid vlan id should follow."
  match one with
  | .error msg => some msg
  | .ok id1 =>
    let two : Except Str (Option Int) :=
      if startsWith name c!"vlan" then
        match pyInt (name.drop 4) with
        | some n => .ok (some n)
        | none => .error c!"If network --interfacename starts with 'vlan', valid vlan id should follow."
      else .ok id1
    match two with
    | .error msg => some msg
    | .ok none => none
    | .ok (some id) =>
      if 0 ≤ id ∧ id ≤ 4095 then none
      else some c!"The vlan id is out of the %(minimum)d-%(maximum)d vlan id range."
''',
}

# __eq__ methods
EQ_OVERRIDES = {
    'F33_TimesourceData': '''fun self y =>
  if (self.getD c!"ntp_server").truthy then sameAttrs [c!"ntp_server", c!"nts"] self y
  else if (self.getD c!"ntp_pool").truthy then sameAttrs [c!"ntp_pool", c!"nts"] self y
  else true''',
}

EXTRA_MODULES = ['Multipath', 'Realm']
