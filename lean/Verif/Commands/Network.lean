import Verif.Commands.Base
/-!
# `/repo/pykickstart/commands/network.py`

Written by `scripts/gen_commands.py` from the text of that file; see there and
`Verif/Commands/Base.lean` for how a class is represented.
-/
namespace Ks.Cmd

/-- `commands/network.py` `F22_Network.parse`: a bridge option without a value, or with `=` in it. -/
def badBridgeOpt (opt : Str) : Bool :=
  let value := (partition '=' opt).2.2
  value.isEmpty || value.contains '='

/-- `commands/network.py` `validate_network_interface_name`. -/
def validateInterfaceName (name : Str) : Option Str :=
  let p := partition '.' name
  let one : Except Str (Option Int) :=
    if !p.2.1 then .ok none
    else if p.1 = c!"vlan" then
      .error c!"When using the <prefix>.<vlan id> interface name notation, <prefix> can't be equal to 'vlan'."
    else match pyInt p.2.2 with
      | some n => .ok (some n)
      | none => .error c!"If network --interfacename contains a '.', valid vlan id should follow."
  match one with
  | .error msg => some msg
  | .ok id1 =>
    let two : Except Str (Option Int) :=
      if startsWith name c!"vlan" then
        match pyInt (name.drop 4) with
        | some n => .ok (some n)
        | none => .error c!"If network --interfacename starts with 'vlan', valid vlan id should follow."
      else .ok id1
    match two with
    | .error msg => some msg
    | .ok none => none
    | .ok (some id) =>
      if 0 ≤ id ∧ id ≤ 4095 then none
      else some c!"The vlan id is out of the %(minimum)d-%(maximum)d vlan id range."

/-- `commands/network.py:38-53` `__init__` -/
def FC3_NetworkData.init : Ns := [(c!"lineno", .int 0), (c!"bootProto", .str c!"dhcp"), (c!"dhcpclass", .str []), (c!"device", .str []), (c!"essid", .str []), (c!"ethtool", .str []), (c!"gateway", .str []), (c!"hostname", .str []), (c!"ip", .str []), (c!"mtu", .str []), (c!"nameserver", .str []), (c!"netmask", .str []), (c!"nodns", .bool false), (c!"onboot", .bool true), (c!"wepkey", .str [])]
/-- `commands/network.py:64-96` `_getArgsAsStr` -/
def FC3_NetworkData.args : Out :=
  [(.tru c!"bootProto", [.lit c!" --bootproto=", .fld c!"bootProto"]),
    (.tru c!"dhcpclass", [.lit c!" --dhcpclass=", .fld c!"dhcpclass"]),
    (.tru c!"device", [.lit c!" --device=", .fld c!"device"]),
    (.tru c!"essid", [.lit c!" --essid=\"", .fld c!"essid", .lit c!"\""]),
    (.tru c!"ethtool", [.lit c!" --ethtool=\"", .fld c!"ethtool", .lit c!"\""]),
    (.tru c!"gateway", [.lit c!" --gateway=", .fld c!"gateway"]),
    (.tru c!"hostname", [.lit c!" --hostname=", .fld c!"hostname"]),
    (.tru c!"ip", [.lit c!" --ip=", .fld c!"ip"]),
    (.tru c!"mtu", [.lit c!" --mtu=", .fld c!"mtu"]),
    (.tru c!"nameserver", [.lit c!" --nameserver=", .fld c!"nameserver"]),
    (.tru c!"netmask", [.lit c!" --netmask=", .fld c!"netmask"]),
    (.tru c!"nodns", [.lit c!" --nodns"]),
    (.not (.tru c!"onboot"), [.lit c!" --onboot=off"]),
    (.tru c!"wepkey", [.lit c!" --wepkey=", .fld c!"wepkey"])]
/-- `commands/network.py:98-101` `__str__` -/
def FC3_NetworkData.strOut (args : Out) : Out :=
  [(.tt, [.lit c!"network "])] ++
    args ++
    [(.tt, [.lit c!"\n"])]
/-- `commands/network.py:55-59` `__eq__` -/
def FC3_NetworkData.eq : Ns → Ns → Bool := sameAttrs [c!"device"]
/-- `commands/network.py:34-101` -/
def FC3_NetworkData.cls : DataCls := { init := FC3_NetworkData.init, str := (FC3_NetworkData.strOut FC3_NetworkData.args).render, eq := FC3_NetworkData.eq }

/-- `commands/network.py:107-109` `__init__` -/
def FC4_NetworkData.init : Ns := Ns.updated FC3_NetworkData.init [(c!"notksdevice", .bool false)]
/-- `commands/network.py:111-117` `_getArgsAsStr` -/
def FC4_NetworkData.args : Out :=
  FC3_NetworkData.args ++
    [(.tru c!"notksdevice", [.lit c!" --notksdevice"])]
/-- `commands/network.py:103-117` -/
def FC4_NetworkData.cls : DataCls := { init := FC4_NetworkData.init, str := (FC3_NetworkData.strOut FC4_NetworkData.args).render, eq := FC3_NetworkData.eq }

/-- `commands/network.py:123-126` `__init__` -/
def FC6_NetworkData.init : Ns := Ns.updated FC4_NetworkData.init [(c!"noipv4", .bool false), (c!"noipv6", .bool false)]
/-- `commands/network.py:128-136` `_getArgsAsStr` -/
def FC6_NetworkData.args : Out :=
  FC4_NetworkData.args ++
    [(.tru c!"noipv4", [.lit c!" --noipv4"]),
    (.tru c!"noipv6", [.lit c!" --noipv6"])]
/-- `commands/network.py:119-136` -/
def FC6_NetworkData.cls : DataCls := { init := FC6_NetworkData.init, str := (FC3_NetworkData.strOut FC6_NetworkData.args).render, eq := FC3_NetworkData.eq }

/-- `commands/network.py:142-144` `__init__` -/
def F8_NetworkData.init : Ns := Ns.updated FC6_NetworkData.init [(c!"ipv6", .str [])]
/-- `commands/network.py:146-152` `_getArgsAsStr` -/
def F8_NetworkData.args : Out :=
  FC6_NetworkData.args ++
    [(.tru c!"ipv6", [.lit c!" --ipv6=", .fld c!"ipv6"])]
/-- `commands/network.py:138-152` -/
def F8_NetworkData.cls : DataCls := { init := F8_NetworkData.init, str := (FC3_NetworkData.strOut F8_NetworkData.args).render, eq := FC3_NetworkData.eq }

/-- `commands/network.py:158-162` `__init__` -/
def F16_NetworkData.init : Ns := Ns.updated F8_NetworkData.init [(c!"activate", .none), (c!"nodefroute", .bool false), (c!"wpakey", .str [])]
/-- `commands/network.py:164-174` `_getArgsAsStr` -/
def F16_NetworkData.args : Out :=
  F8_NetworkData.args ++
    [(.tru c!"activate", [.lit c!" --activate"]),
    (.tru c!"nodefroute", [.lit c!" --nodefroute"]),
    (.tru c!"wpakey", [.lit c!" --wpakey=", .fld c!"wpakey"])]
/-- `commands/network.py:154-174` -/
def F16_NetworkData.cls : DataCls := { init := F16_NetworkData.init, str := (FC3_NetworkData.strOut F16_NetworkData.args).render, eq := FC3_NetworkData.eq }

/-- `commands/network.py:180-185` `__init__` -/
def F19_NetworkData.init : Ns := Ns.updated F16_NetworkData.init [(c!"bondslaves", .str []), (c!"bondopts", .str []), (c!"vlanid", .str []), (c!"ipv6gateway", .str [])]
/-- `commands/network.py:187-199` `_getArgsAsStr` -/
def F19_NetworkData.args : Out :=
  F16_NetworkData.args ++
    [(.tru c!"bondslaves", [.lit c!" --bondslaves=", .fld c!"bondslaves"]),
    (.tru c!"bondopts", [.lit c!" --bondopts=", .fld c!"bondopts"]),
    (.tru c!"vlanid", [.lit c!" --vlanid=", .fld c!"vlanid"]),
    (.tru c!"ipv6gateway", [.lit c!" --ipv6gateway=", .fld c!"ipv6gateway"])]
/-- `commands/network.py:176-199` -/
def F19_NetworkData.cls : DataCls := { init := F19_NetworkData.init, str := (FC3_NetworkData.strOut F19_NetworkData.args).render, eq := FC3_NetworkData.eq }

/-- `commands/network.py:205-208` `__init__` -/
def F20_NetworkData.init : Ns := Ns.updated F19_NetworkData.init [(c!"teamslaves", .list []), (c!"teamconfig", .str [])]
/-- `commands/network.py:210-224` `_getArgsAsStr` -/
def F20_NetworkData.args : Out :=
  F19_NetworkData.args ++
    [(.tru c!"teamslaves", [.lit c!" --teamslaves=\"", .team c!"teamslaves", .lit c!"\""]),
    (.tru c!"teamconfig", [.lit c!" --teamconfig=\"", .esc c!"teamconfig", .lit c!"\""])]
/-- `commands/network.py:201-224` -/
def F20_NetworkData.cls : DataCls := { init := F20_NetworkData.init, str := (FC3_NetworkData.strOut F20_NetworkData.args).render, eq := FC3_NetworkData.eq }

/-- `commands/network.py:230-232` `__init__` -/
def F21_NetworkData.init : Ns := Ns.updated F20_NetworkData.init [(c!"interfacename", .str [])]
/-- `commands/network.py:234-239` `_getArgsAsStr` -/
def F21_NetworkData.args : Out :=
  F20_NetworkData.args ++
    [(.tru c!"interfacename", [.lit c!" --interfacename=", .fld c!"interfacename"])]
/-- `commands/network.py:226-239` -/
def F21_NetworkData.cls : DataCls := { init := F21_NetworkData.init, str := (FC3_NetworkData.strOut F21_NetworkData.args).render, eq := FC3_NetworkData.eq }

/-- `commands/network.py:245-248` `__init__` -/
def F22_NetworkData.init : Ns := Ns.updated F21_NetworkData.init [(c!"bridgeslaves", .str []), (c!"bridgeopts", .str [])]
/-- `commands/network.py:250-257` `_getArgsAsStr` -/
def F22_NetworkData.args : Out :=
  F21_NetworkData.args ++
    [(.tru c!"bridgeslaves", [.lit c!" --bridgeslaves=", .fld c!"bridgeslaves"]),
    (.tru c!"bridgeopts", [.lit c!" --bridgeopts=", .fld c!"bridgeopts"])]
/-- `commands/network.py:241-257` -/
def F22_NetworkData.cls : DataCls := { init := F22_NetworkData.init, str := (FC3_NetworkData.strOut F22_NetworkData.args).render, eq := FC3_NetworkData.eq }

/-- `commands/network.py:259-267`: `__init__` is inherited. -/
def F25_NetworkData.init : Ns := F22_NetworkData.init
/-- `commands/network.py:263-267` `_getArgsAsStr` -/
def F25_NetworkData.args : Out :=
  F22_NetworkData.args ++
    [(.eq c!"activate" (.bool false), [.lit c!" --no-activate"])]
/-- `commands/network.py:259-267` -/
def F25_NetworkData.cls : DataCls := { init := F25_NetworkData.init, str := (FC3_NetworkData.strOut F25_NetworkData.args).render, eq := FC3_NetworkData.eq }

/-- `commands/network.py:273-275` `__init__` -/
def F27_NetworkData.init : Ns := Ns.updated F25_NetworkData.init [(c!"bindto", .none)]
/-- `commands/network.py:277-281` `_getArgsAsStr` -/
def F27_NetworkData.args : Out :=
  F25_NetworkData.args ++
    [(.eq c!"bindto" (.str c!"mac"), [.lit c!" --bindto=", .fld c!"bindto"])]
/-- `commands/network.py:269-281` -/
def F27_NetworkData.cls : DataCls := { init := F27_NetworkData.init, str := (FC3_NetworkData.strOut F27_NetworkData.args).render, eq := FC3_NetworkData.eq }

/-- `commands/network.py:287-289` `__init__` -/
def RHEL4_NetworkData.init : Ns := Ns.updated FC3_NetworkData.init [(c!"notksdevice", .bool false)]
/-- `commands/network.py:291-297` `_getArgsAsStr` -/
def RHEL4_NetworkData.args : Out :=
  FC3_NetworkData.args ++
    [(.tru c!"notksdevice", [.lit c!" --notksdevice"])]
/-- `commands/network.py:283-297` -/
def RHEL4_NetworkData.cls : DataCls := { init := RHEL4_NetworkData.init, str := (FC3_NetworkData.strOut RHEL4_NetworkData.args).render, eq := FC3_NetworkData.eq }

/-- `commands/network.py:303-309` `__init__` -/
def RHEL6_NetworkData.init : Ns := Ns.updated F8_NetworkData.init [(c!"activate", .none), (c!"nodefroute", .bool false), (c!"vlanid", .str []), (c!"bondslaves", .str []), (c!"bondopts", .str [])]
/-- `commands/network.py:311-325` `_getArgsAsStr` -/
def RHEL6_NetworkData.args : Out :=
  F8_NetworkData.args ++
    [(.tru c!"activate", [.lit c!" --activate"]),
    (.tru c!"nodefroute", [.lit c!" --nodefroute"]),
    (.tru c!"vlanid", [.lit c!" --vlanid=", .fld c!"vlanid"]),
    (.tru c!"bondslaves", [.lit c!" --bondslaves=", .fld c!"bondslaves"]),
    (.tru c!"bondopts", [.lit c!" --bondopts=", .fld c!"bondopts"])]
/-- `commands/network.py:299-325` -/
def RHEL6_NetworkData.cls : DataCls := { init := RHEL6_NetworkData.init, str := (FC3_NetworkData.strOut RHEL6_NetworkData.args).render, eq := FC3_NetworkData.eq }

/-- `commands/network.py:331-335` `__init__` -/
def RHEL7_NetworkData.init : Ns := Ns.updated F21_NetworkData.init [(c!"bridgeslaves", .str []), (c!"bridgeopts", .str []), (c!"bindto", .none)]
/-- `commands/network.py:337-348` `_getArgsAsStr` -/
def RHEL7_NetworkData.args : Out :=
  F21_NetworkData.args ++
    [(.tru c!"bridgeslaves", [.lit c!" --bridgeslaves=", .fld c!"bridgeslaves"]),
    (.tru c!"bridgeopts", [.lit c!" --bridgeopts=", .fld c!"bridgeopts"]),
    (.eq c!"activate" (.bool false), [.lit c!" --no-activate"]),
    (.eq c!"bindto" (.str c!"mac"), [.lit c!" --bindto=", .fld c!"bindto"])]
/-- `commands/network.py:327-348` -/
def RHEL7_NetworkData.cls : DataCls := { init := RHEL7_NetworkData.init, str := (FC3_NetworkData.strOut RHEL7_NetworkData.args).render, eq := FC3_NetworkData.eq }

/-- `commands/network.py:354-361` `__init__` -/
def FC3_Network.init : Ns := []
/-- `commands/network.py:374-461` `_getParser` -/
def FC3_Network.opWith (bootprotoList : List Str) : OptParser :=
  OptParser.empty
    |>.add { names := [c!"--bootproto"], dest := some c!"bootProto", default := some (.str c!"dhcp"), choices := some bootprotoList }
    |>.add { names := [c!"--dhcpclass"] }
    |>.add { names := [c!"--device"] }
    |>.add { names := [c!"--essid"] }
    |>.add { names := [c!"--ethtool"] }
    |>.add { names := [c!"--gateway"] }
    |>.add { names := [c!"--hostname"] }
    |>.add { names := [c!"--ip"] }
    |>.add { names := [c!"--mtu"] }
    |>.add { names := [c!"--nameserver"] }
    |>.add { names := [c!"--netmask"] }
    |>.add { names := [c!"--nodns"], kind := .storeConst, nargs := .n 0, const := .bool true, default := some (.bool false) }
    |>.add { names := [c!"--onboot"], ty := .bool }
    |>.add { names := [c!"--wepkey"] }
/-- `commands/network.py:463-473` `parse` -/
def FC3_Network.parse (k : Info) (args : List Str) : M Ns := do
  let ns ← M.parseArgs k.op args
  let nd := k.dc.init
  let nd := setToObj ns nd
  let x1 ← M.lineno
  let nd := nd.set c!"lineno" (Val.int x1)
  let x2 ← M.dataList
  M.when (x2.any (fun d => k.dc.eq d nd)) (do
    M.warn (.parse c!"A network device with the name %s has already been defined."))
  return nd
/-- `commands/network.py:350-480` -/
def FC3_Network.info (dc : DataCls) : Info := { dc := dc, op := FC3_Network.opWith [c!"dhcp", c!"bootp", c!"static"] }
/-- `commands/network.py:350-480` -/
def FC3_Network.cls (dc : DataCls) : Command := listCmd c!"FC3_Network" (some 0) FC3_Network.init dc (FC3_Network.parse (FC3_Network.info dc)) (headedListStr c!"# Network information\n")

/-- `commands/network.py:482-491`: `__init__` is inherited. -/
def FC4_Network.init : Ns := FC3_Network.init
/-- `commands/network.py:486-491` `_getParser` -/
def FC4_Network.opWith (bootprotoList : List Str) : OptParser :=
  (FC3_Network.opWith bootprotoList)
    |>.add { names := [c!"--notksdevice"], kind := .storeConst, nargs := .n 0, const := .bool true, default := some (.bool false) }
/-- `commands/network.py:482-491` -/
def FC4_Network.info (dc : DataCls) : Info := { dc := dc, op := FC4_Network.opWith [c!"dhcp", c!"bootp", c!"static"] }
/-- `commands/network.py:482-491` -/
def FC4_Network.cls (dc : DataCls) : Command := listCmd c!"FC4_Network" (some 0) FC4_Network.init dc (FC3_Network.parse (FC4_Network.info dc)) (headedListStr c!"# Network information\n")

/-- `commands/network.py:493-503`: `__init__` is inherited. -/
def FC6_Network.init : Ns := FC4_Network.init
/-- `commands/network.py:497-503` `_getParser` -/
def FC6_Network.opWith (bootprotoList : List Str) : OptParser :=
  (FC4_Network.opWith bootprotoList)
    |>.add { names := [c!"--noipv4"], kind := .storeConst, nargs := .n 0, const := .bool true, default := some (.bool false) }
    |>.add { names := [c!"--noipv6"], kind := .storeConst, nargs := .n 0, const := .bool true, default := some (.bool false) }
/-- `commands/network.py:493-503` -/
def FC6_Network.info (dc : DataCls) : Info := { dc := dc, op := FC6_Network.opWith [c!"dhcp", c!"bootp", c!"static"] }
/-- `commands/network.py:493-503` -/
def FC6_Network.cls (dc : DataCls) : Command := listCmd c!"FC6_Network" (some 0) FC6_Network.init dc (FC3_Network.parse (FC6_Network.info dc)) (headedListStr c!"# Network information\n")

/-- `commands/network.py:505-517`: `__init__` is inherited. -/
def F8_Network.init : Ns := FC6_Network.init
/-- `commands/network.py:509-517` `_getParser` -/
def F8_Network.opWith (bootprotoList : List Str) : OptParser :=
  (FC6_Network.opWith bootprotoList)
    |>.add { names := [c!"--ipv6"] }
/-- `commands/network.py:505-517` -/
def F8_Network.info (dc : DataCls) : Info := { dc := dc, op := F8_Network.opWith [c!"dhcp", c!"bootp", c!"static"] }
/-- `commands/network.py:505-517` -/
def F8_Network.cls (dc : DataCls) : Command := listCmd c!"F8_Network" (some 0) F8_Network.init dc (FC3_Network.parse (F8_Network.info dc)) (headedListStr c!"# Network information\n")

/-- `commands/network.py:523-525` `__init__` -/
def F9_Network.init : Ns := F8_Network.init
/-- `commands/network.py:527-537` `_getParser` -/
def F9_Network.opWith (bootprotoList : List Str) : OptParser := F8_Network.opWith bootprotoList
/-- `commands/network.py:519-537` -/
def F9_Network.info (dc : DataCls) : Info := { dc := dc, op := F9_Network.opWith [c!"dhcp", c!"bootp", c!"static", c!"query"] }
/-- `commands/network.py:519-537` -/
def F9_Network.cls (dc : DataCls) : Command := listCmd c!"F9_Network" (some 0) F9_Network.init dc (FC3_Network.parse (F9_Network.info dc)) (headedListStr c!"# Network information\n")

/-- `commands/network.py:543-545` `__init__` -/
def F16_Network.init : Ns := F9_Network.init
/-- `commands/network.py:547-568` `_getParser` -/
def F16_Network.opWith (bootprotoList : List Str) : OptParser :=
  (F9_Network.opWith bootprotoList)
    |>.add { names := [c!"--activate"], kind := .storeConst, nargs := .n 0, const := .bool true, default := some .none }
    |>.add { names := [c!"--nodefroute"], kind := .storeConst, nargs := .n 0, const := .bool true, default := some (.bool false) }
    |>.add { names := [c!"--wpakey"], default := some (.str []) }
/-- `commands/network.py:539-568` -/
def F16_Network.info (dc : DataCls) : Info := { dc := dc, op := F16_Network.opWith [c!"dhcp", c!"bootp", c!"static", c!"query", c!"ibft"] }
/-- `commands/network.py:539-568` -/
def F16_Network.cls (dc : DataCls) : Command := listCmd c!"F16_Network" (some 0) F16_Network.init dc (FC3_Network.parse (F16_Network.info dc)) (headedListStr c!"# Network information\n")

/-- `commands/network.py:570-577`: `__init__` is inherited. -/
def F18_Network.init : Ns := F16_Network.init
/-- `commands/network.py:570-577` -/
def F18_Network.info (dc : DataCls) : Info := { dc := dc, op := F16_Network.opWith [c!"dhcp", c!"bootp", c!"static", c!"query", c!"ibft"] }
/-- `commands/network.py:570-577` -/
def F18_Network.cls (dc : DataCls) : Command := listCmd c!"F18_Network" (some 0) F18_Network.init dc (FC3_Network.parse (F18_Network.info dc)) (headedListStr c!"# Network information\n")

/-- `commands/network.py:579-612`: `__init__` is inherited. -/
def F19_Network.init : Ns := F18_Network.init
/-- `commands/network.py:581-612` `_getParser` -/
def F19_Network.opWith (bootprotoList : List Str) : OptParser :=
  (F16_Network.opWith bootprotoList)
    |>.add { names := [c!"--bondslaves"], default := some (.str []) }
    |>.add { names := [c!"--bondopts"], default := some (.str []) }
    |>.add { names := [c!"--vlanid"] }
    |>.add { names := [c!"--ipv6gateway"], default := some (.str []) }
/-- `commands/network.py:579-612` -/
def F19_Network.info (dc : DataCls) : Info := { dc := dc, op := F19_Network.opWith [c!"dhcp", c!"bootp", c!"static", c!"query", c!"ibft"] }
/-- `commands/network.py:579-612` -/
def F19_Network.cls (dc : DataCls) : Command := listCmd c!"F19_Network" (some 0) F19_Network.init dc (FC3_Network.parse (F19_Network.info dc)) (headedListStr c!"# Network information\n")

/-- `commands/network.py:614-679`: `__init__` is inherited. -/
def F20_Network.init : Ns := F19_Network.init
/-- `commands/network.py:616-679` `_getParser` -/
def F20_Network.opWith (bootprotoList : List Str) : OptParser :=
  (F19_Network.opWith bootprotoList)
    |>.add { names := [c!"--teamslaves"], ty := .team }
    |>.add { names := [c!"--teamconfig"], default := some (.str []) }
/-- `commands/network.py:614-679` -/
def F20_Network.info (dc : DataCls) : Info := { dc := dc, op := F20_Network.opWith [c!"dhcp", c!"bootp", c!"static", c!"query", c!"ibft"] }
/-- `commands/network.py:614-679` -/
def F20_Network.cls (dc : DataCls) : Command := listCmd c!"F20_Network" (some 0) F20_Network.init dc (FC3_Network.parse (F20_Network.info dc)) (headedListStr c!"# Network information\n")

/-- `commands/network.py:681-704`: `__init__` is inherited. -/
def F21_Network.init : Ns := F20_Network.init
/-- `commands/network.py:682-704` `_getParser` -/
def F21_Network.opWith (bootprotoList : List Str) : OptParser :=
  (F20_Network.opWith bootprotoList)
    |>.add { names := [c!"--interfacename"], default := some (.str []) }
/-- `commands/network.py:681-704` -/
def F21_Network.info (dc : DataCls) : Info := { dc := dc, op := F21_Network.opWith [c!"dhcp", c!"bootp", c!"static", c!"query", c!"ibft"] }
/-- `commands/network.py:681-704` -/
def F21_Network.cls (dc : DataCls) : Command := listCmd c!"F21_Network" (some 0) F21_Network.init dc (FC3_Network.parse (F21_Network.info dc)) (headedListStr c!"# Network information\n")

/-- `commands/network.py:706-743`: `__init__` is inherited. -/
def F22_Network.init : Ns := F21_Network.init
/-- `commands/network.py:707-726` `_getParser` -/
def F22_Network.opWith (bootprotoList : List Str) : OptParser :=
  (F21_Network.opWith bootprotoList)
    |>.add { names := [c!"--bridgeslaves"], default := some (.str []) }
    |>.add { names := [c!"--bridgeopts"], default := some (.str []) }
/-- `commands/network.py:728-743` `parse` -/
def F22_Network.parse (k : Info) (args : List Str) : M Ns := do
  let retval ← FC3_Network.parse k args
  M.when ((retval.getD c!"bridgeopts").truthy) (do
    M.failIf (!(retval.getD c!"bridgeslaves").truthy) c!"Option --bridgeopts requires --bridgeslaves to be specified"
    M.failIf (((retval.getD c!"bridgeopts").split ',').items.any badBridgeOpt) c!"Bad format of --bridgeopts, expecting key=value options separated by ','")
  return retval
/-- `commands/network.py:706-743` -/
def F22_Network.info (dc : DataCls) : Info := { dc := dc, op := F22_Network.opWith [c!"dhcp", c!"bootp", c!"static", c!"query", c!"ibft"] }
/-- `commands/network.py:706-743` -/
def F22_Network.cls (dc : DataCls) : Command := listCmd c!"F22_Network" (some 0) F22_Network.init dc (F22_Network.parse (F22_Network.info dc)) (headedListStr c!"# Network information\n")

/-- `commands/network.py:745-756`: `__init__` is inherited. -/
def F24_Network.init : Ns := F22_Network.init
/-- `commands/network.py:749-756` `parse` -/
def F24_Network.parse (k : Info) (args : List Str) : M Ns := do
  let retval ← F22_Network.parse k args
  let retval := if (retval.getD c!"noipv4").truthy then retval.set c!"bootProto" (Val.str []) else retval
  return retval
/-- `commands/network.py:745-756` -/
def F24_Network.info (dc : DataCls) : Info := { dc := dc, op := F22_Network.opWith [c!"dhcp", c!"bootp", c!"static", c!"query", c!"ibft"] }
/-- `commands/network.py:745-756` -/
def F24_Network.cls (dc : DataCls) : Command := listCmd c!"F24_Network" (some 0) F24_Network.init dc (F24_Network.parse (F24_Network.info dc)) (headedListStr c!"# Network information\n")

/-- `commands/network.py:758-768`: `__init__` is inherited. -/
def F25_Network.init : Ns := F24_Network.init
/-- `commands/network.py:762-768` `_getParser` -/
def F25_Network.opWith (bootprotoList : List Str) : OptParser :=
  (F22_Network.opWith bootprotoList)
    |>.add { names := [c!"--no-activate"], dest := some c!"activate", kind := .storeConst, nargs := .n 0, const := .bool false, default := some .none }
/-- `commands/network.py:758-768` -/
def F25_Network.info (dc : DataCls) : Info := { dc := dc, op := F25_Network.opWith [c!"dhcp", c!"bootp", c!"static", c!"query", c!"ibft"] }
/-- `commands/network.py:758-768` -/
def F25_Network.cls (dc : DataCls) : Command := listCmd c!"F25_Network" (some 0) F25_Network.init dc (F24_Network.parse (F25_Network.info dc)) (headedListStr c!"# Network information\n")

/-- `commands/network.py:774-776` `__init__` -/
def F27_Network.init : Ns := F25_Network.init
/-- `commands/network.py:778-814` `_getParser` -/
def F27_Network.opWith (bind_to_choices : List Str) (bootprotoList : List Str) : OptParser :=
  (F25_Network.opWith bootprotoList)
    |>.add { names := [c!"--bindto"], dest := some c!"bindto", default := some .none, choices := some bind_to_choices }
/-- `commands/network.py:816-825` `parse` -/
def F27_Network.parse (k : Info) (args : List Str) : M Ns := do
  let retval ← F24_Network.parse k args
  M.when ((retval.getD c!"bindto").pyEq (Val.str c!"mac")) (do
    M.failIf ((retval.getD c!"vlanid").truthy && !((retval.getD c!"bondopts").truthy)) c!"--bindto=%s is not supported for this type of device")
  return retval
/-- `commands/network.py:770-825` -/
def F27_Network.info (dc : DataCls) : Info := { dc := dc, op := F27_Network.opWith [c!"mac"] [c!"dhcp", c!"bootp", c!"static", c!"query", c!"ibft"] }
/-- `commands/network.py:770-825` -/
def F27_Network.cls (dc : DataCls) : Command := listCmd c!"F27_Network" (some 0) F27_Network.init dc (F27_Network.parse (F27_Network.info dc)) (headedListStr c!"# Network information\n")

/-- `commands/network.py:827-835`: `__init__` is inherited. -/
def RHEL4_Network.init : Ns := FC3_Network.init
/-- `commands/network.py:831-835` `_getParser` -/
def RHEL4_Network.opWith (bootprotoList : List Str) : OptParser :=
  (FC3_Network.opWith bootprotoList)
    |>.add { names := [c!"--notksdevice"], kind := .storeConst, nargs := .n 0, const := .bool true, default := some (.bool false) }
/-- `commands/network.py:827-835` -/
def RHEL4_Network.info (dc : DataCls) : Info := { dc := dc, op := RHEL4_Network.opWith [c!"dhcp", c!"bootp", c!"static"] }
/-- `commands/network.py:827-835` -/
def RHEL4_Network.cls (dc : DataCls) : Command := listCmd c!"RHEL4_Network" (some 0) RHEL4_Network.init dc (FC3_Network.parse (RHEL4_Network.info dc)) (headedListStr c!"# Network information\n")

/-- `commands/network.py:841-843` `__init__` -/
def RHEL5_Network.init : Ns := FC6_Network.init
/-- `commands/network.py:845-855` `_getParser` -/
def RHEL5_Network.opWith (bootprotoList : List Str) : OptParser := FC6_Network.opWith bootprotoList
/-- `commands/network.py:837-855` -/
def RHEL5_Network.info (dc : DataCls) : Info := { dc := dc, op := RHEL5_Network.opWith [c!"dhcp", c!"bootp", c!"static", c!"query"] }
/-- `commands/network.py:837-855` -/
def RHEL5_Network.cls (dc : DataCls) : Command := listCmd c!"RHEL5_Network" (some 0) RHEL5_Network.init dc (FC3_Network.parse (RHEL5_Network.info dc)) (headedListStr c!"# Network information\n")

/-- `commands/network.py:861-863` `__init__` -/
def RHEL6_Network.init : Ns := F9_Network.init
/-- `commands/network.py:865-917` `_getParser` -/
def RHEL6_Network.opWith (bootprotoList : List Str) : OptParser :=
  (F9_Network.opWith bootprotoList)
    |>.add { names := [c!"--activate"], kind := .storeConst, nargs := .n 0, const := .bool true, default := some .none }
    |>.add { names := [c!"--nodefroute"], kind := .storeConst, nargs := .n 0, const := .bool true, default := some (.bool false) }
    |>.add { names := [c!"--vlanid"] }
    |>.add { names := [c!"--bondslaves"] }
    |>.add { names := [c!"--bondopts"] }
/-- `commands/network.py:857-917` -/
def RHEL6_Network.info (dc : DataCls) : Info := { dc := dc, op := RHEL6_Network.opWith [c!"dhcp", c!"bootp", c!"static", c!"query", c!"ibft"] }
/-- `commands/network.py:857-917` -/
def RHEL6_Network.cls (dc : DataCls) : Command := listCmd c!"RHEL6_Network" (some 0) RHEL6_Network.init dc (FC3_Network.parse (RHEL6_Network.info dc)) (headedListStr c!"# Network information\n")

/-- `commands/network.py:962-964` `__init__` -/
def RHEL7_Network.init : Ns := F21_Network.init
/-- `commands/network.py:966-1023` `_getParser` -/
def RHEL7_Network.opWith (bind_to_choices : List Str) (bootprotoList : List Str) : OptParser :=
  (F21_Network.opWith bootprotoList)
    |>.add { names := [c!"--bridgeslaves"], default := some (.str []) }
    |>.add { names := [c!"--bridgeopts"], default := some (.str []) }
    |>.add { names := [c!"--no-activate"], dest := some c!"activate", kind := .storeConst, nargs := .n 0, const := .bool false, default := some .none }
    |>.add { names := [c!"--bindto"], dest := some c!"bindto", default := some .none, choices := some bind_to_choices }
/-- `commands/network.py:1025-1051` `parse` -/
def RHEL7_Network.parse (k : Info) (args : List Str) : M Ns := do
  let retval ← FC3_Network.parse k args
  match validateInterfaceName (retval.getD c!"interfacename").fmt with
  | some msg => M.err msg
  | none => pure ()
  M.when ((retval.getD c!"bridgeopts").truthy) (do
    M.failIf (!(retval.getD c!"bridgeslaves").truthy) c!"Option --bridgeopts requires --bridgeslaves to be specified"
    M.failIf (((retval.getD c!"bridgeopts").split ',').items.any badBridgeOpt) c!"Bad format of --bridgeopts, expecting key=value options separated by ','")
  M.when ((retval.getD c!"bindto").pyEq (Val.str c!"mac")) (do
    M.failIf ((retval.getD c!"vlanid").truthy && !((retval.getD c!"bondopts").truthy)) c!"--bindto=%s is not supported for this type of device")
  return retval
/-- `commands/network.py:961-1051` -/
def RHEL7_Network.info (dc : DataCls) : Info := { dc := dc, op := RHEL7_Network.opWith [c!"mac"] [c!"dhcp", c!"bootp", c!"static", c!"query", c!"ibft"] }
/-- `commands/network.py:961-1051` -/
def RHEL7_Network.cls (dc : DataCls) : Command := listCmd c!"RHEL7_Network" (some 0) RHEL7_Network.init dc (RHEL7_Network.parse (RHEL7_Network.info dc)) (headedListStr c!"# Network information\n")

end Ks.Cmd
