import Verif.Commands.Base
/-!
# `/repo/pykickstart/commands/repo.py`

Written by `scripts/gen_commands.py` from the text of that file; see there and
`Verif/Commands/Base.lean` for how a class is represented.
-/
namespace Ks.Cmd

/-- `commands/repo.py:34-38` `__init__` -/
def FC6_RepoData.init : Ns := [(c!"lineno", .int 0), (c!"baseurl", .str []), (c!"mirrorlist", .none), (c!"name", .str [])]
/-- `commands/repo.py:49-57` `_getArgsAsStr` -/
def FC6_RepoData.args : Out :=
  [(.tru c!"baseurl", [.lit c!"--baseurl=", .fld c!"baseurl"]),
    (.and (.not (.tru c!"baseurl")) (.tru c!"mirrorlist"), [.lit c!"--mirrorlist=", .fld c!"mirrorlist"])]
/-- `commands/repo.py:59-62` `__str__` -/
def FC6_RepoData.strOut (args : Out) : Out :=
  [(.tt, [.lit c!"repo --name=\"", .fld c!"name", .lit c!"\" "])] ++
    args ++
    [(.tt, [.lit c!"\n"])]
/-- `commands/repo.py:40-44` `__eq__` -/
def FC6_RepoData.eq : Ns → Ns → Bool := sameAttrs [c!"name"]
/-- `commands/repo.py:30-62` -/
def FC6_RepoData.cls : DataCls := { init := FC6_RepoData.init, str := (FC6_RepoData.strOut FC6_RepoData.args).render, eq := FC6_RepoData.eq }

/-- `commands/repo.py:68-72` `__init__` -/
def F8_RepoData.init : Ns := Ns.updated FC6_RepoData.init [(c!"cost", .none), (c!"includepkgs", .list []), (c!"excludepkgs", .list [])]
/-- `commands/repo.py:74-84` `_getArgsAsStr` -/
def F8_RepoData.args : Out :=
  FC6_RepoData.args ++
    [(.tru c!"cost", [.lit c!" --cost=", .fld c!"cost"]),
    (.tru c!"includepkgs", [.lit c!" --includepkgs=\"", .join c!"," c!"includepkgs", .lit c!"\""]),
    (.tru c!"excludepkgs", [.lit c!" --excludepkgs=\"", .join c!"," c!"excludepkgs", .lit c!"\""])]
/-- `commands/repo.py:64-84` -/
def F8_RepoData.cls : DataCls := { init := F8_RepoData.init, str := (FC6_RepoData.strOut F8_RepoData.args).render, eq := FC6_RepoData.eq }

/-- `commands/repo.py:90-92` `__init__` -/
def F11_RepoData.init : Ns := Ns.updated F8_RepoData.init [(c!"ignoregroups", .none)]
/-- `commands/repo.py:94-99` `_getArgsAsStr` -/
def F11_RepoData.args : Out :=
  F8_RepoData.args ++
    [(.tru c!"ignoregroups", [.lit c!" --ignoregroups=true"])]
/-- `commands/repo.py:86-99` -/
def F11_RepoData.cls : DataCls := { init := F11_RepoData.init, str := (FC6_RepoData.strOut F11_RepoData.args).render, eq := FC6_RepoData.eq }

/-- `commands/repo.py:105-107` `__init__` -/
def F13_RepoData.init : Ns := Ns.updated F11_RepoData.init [(c!"proxy", .str [])]
/-- `commands/repo.py:109-115` `_getArgsAsStr` -/
def F13_RepoData.args : Out :=
  F11_RepoData.args ++
    [(.tru c!"proxy", [.lit c!" --proxy=\"", .fld c!"proxy", .lit c!"\""])]
/-- `commands/repo.py:101-115` -/
def F13_RepoData.cls : DataCls := { init := F13_RepoData.init, str := (FC6_RepoData.strOut F13_RepoData.args).render, eq := FC6_RepoData.eq }

/-- `commands/repo.py:121-123` `__init__` -/
def F14_RepoData.init : Ns := Ns.updated F13_RepoData.init [(c!"noverifyssl", .bool false)]
/-- `commands/repo.py:125-131` `_getArgsAsStr` -/
def F14_RepoData.args : Out :=
  F13_RepoData.args ++
    [(.tru c!"noverifyssl", [.lit c!" --noverifyssl"])]
/-- `commands/repo.py:117-131` -/
def F14_RepoData.cls : DataCls := { init := F14_RepoData.init, str := (FC6_RepoData.strOut F14_RepoData.args).render, eq := FC6_RepoData.eq }

/-- `commands/repo.py:133-134`: `__init__` is inherited. -/
def RHEL6_RepoData.init : Ns := F14_RepoData.init
/-- `commands/repo.py:133-134` -/
def RHEL6_RepoData.cls : DataCls := { init := RHEL6_RepoData.init, str := (FC6_RepoData.strOut F14_RepoData.args).render, eq := FC6_RepoData.eq }

/-- `commands/repo.py:136-137`: `__init__` is inherited. -/
def F15_RepoData.init : Ns := F14_RepoData.init
/-- `commands/repo.py:136-137` -/
def F15_RepoData.cls : DataCls := { init := F15_RepoData.init, str := (FC6_RepoData.strOut F14_RepoData.args).render, eq := FC6_RepoData.eq }

/-- `commands/repo.py:143-145` `__init__` -/
def F21_RepoData.init : Ns := Ns.updated F15_RepoData.init [(c!"install", .bool false)]
/-- `commands/repo.py:147-153` `_getArgsAsStr` -/
def F21_RepoData.args : Out :=
  F14_RepoData.args ++
    [(.tru c!"install", [.lit c!" --install"])]
/-- `commands/repo.py:139-153` -/
def F21_RepoData.cls : DataCls := { init := F21_RepoData.init, str := (FC6_RepoData.strOut F21_RepoData.args).render, eq := FC6_RepoData.eq }

/-- `commands/repo.py:159-161` `__init__` -/
def F27_RepoData.init : Ns := Ns.updated F21_RepoData.init [(c!"metalink", .bool false)]
/-- `commands/repo.py:163-169` `_getArgsAsStr` -/
def F27_RepoData.args : Out :=
  F21_RepoData.args ++
    [(.tru c!"metalink", [.lit c!" --metalink=", .fld c!"metalink"])]
/-- `commands/repo.py:155-169` -/
def F27_RepoData.cls : DataCls := { init := F27_RepoData.init, str := (FC6_RepoData.strOut F27_RepoData.args).render, eq := FC6_RepoData.eq }

/-- `commands/repo.py:175-179` `__init__` -/
def F30_RepoData.init : Ns := Ns.updated F27_RepoData.init [(c!"sslcacert", .none), (c!"sslclientcert", .none), (c!"sslclientkey", .none)]
/-- `commands/repo.py:181-193` `_getArgsAsStr` -/
def F30_RepoData.args : Out :=
  F27_RepoData.args ++
    [(.tru c!"sslcacert", [.lit c!" --sslcacert=\"", .fld c!"sslcacert", .lit c!"\""]),
    (.tru c!"sslclientcert", [.lit c!" --sslclientcert=\"", .fld c!"sslclientcert", .lit c!"\""]),
    (.tru c!"sslclientkey", [.lit c!" --sslclientkey=\"", .fld c!"sslclientkey", .lit c!"\""])]
/-- `commands/repo.py:171-193` -/
def F30_RepoData.cls : DataCls := { init := F30_RepoData.init, str := (FC6_RepoData.strOut F30_RepoData.args).render, eq := FC6_RepoData.eq }

/-- `commands/repo.py:195-196`: `__init__` is inherited. -/
def RHEL7_RepoData.init : Ns := F21_RepoData.init
/-- `commands/repo.py:195-196` -/
def RHEL7_RepoData.cls : DataCls := { init := RHEL7_RepoData.init, str := (FC6_RepoData.strOut F21_RepoData.args).render, eq := FC6_RepoData.eq }

/-- `commands/repo.py:198-199`: `__init__` is inherited. -/
def RHEL8_RepoData.init : Ns := F30_RepoData.init
/-- `commands/repo.py:198-199` -/
def RHEL8_RepoData.cls : DataCls := { init := RHEL8_RepoData.init, str := (FC6_RepoData.strOut F30_RepoData.args).render, eq := FC6_RepoData.eq }

/-- `commands/repo.py:207-213` `__init__` -/
def FC6_Repo.init : Ns := []
/-- `commands/repo.py:222-273` `_getParser` -/
def FC6_Repo.op : OptParser :=
  OptParser.empty
    |>.add { names := [c!"--name"], required := true }
    |>.add { names := [c!"--baseurl"] }
    |>.add { names := [c!"--mirrorlist"] }
/-- `commands/repo.py:275-296` `parse` -/
def FC6_Repo.parse (k : Info) (args : List Str) : M Ns := do
  let ns ← M.parseArgs k.op args
  let used_options := (k.exclusive.filter (fun o => (ns.getD o.1).truthy)).map (·.2)
  M.failIf (k.urlRequired && !(!used_options.isEmpty)) c!"One of -%(options_list)s options must be specified for repo command."
  M.failIf (decide (used_options.length > 1)) c!"Only one of %(options_list)s options may be specified for repo command."
  let rd := k.dc.init
  let rd := setToObj ns rd
  let x1 ← M.lineno
  let rd := rd.set c!"lineno" (Val.int x1)
  let x2 ← M.dataList
  M.when (x2.any (fun d => k.dc.eq d rd)) (do
    M.warn (.parse c!"A repo with the name %s has already been defined."))
  return rd
/-- `commands/repo.py:201-303` -/
def FC6_Repo.info (dc : DataCls) : Info := { dc := dc, op := FC6_Repo.op, exclusive := [(c!"mirrorlist", c!"--mirrorlist"), (c!"baseurl", c!"--baseurl")] }
/-- `commands/repo.py:201-303` -/
def FC6_Repo.cls (dc : DataCls) : Command := listCmd c!"FC6_Repo" (some 0) FC6_Repo.init dc (FC6_Repo.parse (FC6_Repo.info dc)) (listStr)

/-- `commands/repo.py:305-346`: `__init__` is inherited. -/
def F8_Repo.init : Ns := FC6_Repo.init
/-- `commands/repo.py:316-338` `_getParser` -/
def F8_Repo.op : OptParser :=
  FC6_Repo.op
    |>.add { names := [c!"--cost"], ty := .int }
    |>.add { names := [c!"--excludepkgs"], ty := .comma }
    |>.add { names := [c!"--includepkgs"], ty := .comma }
/-- `commands/repo.py:305-346` -/
def F8_Repo.info (dc : DataCls) : Info := { dc := dc, op := F8_Repo.op, exclusive := [(c!"mirrorlist", c!"--mirrorlist"), (c!"baseurl", c!"--baseurl")] }
/-- `commands/repo.py:305-346` -/
def F8_Repo.cls (dc : DataCls) : Command := listCmd c!"F8_Repo" (some 0) F8_Repo.init dc (FC6_Repo.parse (F8_Repo.info dc)) (listStr)

/-- `commands/repo.py:348-360`: `__init__` is inherited. -/
def F11_Repo.init : Ns := F8_Repo.init
/-- `commands/repo.py:352-360` `_getParser` -/
def F11_Repo.op : OptParser :=
  F8_Repo.op
    |>.add { names := [c!"--ignoregroups"], ty := .bool }
/-- `commands/repo.py:348-360` -/
def F11_Repo.info (dc : DataCls) : Info := { dc := dc, op := F11_Repo.op, exclusive := [(c!"mirrorlist", c!"--mirrorlist"), (c!"baseurl", c!"--baseurl")] }
/-- `commands/repo.py:348-360` -/
def F11_Repo.cls (dc : DataCls) : Command := listCmd c!"F11_Repo" (some 0) F11_Repo.init dc (FC6_Repo.parse (F11_Repo.info dc)) (listStr)

/-- `commands/repo.py:362-377`: `__init__` is inherited. -/
def F13_Repo.init : Ns := F11_Repo.init
/-- `commands/repo.py:366-377` `_getParser` -/
def F13_Repo.op : OptParser :=
  F11_Repo.op
    |>.add { names := [c!"--proxy"] }
/-- `commands/repo.py:362-377` -/
def F13_Repo.info (dc : DataCls) : Info := { dc := dc, op := F13_Repo.op, exclusive := [(c!"mirrorlist", c!"--mirrorlist"), (c!"baseurl", c!"--baseurl")] }
/-- `commands/repo.py:362-377` -/
def F13_Repo.cls (dc : DataCls) : Command := listCmd c!"F13_Repo" (some 0) F13_Repo.init dc (FC6_Repo.parse (F13_Repo.info dc)) (listStr)

/-- `commands/repo.py:379-391`: `__init__` is inherited. -/
def F14_Repo.init : Ns := F13_Repo.init
/-- `commands/repo.py:383-391` `_getParser` -/
def F14_Repo.op : OptParser :=
  F13_Repo.op
    |>.add { names := [c!"--noverifyssl"], kind := .storeConst, nargs := .n 0, const := .bool true, default := some (.bool false) }
/-- `commands/repo.py:379-391` -/
def F14_Repo.info (dc : DataCls) : Info := { dc := dc, op := F14_Repo.op, exclusive := [(c!"mirrorlist", c!"--mirrorlist"), (c!"baseurl", c!"--baseurl")] }
/-- `commands/repo.py:379-391` -/
def F14_Repo.cls (dc : DataCls) : Command := listCmd c!"F14_Repo" (some 0) F14_Repo.init dc (FC6_Repo.parse (F14_Repo.info dc)) (listStr)

/-- `commands/repo.py:393-394`: `__init__` is inherited. -/
def RHEL6_Repo.init : Ns := F14_Repo.init
/-- `commands/repo.py:393-394` -/
def RHEL6_Repo.info (dc : DataCls) : Info := { dc := dc, op := F14_Repo.op, exclusive := [(c!"mirrorlist", c!"--mirrorlist"), (c!"baseurl", c!"--baseurl")] }
/-- `commands/repo.py:393-394` -/
def RHEL6_Repo.cls (dc : DataCls) : Command := listCmd c!"RHEL6_Repo" (some 0) RHEL6_Repo.init dc (FC6_Repo.parse (RHEL6_Repo.info dc)) (listStr)

/-- `commands/repo.py:396-413`: `__init__` is inherited. -/
def F15_Repo.init : Ns := F14_Repo.init
/-- `commands/repo.py:402-413` `_getParser` -/
def F15_Repo.op : OptParser := F14_Repo.op
/-- `commands/repo.py:396-413` -/
def F15_Repo.info (dc : DataCls) : Info := { dc := dc, op := F15_Repo.op, exclusive := [(c!"mirrorlist", c!"--mirrorlist"), (c!"baseurl", c!"--baseurl")], urlRequired := false }
/-- `commands/repo.py:396-413` -/
def F15_Repo.cls (dc : DataCls) : Command := listCmd c!"F15_Repo" (some 0) F15_Repo.init dc (FC6_Repo.parse (F15_Repo.info dc)) (listStr)

/-- `commands/repo.py:415-425`: `__init__` is inherited. -/
def F21_Repo.init : Ns := F15_Repo.init
/-- `commands/repo.py:419-425` `_getParser` -/
def F21_Repo.op : OptParser :=
  F15_Repo.op
    |>.add { names := [c!"--install"], kind := .storeConst, nargs := .n 0, const := .bool true, default := some (.bool false) }
/-- `commands/repo.py:415-425` -/
def F21_Repo.info (dc : DataCls) : Info := { dc := dc, op := F21_Repo.op, exclusive := [(c!"mirrorlist", c!"--mirrorlist"), (c!"baseurl", c!"--baseurl")], urlRequired := false }
/-- `commands/repo.py:415-425` -/
def F21_Repo.cls (dc : DataCls) : Command := listCmd c!"F21_Repo" (some 0) F21_Repo.init dc (FC6_Repo.parse (F21_Repo.info dc)) (listStr)

/-- `commands/repo.py:431-433` `__init__` -/
def F27_Repo.init : Ns := F21_Repo.init
/-- `commands/repo.py:435-453` `_getParser` -/
def F27_Repo.op : OptParser :=
  F21_Repo.op
    |>.add { names := [c!"--metalink"] }
/-- `commands/repo.py:427-453` -/
def F27_Repo.info (dc : DataCls) : Info := { dc := dc, op := F27_Repo.op, exclusive := [(c!"mirrorlist", c!"--mirrorlist"), (c!"baseurl", c!"--baseurl"), (c!"metalink", c!"--metalink")], urlRequired := false }
/-- `commands/repo.py:427-453` -/
def F27_Repo.cls (dc : DataCls) : Command := listCmd c!"F27_Repo" (some 0) F27_Repo.init dc (FC6_Repo.parse (F27_Repo.info dc)) (listStr)

/-- `commands/repo.py:455-482`: `__init__` is inherited. -/
def F30_Repo.init : Ns := F27_Repo.init
/-- `commands/repo.py:459-482` `_getParser` -/
def F30_Repo.op : OptParser :=
  F27_Repo.op
    |>.add { names := [c!"--sslcacert"] }
    |>.add { names := [c!"--sslclientcert"] }
    |>.add { names := [c!"--sslclientkey"] }
/-- `commands/repo.py:455-482` -/
def F30_Repo.info (dc : DataCls) : Info := { dc := dc, op := F30_Repo.op, exclusive := [(c!"mirrorlist", c!"--mirrorlist"), (c!"baseurl", c!"--baseurl"), (c!"metalink", c!"--metalink")], urlRequired := false }
/-- `commands/repo.py:455-482` -/
def F30_Repo.cls (dc : DataCls) : Command := listCmd c!"F30_Repo" (some 0) F30_Repo.init dc (FC6_Repo.parse (F30_Repo.info dc)) (listStr)

/-- `commands/repo.py:484-491`: `__init__` is inherited. -/
def F33_Repo.init : Ns := F30_Repo.init
/-- `commands/repo.py:488-491` `_getParser` -/
def F33_Repo.op : OptParser :=
  F30_Repo.op
    |>.add { names := [c!"--ignoregroups"], ty := .bool, deprecated := true }
/-- `commands/repo.py:484-491` -/
def F33_Repo.info (dc : DataCls) : Info := { dc := dc, op := F33_Repo.op, exclusive := [(c!"mirrorlist", c!"--mirrorlist"), (c!"baseurl", c!"--baseurl"), (c!"metalink", c!"--metalink")], urlRequired := false }
/-- `commands/repo.py:484-491` -/
def F33_Repo.cls (dc : DataCls) : Command := listCmd c!"F33_Repo" (some 0) F33_Repo.init dc (FC6_Repo.parse (F33_Repo.info dc)) (listStr)

/-- `commands/repo.py:493-494`: `__init__` is inherited. -/
def RHEL7_Repo.init : Ns := F21_Repo.init
/-- `commands/repo.py:493-494` -/
def RHEL7_Repo.info (dc : DataCls) : Info := { dc := dc, op := F21_Repo.op, exclusive := [(c!"mirrorlist", c!"--mirrorlist"), (c!"baseurl", c!"--baseurl")], urlRequired := false }
/-- `commands/repo.py:493-494` -/
def RHEL7_Repo.cls (dc : DataCls) : Command := listCmd c!"RHEL7_Repo" (some 0) RHEL7_Repo.init dc (FC6_Repo.parse (RHEL7_Repo.info dc)) (listStr)

/-- `commands/repo.py:496-497`: `__init__` is inherited. -/
def RHEL8_Repo.init : Ns := F30_Repo.init
/-- `commands/repo.py:496-497` -/
def RHEL8_Repo.info (dc : DataCls) : Info := { dc := dc, op := F30_Repo.op, exclusive := [(c!"mirrorlist", c!"--mirrorlist"), (c!"baseurl", c!"--baseurl"), (c!"metalink", c!"--metalink")], urlRequired := false }
/-- `commands/repo.py:496-497` -/
def RHEL8_Repo.cls (dc : DataCls) : Command := listCmd c!"RHEL8_Repo" (some 0) RHEL8_Repo.init dc (FC6_Repo.parse (RHEL8_Repo.info dc)) (listStr)

end Ks.Cmd
