import Verif.Commands.Base
/-!
# `/repo/pykickstart/commands/url.py`

Written by `scripts/gen_commands.py` from the text of that file; see there and
`Verif/Commands/Base.lean` for how a class is represented.
-/
namespace Ks.Cmd

/-- `commands/url.py:31-35` `__init__` -/
def FC3_Url.init : Ns := [(c!"url", .none)]
/-- `commands/url.py:54-61` `_getParser` -/
def FC3_Url.op : OptParser :=
  OptParser.empty
    |>.add { names := [c!"--url"], required := true }
/-- `commands/url.py:46-52` `__str__` -/
def FC3_Url.strOut : Out :=
  [(.tru c!"seen", [.lit c!"# Use network installation\nurl --url=\"", .fld c!"url", .lit c!"\"\n"])]
/-- `commands/url.py:63-66` `parse` -/
def FC3_Url.parse (k : Info) (args : List Str) : M Unit := do
  let ns ← M.parseArgs k.op args
  M.setToSelf ns
/-- `commands/url.py:27-66` -/
def FC3_Url.info : Info := { op := FC3_Url.op }
/-- `commands/url.py:27-66` -/
def FC3_Url.cls : Command := plainCmd c!"FC3_Url" (some 0) FC3_Url.init (FC3_Url.parse FC3_Url.info) (FC3_Url.strOut.render)

/-- `commands/url.py:72-74` `__init__` -/
def F13_Url.init : Ns := Ns.updated FC3_Url.init [(c!"proxy", .str [])]
/-- `commands/url.py:91-101` `_getParser` -/
def F13_Url.op : OptParser :=
  FC3_Url.op
    |>.add { names := [c!"--proxy"] }
/-- `commands/url.py:82-89` `__str__` -/
def F13_Url.strText (self : Ns) : Str :=
  let retval := (FC3_Url.strOut).render self
  let retval :=
    if (Cond.tru c!"seen").eval self && (Cond.tru c!"proxy").eval self then
      let retval := strip retval
      let retval := retval ++ c!" --proxy=\"" ++ (self.getD c!"proxy").fmt ++ c!"\"\n"
      retval
    else retval
  retval
/-- `commands/url.py:68-101` -/
def F13_Url.info : Info := { op := F13_Url.op }
/-- `commands/url.py:68-101` -/
def F13_Url.cls : Command := plainCmd c!"F13_Url" (some 0) F13_Url.init (FC3_Url.parse F13_Url.info) (F13_Url.strText)

/-- `commands/url.py:107-109` `__init__` -/
def F14_Url.init : Ns := Ns.updated F13_Url.init [(c!"noverifyssl", .bool false)]
/-- `commands/url.py:126-134` `_getParser` -/
def F14_Url.op : OptParser :=
  F13_Url.op
    |>.add { names := [c!"--noverifyssl"], kind := .storeConst, nargs := .n 0, const := .bool true, default := some (.bool false) }
/-- `commands/url.py:117-124` `__str__` -/
def F14_Url.strText (self : Ns) : Str :=
  let retval := F13_Url.strText self
  let retval :=
    if (Cond.tru c!"seen").eval self && (Cond.tru c!"noverifyssl").eval self then
      let retval := strip retval
      let retval := retval ++ c!" --noverifyssl\n"
      retval
    else retval
  retval
/-- `commands/url.py:103-134` -/
def F14_Url.info : Info := { op := F14_Url.op }
/-- `commands/url.py:103-134` -/
def F14_Url.cls : Command := plainCmd c!"F14_Url" (some 0) F14_Url.init (FC3_Url.parse F14_Url.info) (F14_Url.strText)

/-- `commands/url.py:136-137`: `__init__` is inherited. -/
def RHEL6_Url.init : Ns := F14_Url.init
/-- `commands/url.py:136-137` -/
def RHEL6_Url.info : Info := { op := F14_Url.op }
/-- `commands/url.py:136-137` -/
def RHEL6_Url.cls : Command := plainCmd c!"RHEL6_Url" (some 0) RHEL6_Url.init (FC3_Url.parse RHEL6_Url.info) (F14_Url.strText)

/-- `commands/url.py:143-147` `__init__` -/
def F18_Url.init : Ns := Ns.updated F14_Url.init [(c!"mirrorlist", .none)]
/-- `commands/url.py:175-182` `_getParser` -/
def F18_Url.op : OptParser :=
  F14_Url.op
    |>.add { names := [c!"--url"] }
    |>.add { names := [c!"--mirrorlist"] }
/-- `commands/url.py:155-173` `__str__` -/
def F18_Url.strOut : Out :=
  [(.tru c!"seen", [.lit c!"# Use network installation\n"]),
    (.and (.tru c!"seen") (.tru c!"url"), [.lit c!"url --url=\"", .fld c!"url", .lit c!"\""]),
    (.and (.tru c!"seen") (.and (.not (.tru c!"url")) (.tru c!"mirrorlist")), [.lit c!"url --mirrorlist=\"", .fld c!"mirrorlist", .lit c!"\""]),
    (.and (.tru c!"seen") (.tru c!"proxy"), [.lit c!" --proxy=\"", .fld c!"proxy", .lit c!"\""]),
    (.and (.tru c!"seen") (.tru c!"noverifyssl"), [.lit c!" --noverifyssl"]),
    (.tru c!"seen", [.lit c!"\n"])]
/-- `commands/url.py:184-198` `parse` -/
def F18_Url.parse (k : Info) (args : List Str) : M Unit := do
  FC3_Url.parse k args
  let ns ← M.parseArgs k.op args
  let used_options := (k.exclusive.filter (fun o => (ns.getD o.1).truthy)).map (·.2)
  M.failIf (decide (used_options.length = 0)) c!"One of -%(options_list)s options must be specified for url command."
  M.failIf (decide (used_options.length > 1)) c!"Only one of %(options_list)s options may be specified for url command."
/-- `commands/url.py:139-198` -/
def F18_Url.info : Info := { op := F18_Url.op, exclusive := [(c!"mirrorlist", c!"--mirrorlist"), (c!"url", c!"--url")] }
/-- `commands/url.py:139-198` -/
def F18_Url.cls : Command := plainCmd c!"F18_Url" (some 0) F18_Url.init (F18_Url.parse F18_Url.info) (F18_Url.strOut.render)

/-- `commands/url.py:204-207` `__init__` -/
def F27_Url.init : Ns := Ns.updated F18_Url.init [(c!"metalink", .none)]
/-- `commands/url.py:237-245` `_getParser` -/
def F27_Url.op : OptParser :=
  F18_Url.op
    |>.add { names := [c!"--url"] }
    |>.add { names := [c!"--metalink"] }
/-- `commands/url.py:215-235` `__str__` -/
def F27_Url.strOut : Out :=
  [(.tru c!"seen", [.lit c!"# Use network installation\n"]),
    (.and (.tru c!"seen") (.tru c!"url"), [.lit c!"url --url=\"", .fld c!"url", .lit c!"\""]),
    (.and (.tru c!"seen") (.and (.not (.tru c!"url")) (.tru c!"mirrorlist")), [.lit c!"url --mirrorlist=\"", .fld c!"mirrorlist", .lit c!"\""]),
    (.and (.tru c!"seen") (.and (.and (.not (.tru c!"url")) (.not (.tru c!"mirrorlist"))) (.tru c!"metalink")), [.lit c!"url --metalink=\"", .fld c!"metalink", .lit c!"\""]),
    (.and (.tru c!"seen") (.tru c!"proxy"), [.lit c!" --proxy=\"", .fld c!"proxy", .lit c!"\""]),
    (.and (.tru c!"seen") (.tru c!"noverifyssl"), [.lit c!" --noverifyssl"]),
    (.tru c!"seen", [.lit c!"\n"])]
/-- `commands/url.py:200-245` -/
def F27_Url.info : Info := { op := F27_Url.op, exclusive := [(c!"mirrorlist", c!"--mirrorlist"), (c!"url", c!"--url"), (c!"metalink", c!"--metalink")] }
/-- `commands/url.py:200-245` -/
def F27_Url.cls : Command := plainCmd c!"F27_Url" (some 0) F27_Url.init (F18_Url.parse F27_Url.info) (F27_Url.strOut.render)

/-- `commands/url.py:251-255` `__init__` -/
def F30_Url.init : Ns := Ns.updated F27_Url.init [(c!"sslcacert", .none), (c!"sslclientcert", .none), (c!"sslclientkey", .none)]
/-- `commands/url.py:275-298` `_getParser` -/
def F30_Url.op : OptParser :=
  F27_Url.op
    |>.add { names := [c!"--sslcacert"] }
    |>.add { names := [c!"--sslclientcert"] }
    |>.add { names := [c!"--sslclientkey"] }
/-- `commands/url.py:257-273` `__str__` -/
def F30_Url.strText (self : Ns) : Str :=
  let retval := (F27_Url.strOut).render self
  if (Cond.not (.tru c!"seen")).eval self then
    retval
  else
    let retval := retval.dropLast
    let retval :=
      if (Cond.tru c!"sslcacert").eval self then
        let retval := retval ++ c!" --sslcacert=\"" ++ (self.getD c!"sslcacert").fmt ++ c!"\""
        retval
      else retval
    let retval :=
      if (Cond.tru c!"sslclientcert").eval self then
        let retval := retval ++ c!" --sslclientcert=\"" ++ (self.getD c!"sslclientcert").fmt ++ c!"\""
        retval
      else retval
    let retval :=
      if (Cond.tru c!"sslclientkey").eval self then
        let retval := retval ++ c!" --sslclientkey=\"" ++ (self.getD c!"sslclientkey").fmt ++ c!"\""
        retval
      else retval
    retval ++ c!"\n"
/-- `commands/url.py:247-298` -/
def F30_Url.info : Info := { op := F30_Url.op, exclusive := [(c!"mirrorlist", c!"--mirrorlist"), (c!"url", c!"--url"), (c!"metalink", c!"--metalink")] }
/-- `commands/url.py:247-298` -/
def F30_Url.cls : Command := plainCmd c!"F30_Url" (some 0) F30_Url.init (F18_Url.parse F30_Url.info) (F30_Url.strText)

/-- `commands/url.py:300-301`: `__init__` is inherited. -/
def RHEL8_Url.init : Ns := F30_Url.init
/-- `commands/url.py:300-301` -/
def RHEL8_Url.info : Info := { op := F30_Url.op, exclusive := [(c!"mirrorlist", c!"--mirrorlist"), (c!"url", c!"--url"), (c!"metalink", c!"--metalink")] }
/-- `commands/url.py:300-301` -/
def RHEL8_Url.cls : Command := plainCmd c!"RHEL8_Url" (some 0) RHEL8_Url.init (F18_Url.parse RHEL8_Url.info) (F30_Url.strText)

end Ks.Cmd
