import Verif.Commands.Base
/-!
# `/repo/pykickstart/commands/rootpw.py`

Written by `scripts/gen_commands.py` from the text of that file; see there and
`Verif/Commands/Base.lean` for how a class is represented.
-/
namespace Ks.Cmd

/-- `commands/rootpw.py:33-38` `__init__` -/
def FC3_RootPw.init : Ns := [(c!"isCrypted", .bool false), (c!"password", .str [])]
/-- `commands/rootpw.py:63-79` `_getParser` -/
def FC3_RootPw.op : OptParser :=
  OptParser.empty
    |>.add { names := [c!"password"], nargs := .opt }
    |>.add { names := [c!"--iscrypted"], dest := some c!"isCrypted", kind := .storeConst, nargs := .n 0, const := .bool true, default := some (.bool false) }
/-- `commands/rootpw.py:40-46` `_getArgsAsStr` -/
def FC3_RootPw.args : Out :=
  [(.tru c!"isCrypted", [.lit c!" --iscrypted"])]
/-- `commands/rootpw.py:48-61` `__str__` -/
def FC3_RootPw.strOut (args : Out) : Out :=
  [(.tru c!"password", [.lit c!"# Root password\nrootpw"])] ++
    Out.guard (.tru c!"password") args ++
    [(.tru c!"password", [.lit c!" "]),
    (.and (.tru c!"password") (.and (.not (.and (.tru c!"password") (.not (.contains c!"password" '#')))) (.and (.tru c!"password") (.contains c!"password" '#'))), [.lit c!"\"", .fld c!"password", .lit c!"\""]),
    (.and (.tru c!"password") (.and (.tru c!"password") (.not (.contains c!"password" '#'))), [.fld c!"password"]),
    (.tru c!"password", [.lit c!"\n"])]
/-- `commands/rootpw.py:81-91` `parse` -/
def FC3_RootPw.parse (k : Info) (args : List Str) : M Unit := do
  let r ← M.parseKnown k.op args
  let ns := r.1
  let extra := r.2
  M.failIf (!((ns.getD c!"password").truthy)) c!"A single argument is expected for the %s command"
  M.failIf (!extra.isEmpty) c!"Unexpected arguments to %(command)s command: %(options)s"
  M.setToSelf ns
/-- `commands/rootpw.py:29-91` -/
def FC3_RootPw.info : Info := { op := FC3_RootPw.op }
/-- `commands/rootpw.py:29-91` -/
def FC3_RootPw.cls : Command := plainCmd c!"FC3_RootPw" (some 0) FC3_RootPw.init (FC3_RootPw.parse FC3_RootPw.info) ((FC3_RootPw.strOut FC3_RootPw.args).render)

/-- `commands/rootpw.py:97-99` `__init__` -/
def F8_RootPw.init : Ns := Ns.updated FC3_RootPw.init [(c!"lock", .bool false)]
/-- `commands/rootpw.py:112-124` `_getParser` -/
def F8_RootPw.op : OptParser :=
  FC3_RootPw.op
    |>.add { names := [c!"--lock"], kind := .storeConst, nargs := .n 0, const := .bool true, default := some (.bool false) }
    |>.add { names := [c!"--plaintext"], dest := some c!"isCrypted", kind := .storeConst, nargs := .n 0, const := .bool false, default := some (.bool true) }
/-- `commands/rootpw.py:101-110` `_getArgsAsStr` -/
def F8_RootPw.args : Out :=
  FC3_RootPw.args ++
    [(.tru c!"lock", [.lit c!" --lock"]),
    (.not (.tru c!"isCrypted"), [.lit c!" --plaintext"])]
/-- `commands/rootpw.py:93-124` -/
def F8_RootPw.info : Info := { op := F8_RootPw.op }
/-- `commands/rootpw.py:93-124` -/
def F8_RootPw.cls : Command := plainCmd c!"F8_RootPw" (some 0) F8_RootPw.init (FC3_RootPw.parse F8_RootPw.info) ((FC3_RootPw.strOut F8_RootPw.args).render)

/-- `commands/rootpw.py:126-148`: `__init__` is inherited. -/
def F18_RootPw.init : Ns := F8_RootPw.init
/-- `commands/rootpw.py:130-136` `__str__` -/
def F18_RootPw.strOut (args : Out) : Out :=
  Out.guard (.not (.and (.not (.or (.tru c!"password") (.and (.tru c!"password") (.and (.not (.and (.tru c!"password") (.not (.contains c!"password" '#')))) (.and (.tru c!"password") (.contains c!"password" '#')))))) (.tru c!"lock"))) (FC3_RootPw.strOut args) ++
    [(.and (.not (.or (.tru c!"password") (.and (.tru c!"password") (.and (.not (.and (.tru c!"password") (.not (.contains c!"password" '#')))) (.and (.tru c!"password") (.contains c!"password" '#')))))) (.tru c!"lock"), [.lit c!"#Root password\nrootpw --lock\n"])]
/-- `commands/rootpw.py:138-148` `parse` -/
def F18_RootPw.parse (k : Info) (args : List Str) : M Unit := do
  let r ← M.parseKnown k.op args
  let ns := r.1
  let extra := r.2
  M.failIf (!((ns.getD c!"password").truthy || (ns.getD c!"lock").truthy)) c!"A single argument is expected for the %s command"
  M.failIf (!extra.isEmpty) c!"Unexpected arguments to %(command)s command: %(options)s"
  M.setToSelf ns
/-- `commands/rootpw.py:126-148` -/
def F18_RootPw.info : Info := { op := F8_RootPw.op }
/-- `commands/rootpw.py:126-148` -/
def F18_RootPw.cls : Command := plainCmd c!"F18_RootPw" (some 0) F18_RootPw.init (F18_RootPw.parse F18_RootPw.info) ((F18_RootPw.strOut F8_RootPw.args).render)

end Ks.Cmd
