import Verif.Commands.Base
/-!
# `/repo/pykickstart/commands/timesource.py`

Written by `scripts/gen_commands.py` from the text of that file; see there and
`Verif/Commands/Base.lean` for how a class is represented.
-/
namespace Ks.Cmd

/-- `commands/timesource.py:29-34` `__init__` -/
def F33_TimesourceData.init : Ns := [(c!"lineno", .int 0), (c!"ntp_server", .str []), (c!"ntp_pool", .str []), (c!"ntp_disable", .bool false), (c!"nts", .bool false)]
/-- `commands/timesource.py:62-74` `_getArgsAsStr` -/
def F33_TimesourceData.args : Out :=
  [(.tru c!"ntp_server", [.lit c!" --ntp-server=", .fld c!"ntp_server"]),
    (.tru c!"ntp_pool", [.lit c!" --ntp-pool=", .fld c!"ntp_pool"]),
    (.tru c!"nts", [.lit c!" --nts"]),
    (.tru c!"ntp_disable", [.lit c!" --ntp-disable"])]
/-- `commands/timesource.py:53-60` `__str__` -/
def F33_TimesourceData.strOut (args : Out) : Out :=
  [(Out.anyCond args, [.lit c!"timesource"])] ++
    Out.guard (Out.anyCond args) args ++
    [(Out.anyCond args, [.lit c!"\n"])]
/-- `commands/timesource.py:36-48` `__eq__` -/
def F33_TimesourceData.eq : Ns → Ns → Bool := fun self y =>
  if (self.getD c!"ntp_server").truthy then sameAttrs [c!"ntp_server", c!"nts"] self y
  else if (self.getD c!"ntp_pool").truthy then sameAttrs [c!"ntp_pool", c!"nts"] self y
  else true
/-- `commands/timesource.py:25-74` -/
def F33_TimesourceData.cls : DataCls := { init := F33_TimesourceData.init, str := (F33_TimesourceData.strOut F33_TimesourceData.args).render, eq := F33_TimesourceData.eq }

/-- `commands/timesource.py:81-87` `__init__` -/
def F33_Timesource.init : Ns := []
/-- `commands/timesource.py:96-123` `_getParser` -/
def F33_Timesource.op : OptParser :=
  OptParser.empty
    |>.add { names := [c!"--ntp-server"] }
    |>.add { names := [c!"--ntp-pool"] }
    |>.add { names := [c!"--ntp-disable"], kind := .storeConst, nargs := .n 0, const := .bool true, default := some (.bool false) }
    |>.add { names := [c!"--nts"], dest := some c!"nts", kind := .storeConst, nargs := .n 0, const := .bool true, default := some (.bool false) }
/-- `commands/timesource.py:125-141` `parse` -/
def F33_Timesource.parse (k : Info) (args : List Str) : M Ns := do
  let td := k.dc.init
  let ns ← M.parseArgs k.op args
  let td := setToObj ns td
  let x1 ← M.lineno
  let td := td.set c!"lineno" (Val.int x1)
  let used_options := (k.exclusive.filter (fun o => (ns.getD o.1).truthy)).map (·.2)
  M.failIf (decide (used_options.length = 0)) c!"One of -%(options_list)s options must be specified for timesource command."
  M.failIf (decide (used_options.length > 1)) c!"Only one of %(options_list)s options may be specified for timesource command."
  return td
/-- `commands/timesource.py:77-148` -/
def F33_Timesource.info (dc : DataCls) : Info := { dc := dc, op := F33_Timesource.op, exclusive := [(c!"ntp_server", c!"--ntp-server"), (c!"ntp_pool", c!"--ntp-pool"), (c!"ntp_disable", c!"--ntp-disable")] }
/-- `commands/timesource.py:77-148` -/
def F33_Timesource.cls (dc : DataCls) : Command := listCmd c!"F33_Timesource" (some 0) F33_Timesource.init dc (F33_Timesource.parse (F33_Timesource.info dc)) (listStr)

end Ks.Cmd
