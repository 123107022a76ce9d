import Verif.Commands.Base
/-!
# `/repo/pykickstart/commands/module.py`

Written by `scripts/gen_commands.py` from the text of that file; see there and
`Verif/Commands/Base.lean` for how a class is represented.
-/
namespace Ks.Cmd

/-- `commands/module.py:33-36` `__init__` -/
def F29_ModuleData.init : Ns := [(c!"lineno", .int 0), (c!"name", .str []), (c!"stream", .str [])]
/-- `commands/module.py:56-61` `_getArgsAsStr` -/
def F29_ModuleData.args : Out :=
  [(.tt, [.lit c!" --name=", .fld c!"name"]),
    (.tru c!"stream", [.lit c!" --stream=", .fld c!"stream"])]
/-- `commands/module.py:47-54` `__str__` -/
def F29_ModuleData.strOut (args : Out) : Out :=
  [(Out.anyCond args, [.lit c!"module"])] ++
    Out.guard (Out.anyCond args) args ++
    [(Out.anyCond args, [.lit c!"\n"])]
/-- `commands/module.py:38-41` `__eq__` -/
def F29_ModuleData.eq : Ns → Ns → Bool := sameAttrs [c!"name", c!"stream"]
/-- `commands/module.py:29-61` -/
def F29_ModuleData.cls : DataCls := { init := F29_ModuleData.init, str := (F29_ModuleData.strOut F29_ModuleData.args).render, eq := F29_ModuleData.eq }

/-- `commands/module.py:67-69` `__init__` -/
def RHEL8_ModuleData.init : Ns := Ns.updated F29_ModuleData.init [(c!"enable", .bool true)]
/-- `commands/module.py:71-78` `_getArgsAsStr` -/
def RHEL8_ModuleData.args : Out :=
  F29_ModuleData.args ++
    [(.not (.tru c!"enable"), [.lit c!" --disable"])]
/-- `commands/module.py:63-78` -/
def RHEL8_ModuleData.cls : DataCls := { init := RHEL8_ModuleData.init, str := (F29_ModuleData.strOut RHEL8_ModuleData.args).render, eq := F29_ModuleData.eq }

/-- `commands/module.py:80-82`: `__init__` is inherited. -/
def F31_ModuleData.init : Ns := RHEL8_ModuleData.init
/-- `commands/module.py:80-82` -/
def F31_ModuleData.cls : DataCls := { init := F31_ModuleData.init, str := (F29_ModuleData.strOut RHEL8_ModuleData.args).render, eq := F29_ModuleData.eq }

/-- `commands/module.py:88-92` `__init__` -/
def F29_Module.init : Ns := []
/-- `commands/module.py:102-131` `_getParser` -/
def F29_Module.op : OptParser :=
  OptParser.empty
    |>.add { names := [c!"--name"], required := true }
    |>.add { names := [c!"--stream"] }
/-- `commands/module.py:133-144` `parse` -/
def F29_Module.parse (k : Info) (args : List Str) : M Ns := do
  let r ← M.parseKnown k.op args
  let ns := r.1
  let extra := r.2
  M.failIf (decide (extra.length > 0)) c!"The enable module command does not take position arguments!"
  let enable_module_data := k.dc.init
  let enable_module_data := setToObj ns enable_module_data
  let x1 ← M.lineno
  let enable_module_data := enable_module_data.set c!"lineno" (Val.int x1)
  return enable_module_data
/-- `commands/module.py:84-151` -/
def F29_Module.info (dc : DataCls) : Info := { dc := dc, op := F29_Module.op }
/-- `commands/module.py:84-151` -/
def F29_Module.cls (dc : DataCls) : Command := listCmd c!"F29_Module" (some 0) F29_Module.init dc (F29_Module.parse (F29_Module.info dc)) (listStr)

/-- `commands/module.py:153-163`: `__init__` is inherited. -/
def RHEL8_Module.init : Ns := F29_Module.init
/-- `commands/module.py:157-163` `_getParser` -/
def RHEL8_Module.op : OptParser :=
  F29_Module.op
    |>.add { names := [c!"--disable"], dest := some c!"enable", kind := .storeConst, nargs := .n 0, const := .bool false, default := some (.bool true) }
/-- `commands/module.py:153-163` -/
def RHEL8_Module.info (dc : DataCls) : Info := { dc := dc, op := RHEL8_Module.op }
/-- `commands/module.py:153-163` -/
def RHEL8_Module.cls (dc : DataCls) : Command := listCmd c!"RHEL8_Module" (some 0) RHEL8_Module.init dc (F29_Module.parse (RHEL8_Module.info dc)) (listStr)

/-- `commands/module.py:165-167`: `__init__` is inherited. -/
def F31_Module.init : Ns := RHEL8_Module.init
/-- `commands/module.py:165-167` -/
def F31_Module.info (dc : DataCls) : Info := { dc := dc, op := RHEL8_Module.op }
/-- `commands/module.py:165-167` -/
def F31_Module.cls (dc : DataCls) : Command := listCmd c!"F31_Module" (some 0) F31_Module.init dc (F29_Module.parse (F31_Module.info dc)) (listStr)

end Ks.Cmd
