import Verif.Commands.Base
/-!
# `/repo/pykickstart/commands/zfcp.py`

Written by `scripts/gen_commands.py` from the text of that file; see there and
`Verif/Commands/Base.lean` for how a class is represented.
-/
namespace Ks.Cmd

/-- `commands/zfcp.py:32-38` `__init__` -/
def FC3_ZFCPData.init : Ns := [(c!"lineno", .int 0), (c!"devnum", .str []), (c!"wwpn", .str []), (c!"fcplun", .str []), (c!"scsiid", .str []), (c!"scsilun", .str [])]
/-- `commands/zfcp.py:51-66` `__str__` -/
def FC3_ZFCPData.strOut : Out :=
  [(.tt, [.lit c!"zfcp"]),
    (.tru c!"devnum", [.lit c!" --devnum=", .fld c!"devnum"]),
    (.tru c!"wwpn", [.lit c!" --wwpn=", .fld c!"wwpn"]),
    (.tru c!"fcplun", [.lit c!" --fcplun=", .fld c!"fcplun"]),
    (.and (.has c!"scsiid") (.tru c!"scsiid"), [.lit c!" --scsiid=", .fld c!"scsiid"]),
    (.and (.has c!"scsilun") (.tru c!"scsilun"), [.lit c!" --scsilun=", .fld c!"scsilun"]),
    (.tt, [.lit c!"\n"])]
/-- `commands/zfcp.py:40-46` `__eq__` -/
def FC3_ZFCPData.eq : Ns → Ns → Bool := sameAttrs [c!"devnum", c!"wwpn", c!"fcplun", c!"scsiid", c!"scsilun"]
/-- `commands/zfcp.py:28-66` -/
def FC3_ZFCPData.cls : DataCls := { init := FC3_ZFCPData.init, str := FC3_ZFCPData.strOut.render, eq := FC3_ZFCPData.eq }

/-- `commands/zfcp.py:72-74` `__init__` -/
def F12_ZFCPData.init : Ns := Ns.without (FC3_ZFCPData.init) [c!"scsiid", c!"scsilun"]
/-- `commands/zfcp.py:76-81` `__eq__` -/
def F12_ZFCPData.eq : Ns → Ns → Bool := sameAttrs [c!"devnum", c!"wwpn", c!"fcplun"]
/-- `commands/zfcp.py:68-81` -/
def F12_ZFCPData.cls : DataCls := { init := F12_ZFCPData.init, str := FC3_ZFCPData.strOut.render, eq := F12_ZFCPData.eq }

/-- `commands/zfcp.py:83-84`: `__init__` is inherited. -/
def F14_ZFCPData.init : Ns := F12_ZFCPData.init
/-- `commands/zfcp.py:83-84` -/
def F14_ZFCPData.cls : DataCls := { init := F14_ZFCPData.init, str := FC3_ZFCPData.strOut.render, eq := F12_ZFCPData.eq }

/-- `commands/zfcp.py:90-94` `__init__` -/
def FC3_ZFCP.init : Ns := []
/-- `commands/zfcp.py:103-110` `_getParser` -/
def FC3_ZFCP.op : OptParser :=
  OptParser.empty
    |>.add { names := [c!"--devnum"], required := true }
    |>.add { names := [c!"--fcplun"], required := true }
    |>.add { names := [c!"--scsiid"], required := true }
    |>.add { names := [c!"--scsilun"], required := true }
    |>.add { names := [c!"--wwpn"], required := true }
/-- `commands/zfcp.py:112-122` `parse` -/
def FC3_ZFCP.parse (k : Info) (args : List Str) : M Ns := do
  let zd := k.dc.init
  let ns ← M.parseArgs k.op args
  let zd := setToObj ns zd
  let x1 ← M.lineno
  let zd := zd.set c!"lineno" (Val.int x1)
  let x2 ← M.dataList
  M.when (x2.any (fun d => k.dc.eq d zd)) (do
    M.warn (.parse c!"A zfcp with this information has already been defined."))
  return zd
/-- `commands/zfcp.py:86-129` -/
def FC3_ZFCP.info (dc : DataCls) : Info := { dc := dc, op := FC3_ZFCP.op }
/-- `commands/zfcp.py:86-129` -/
def FC3_ZFCP.cls (dc : DataCls) : Command := listCmd c!"FC3_ZFCP" (some 71) FC3_ZFCP.init dc (FC3_ZFCP.parse (FC3_ZFCP.info dc)) (listStr)

/-- `commands/zfcp.py:135-137` `__init__` -/
def F12_ZFCP.init : Ns := FC3_ZFCP.init
/-- `commands/zfcp.py:139-143` `_getParser` -/
def F12_ZFCP.op : OptParser :=
  FC3_ZFCP.op
    |>.add { names := [c!"--scsiid"], deprecated := true }
    |>.add { names := [c!"--scsilun"], deprecated := true }
/-- `commands/zfcp.py:131-143` -/
def F12_ZFCP.info (dc : DataCls) : Info := { dc := dc, op := F12_ZFCP.op }
/-- `commands/zfcp.py:131-143` -/
def F12_ZFCP.cls (dc : DataCls) : Command := listCmd c!"F12_ZFCP" (some 71) F12_ZFCP.init dc (FC3_ZFCP.parse (F12_ZFCP.info dc)) (listStr)

/-- `commands/zfcp.py:145-153`: `__init__` is inherited. -/
def F14_ZFCP.init : Ns := F12_ZFCP.init
/-- `commands/zfcp.py:149-153` `_getParser` -/
def F14_ZFCP.op : OptParser :=
  F12_ZFCP.op
    |>.remove c!"--scsiid"
    |>.remove c!"--scsilun"
/-- `commands/zfcp.py:145-153` -/
def F14_ZFCP.info (dc : DataCls) : Info := { dc := dc, op := F14_ZFCP.op }
/-- `commands/zfcp.py:145-153` -/
def F14_ZFCP.cls (dc : DataCls) : Command := listCmd c!"F14_ZFCP" (some 71) F14_ZFCP.init dc (FC3_ZFCP.parse (F14_ZFCP.info dc)) (listStr)

end Ks.Cmd
