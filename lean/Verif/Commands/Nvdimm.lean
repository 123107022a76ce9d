import Verif.Commands.Base
/-!
# `/repo/pykickstart/commands/nvdimm.py`

Written by `scripts/gen_commands.py` from the text of that file; see there and
`Verif/Commands/Base.lean` for how a class is represented.
-/
namespace Ks.Cmd

/-- `commands/nvdimm.py:36-42` `__init__` -/
def F28_NvdimmData.init : Ns := [(c!"lineno", .int 0), (c!"action", .none), (c!"namespace", .str []), (c!"mode", .none), (c!"sectorsize", .none), (c!"blockdevs", .list [])]
/-- `commands/nvdimm.py:54-69` `_getArgsAsStr` -/
def F28_NvdimmData.args : Out :=
  [(.tt, [.fld c!"action"]),
    (.and (.eq c!"action" (.str c!"reconfigure")) (.tru c!"namespace"), [.lit c!" --namespace=", .fld c!"namespace"]),
    (.and (.eq c!"action" (.str c!"reconfigure")) (.eq c!"mode" (.str c!"sector")), [.lit c!" --mode=sector"]),
    (.and (.and (.eq c!"action" (.str c!"reconfigure")) (.eq c!"mode" (.str c!"sector"))) (.tru c!"sectorsize"), [.lit c!" --sectorsize=", .fld c!"sectorsize"]),
    (.and (.and (.not (.eq c!"action" (.str c!"reconfigure"))) (.eq c!"action" (.str c!"use"))) (.tru c!"namespace"), [.lit c!" --namespace=", .fld c!"namespace"]),
    (.and (.and (.not (.eq c!"action" (.str c!"reconfigure"))) (.eq c!"action" (.str c!"use"))) (.tru c!"blockdevs"), [.lit c!" --blockdevs=", .join c!"," c!"blockdevs"])]
/-- `commands/nvdimm.py:71-74` `__str__` -/
def F28_NvdimmData.strText (args : Out) (self : Ns) : Str :=
  let retval := ([] : Str)
  let retval := retval ++ c!"nvdimm " ++ args.render self
  strip retval ++ c!"\n"
/-- `commands/nvdimm.py:44-49` `__eq__` -/
def F28_NvdimmData.eq : Ns → Ns → Bool := sameAttrs [c!"action", c!"namespace", c!"blockdevs"]
/-- `commands/nvdimm.py:32-74` -/
def F28_NvdimmData.cls : DataCls := { init := F28_NvdimmData.init, str := F28_NvdimmData.strText F28_NvdimmData.args, eq := F28_NvdimmData.eq }

/-- `commands/nvdimm.py:81-88` `__init__` -/
def F28_Nvdimm.init : Ns := []
/-- `commands/nvdimm.py:101-126` `_getParser` -/
def F28_Nvdimm.opWith (validActions : List Str) (validModes : List Str) : OptParser :=
  OptParser.empty
    |>.add { names := [c!"action"], nargs := .n 1, default := some (.str c!"reconfigure"), choices := some validActions }
    |>.add { names := [c!"--namespace"] }
    |>.add { names := [c!"--blockdevs"], ty := .comma }
    |>.add { names := [c!"--mode"], default := some (.str c!"sector"), choices := some validModes }
    |>.add { names := [c!"--sectorsize"], ty := .int }
/-- `commands/nvdimm.py:128-165` `parse` -/
def F28_Nvdimm.parse (k : Info) (args : List Str) : M Ns := do
  let r ← M.parseKnown k.op args
  let ns := r.1
  let extra := r.2
  M.failIf (!extra.isEmpty) c!"Unexpected arguments to nvdimm command: %(arguments)s"
  let nvdimm_data := k.dc.init
  let nvdimm_data := setToObj ns nvdimm_data
  let x1 ← M.lineno
  let nvdimm_data := nvdimm_data.set c!"lineno" (Val.int x1)
  let x2 ← M.lift ((ns.getD c!"action").index 0)
  let action := x2
  let nvdimm_data := nvdimm_data.set c!"action" (action)
  M.failIfNoLine ((nvdimm_data.getD c!"namespace").truthy && (nvdimm_data.getD c!"blockdevs").truthy) c!"Only one of --namespace and --blockdevs device specifications can be used"
  let x3 ← M.dataList
  M.when (x3.any (fun d => k.dc.eq d nvdimm_data)) (do
    M.when ((nvdimm_data.getD c!"namespace").truthy) (do
      M.warn (.parse c!"An action %(action)s on namespace %(namespace)s has already been defined."))
    M.when ((nvdimm_data.getD c!"blockdevs").truthy) (do
      M.warn (.parse c!"An action %(action)s on devices %(blockdevs)s has already been defined.")))
  if (action).pyEq (Val.str c!"reconfigure") then do
    M.failIfNoLine (!((nvdimm_data.getD c!"namespace").truthy)) c!"Action %(action)s requires --namespace argument to be set"
    M.failIfNoLine ((nvdimm_data.getD c!"mode").pyEq (Val.str c!"sector") && !((nvdimm_data.getD c!"sectorsize").truthy)) c!"Action %(action)s with mode %(mode)s requires --sectorsize argument to be set"
  else do
    M.when ((action).pyEq (Val.str c!"use")) (do
      M.failIfNoLine (!((nvdimm_data.getD c!"namespace").truthy) && !((nvdimm_data.getD c!"blockdevs").truthy)) c!"Action %(action)s requires --namespace or --blockdevs argument to be set")
  return nvdimm_data
/-- `commands/nvdimm.py:77-172` -/
def F28_Nvdimm.info (dc : DataCls) : Info := { dc := dc, op := F28_Nvdimm.opWith [c!"reconfigure", c!"use"] [c!"sector"] }
/-- `commands/nvdimm.py:77-172` -/
def F28_Nvdimm.cls (dc : DataCls) : Command := listCmd c!"F28_Nvdimm" (some 80) F28_Nvdimm.init dc (F28_Nvdimm.parse (F28_Nvdimm.info dc)) (wrappedListStr c!"# NVDIMM devices setup\n")

end Ks.Cmd
