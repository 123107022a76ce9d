import Verif.Commands.Base
/-!
# `/repo/pykickstart/commands/method.py`

Written by `scripts/gen_commands.py` from the text of that file; see there and
`Verif/Commands/Base.lean` for how a class is represented.
-/
namespace Ks.Cmd

/-- `base.py:64-106` `__init__` -/
def FC3_Method.init : Ns := []
/-- `commands/method.py:24-109` -/
def FC3_Method.cls : Command := plainCmd c!"FC3_Method" (some 0) FC3_Method.init (fun _ => M.throw .type) (fun _ => [])

/-- `commands/method.py:114-115`: `__init__` is inherited. -/
def FC6_Method.init : Ns := FC3_Method.init
/-- `commands/method.py:114-115` -/
def FC6_Method.cls : Command := plainCmd c!"FC6_Method" (some 0) FC6_Method.init (fun _ => M.throw .type) (fun _ => [])

/-- `commands/method.py:117-118`: `__init__` is inherited. -/
def F13_Method.init : Ns := FC6_Method.init
/-- `commands/method.py:117-118` -/
def F13_Method.cls : Command := plainCmd c!"F13_Method" (some 0) F13_Method.init (fun _ => M.throw .type) (fun _ => [])

/-- `commands/method.py:120-121`: `__init__` is inherited. -/
def F14_Method.init : Ns := F13_Method.init
/-- `commands/method.py:120-121` -/
def F14_Method.cls : Command := plainCmd c!"F14_Method" (some 0) F14_Method.init (fun _ => M.throw .type) (fun _ => [])

/-- `commands/method.py:123-124`: `__init__` is inherited. -/
def RHEL6_Method.init : Ns := F14_Method.init
/-- `commands/method.py:123-124` -/
def RHEL6_Method.cls : Command := plainCmd c!"RHEL6_Method" (some 0) RHEL6_Method.init (fun _ => M.throw .type) (fun _ => [])

/-- `commands/method.py:126-127`: `__init__` is inherited. -/
def F18_Method.init : Ns := F14_Method.init
/-- `commands/method.py:126-127` -/
def F18_Method.cls : Command := plainCmd c!"F18_Method" (some 0) F18_Method.init (fun _ => M.throw .type) (fun _ => [])

/-- `commands/method.py:129-133`: `__init__` is inherited. -/
def F19_Method.init : Ns := FC3_Method.init
/-- `commands/method.py:129-133` -/
def F19_Method.cls : Command := plainCmd c!"F19_Method" (some 0) F19_Method.init (fun _ => M.throw .type) (fun _ => [])

/-- `commands/method.py:135-139`: `__init__` is inherited. -/
def RHEL7_Method.init : Ns := F19_Method.init
/-- `commands/method.py:135-139` -/
def RHEL7_Method.cls : Command := plainCmd c!"RHEL7_Method" (some 0) RHEL7_Method.init (fun _ => M.throw .type) (fun _ => [])

/-- `commands/method.py:141-142`: `__init__` is inherited. -/
def F28_Method.init : Ns := RHEL7_Method.init
/-- `commands/method.py:141-142` -/
def F28_Method.cls : Command := plainCmd c!"F28_Method" (some 0) F28_Method.init (fun _ => M.throw .type) (fun _ => [])

/-- `commands/method.py:145-146` `__init__` -/
def F34_Method.init : Ns := []
/-- `commands/method.py:144-151` -/
def F34_Method.cls : Command := deprecatedCmd c!"F34_Method" F34_Method.init

end Ks.Cmd
