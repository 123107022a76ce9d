import Verif.PosixPath
import Verif.Errors
/-!
# Value helpers of `/repo/pykickstart/options.py`
-/
namespace Ks

/-- `options.py:57-58` `commaSplit`: strip each part, drop the empty ones. -/
def commaSplit (value : Str) : List Str :=
  ((splitOn ',' value).map strip).filter (fun v => !v.isEmpty)

/-- `options.py:60-69` `ksboolean` on a `str`; `none` is `ArgumentTypeError`.  (The
`AttributeError` branch is for values without `.lower()`, which argparse never passes.) -/
def ksboolean (value : Str) : Option Bool :=
  if lower value ∈ [c!"on", c!"yes", c!"true", c!"1"] then some true
  else if lower value ∈ [c!"off", c!"no", c!"false", c!"0"] then some false
  else none

/-- `options.py:71-75` `mountpoint`. -/
def mountpoint (value : Str) : Str :=
  if startsWith value c!"/" then normpath value else value

end Ks
