import Verif.Commands.ListLogic
import Verif.Version
/-!
# Deprecated and removed commands

The specification: which commands are deprecated and which are removed in which version, and what it
means for a class.
-/
namespace Ks

/-- The commands that a version still knows but ignores. -/
def deprecatedIn : List (Nat × List Str) :=
  [(Version.FC3, [c!"mouse"]), (Version.RHEL4, [c!"mouse"]), (Version.FC4, [c!"mouse"]),
    (Version.FC5, [c!"langsupport", c!"mouse"]), (Version.FC6, [c!"langsupport", c!"mouse"]), (Version.RHEL5, [c!"langsupport", c!"mouse"]),
    (Version.F10, [c!"monitor"]), (Version.F11, [c!"monitor"]), (Version.F12, [c!"monitor"]), (Version.F13, [c!"monitor"]), (Version.RHEL6, [c!"monitor"]),
    (Version.F14, [c!"interactive", c!"monitor"]), (Version.F15, [c!"monitor"]), (Version.F16, [c!"monitor"]), (Version.F17, [c!"monitor"]),
    (Version.F20, [c!"upgrade"]), (Version.F21, [c!"upgrade"]), (Version.RHEL7, [c!"upgrade"]), (Version.F22, [c!"upgrade"]), (Version.F23, [c!"upgrade"]),
    (Version.F24, [c!"device", c!"dmraid", c!"multipath", c!"upgrade"]), (Version.F25, [c!"device", c!"dmraid", c!"multipath", c!"upgrade"]),
    (Version.F26, [c!"device", c!"dmraid", c!"multipath", c!"upgrade"]), (Version.F27, [c!"device", c!"dmraid", c!"multipath", c!"upgrade"]),
    (Version.F28, [c!"device", c!"dmraid", c!"multipath", c!"upgrade"]),
    (Version.RHEL8, [c!"btrfs", c!"device", c!"deviceprobe", c!"dmraid", c!"install", c!"multipath"]),
    (Version.F29, [c!"device", c!"deviceprobe", c!"dmraid", c!"install", c!"multipath"]),
    (Version.F30, [c!"device", c!"deviceprobe", c!"dmraid", c!"install", c!"multipath"]),
    (Version.F31, [c!"device", c!"deviceprobe", c!"dmraid", c!"install", c!"multipath"]),
    (Version.F32, [c!"device", c!"deviceprobe", c!"dmraid", c!"install", c!"multipath"]),
    (Version.F33, [c!"device", c!"deviceprobe", c!"dmraid", c!"install", c!"multipath"]),
    (Version.F34, [c!"autostep", c!"method"])]

/-- The commands that a version knows only to refuse them. -/
def removedIn : List (Nat × List Str) :=
  [(Version.FC4, [c!"lilo", c!"lilocheck"]), (Version.F7, [c!"langsupport", c!"mouse"]), (Version.F15, [c!"interactive"]),
    (Version.F18, [c!"monitor"]), (Version.F29, [c!"upgrade"]),
    (Version.F34, [c!"device", c!"deviceprobe", c!"dmraid", c!"install", c!"multipath"])]

/-- `n` is deprecated in version `v`. -/
def Deprecated (v : Nat) (n : Str) : Prop := ∃ l, (v, l) ∈ deprecatedIn ∧ n ∈ l

/-- `n` is removed in version `v`. -/
def Removed (v : Nat) (n : Str) : Prop := ∃ l, (v, l) ∈ removedIn ∧ n ∈ l

/-- The class is a `DeprecatedCommand`. -/
def Command.IsDeprecated (c : CmdClass CState Ns) : Prop := ∃ name init, c = deprecatedCmd name init

/-- The class is a `RemovedCommand`. -/
def Command.IsRemoved (c : CmdClass CState Ns) : Prop := ∃ name init, c = removedCmd name init

end Ks
