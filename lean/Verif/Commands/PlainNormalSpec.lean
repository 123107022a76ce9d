import Verif.Commands.SelfSheets
/-!
# Commands without data lists whose text is a line of its own
-/
namespace Ks

/-- Until Fedora 7, `--drives` is the only option of `ignoredisk`. -/
def oldIgnoredisk (v : Nat) : Bool := v < Version.F8 && v ≠ Version.RHEL4 && v ≠ Version.RHEL5

/-- The attributes that have to have a value that is not empty or zero, because the command asks for the option. -/
def keepNeeds (n : Str) (v : Nat) : List Str :=
  if n = c!"harddrive" then c!"dir" :: if v < Version.F33 then [] else [c!"partition"]
  else if n = c!"ignoredisk" then if oldIgnoredisk v then [c!"ignoredisk"] else []
  else if n = c!"liveimg" then [c!"url"]
  else if n = c!"nfs" then [c!"server", c!"dir"]
  else if n = c!"url" then if v < Version.F18 then [c!"url"] else []
  else []

/-- From Fedora 15 on and in RHEL 6, the boot loader has a password that may be given encrypted. -/
def lockedBootloader (v : Nat) : Bool := Version.F15 ≤ v || v = Version.RHEL6

/-- The attributes that have to have the value they have without options, because the text is not read back. -/
def keepFixed (n : Str) (v : Nat) : List Str :=
  if n = c!"bootloader" then if lockedBootloader v then [c!"_md5pass", c!"isCrypted"] else []
  else []

/-- `--md5pass` is not written under its name. -/
def keepBootloaderSheet (v : Nat) : Sheet :=
  { bootloaderSheetOf false with
    skip := [c!"useLilo", c!"seen"] ++ if lockedBootloader v then [c!"_md5pass"] else []
    lossy := ([c!"password", c!"isCrypted"].map fun k => (k, .not (.tru c!"disabled"))) ++ (bootloaderSheetOf false).lossy
    req := if lockedBootloader v then [.not (.tru c!"md5pass")] else [] }

/-- There is one of `--drives`, `--only-use` and `--interactive`. -/
def keepIgnorediskSheet (v : Nat) : Sheet :=
  if oldIgnoredisk v then { ignorediskSheet v with lossy := [] }
  else { ignorediskSheet v with
    given := (ignorediskSheet v).given ++ [.and (.not (.tru c!"interactive")) (.and (.not (.tru c!"ignoredisk")) (.tru c!"onlyuse"))] ++
      if Version.F14 ≤ v || v = Version.RHEL6 then [.tru c!"interactive"] else [] }

def keepSelinuxSheet (v : Nat) : Sheet :=
  { selinuxSheet v with
    given := [.and (.not (.eq c!"selinux" .none)) (.eq c!"selinux" (.int 0)),
      .and (.not (.eq c!"selinux" .none)) (.and (.not (.eq c!"selinux" (.int 0))) (.eq c!"selinux" (.int 1))),
      .and (.not (.eq c!"selinux" .none)) (.and (.and (.not (.eq c!"selinux" (.int 0))) (.not (.eq c!"selinux" (.int 1)))) (.eq c!"selinux" (.int 2)))] }

end Ks
