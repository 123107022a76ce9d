import Verif.Commands.Sheets
/-!
# Sheets of commands without data lists

What is claimed of the text of a command that keeps its values itself. Positional arguments and
attributes that `parse` computes are not claimed (`skip`). `seen` is the flag that the command was used.
-/
namespace Ks

def autopartSheet (_ : Nat) : Sheet where
  names := [c!"autopart"]
  given := [.tru c!"autopart"]
  skip := [c!"autopart", c!"seen"]
  full := [c!"encrypted", c!"lvm", c!"type", c!"nohome", c!"noboot", c!"noswap"]
  loose := [c!"passphrase", c!"escrowcert", c!"cipher"]
  lossy := encrypted
  ends := [c!"fstype", c!"luks_version", c!"pbkdf", c!"pbkdf_memory", c!"pbkdf_time", c!"pbkdf_iterations"]

def autostepSheet (_ : Nat) : Sheet where
  names := [c!"autostep"]
  given := [.and (.tru c!"autostep") (.tru c!"autoscreenshot"), .and (.tru c!"autostep") (.not (.tru c!"autoscreenshot"))]
  skip := [c!"autostep", c!"seen"]
  full := [c!"autoscreenshot"]

/-- In RHEL 6 and from Fedora 15 on, `parse` computes the attributes of the password. -/
def bootloaderSheetOf (crypted : Bool) : Sheet where
  names := [c!"bootloader"]
  given := [.tru c!"location"]
  skip := [c!"useLilo", c!"seen"] ++ if crypted then [c!"password", c!"_md5pass", c!"isCrypted"] else []
  full := [c!"location", c!"forceLBA", c!"upgrade", c!"timeout", c!"leavebootorder", c!"extlinux", c!"disabled"]
  loose := [c!"appendLine", c!"hvArgs"]
  lossy := [c!"appendLine", c!"location", c!"upgrade", c!"driveorder", c!"timeout", c!"default", c!"bootDrive", c!"leavebootorder", c!"extlinux",
    c!"nombr"].map fun k => (k, .not (.tru c!"disabled"))

def bootloaderSheet (v : Nat) : Sheet := bootloaderSheetOf (Version.F15 ≤ v || v = Version.RHEL6)

/-- From Fedora 17 on, `parse` sets the type if there are devices. -/
def clearpartSheetOf (devices : Bool) : Sheet where
  names := [c!"clearpart"]
  given := [.not (.eq c!"type" .none)]
  skip := c!"seen" :: if devices then [c!"type"] else []
  full := [c!"type", c!"initAll", c!"cdl"]
  ends := if devices then [c!"drives", c!"devices", c!"disklabel"] else []

def clearpartSheet (v : Nat) : Sheet := clearpartSheetOf (Version.F17 ≤ v)

def eulaSheet (_ : Nat) : Sheet where
  names := [c!"eula"]
  given := [.tru c!"agreed"]
  skip := [c!"seen"]
  full := [c!"agreed"]

/-- Until Fedora 32 there is `--biospart`, and the text has either of the two. -/
def harddriveSheetOf (bios : Bool) : Sheet where
  names := [c!"harddrive"]
  given := [.and (.tru c!"seen") (.eq c!"biospart" .none), .and (.tru c!"seen") (.not (.eq c!"biospart" .none))]
  skip := c!"seen" :: if bios then [c!"partition"] else []
  full := [c!"dir", c!"biospart", c!"partition"]

def harddriveSheet (v : Nat) : Sheet := harddriveSheetOf (v < Version.F33)

def ignorediskSheet (_ : Nat) : Sheet where
  names := [c!"ignoredisk"]
  given := [.and (.not (.tru c!"interactive")) (.tru c!"ignoredisk")]
  skip := [c!"seen"]
  full := [c!"interactive"]
  lossy := [(c!"ignoredisk", .not (.tru c!"interactive")), (c!"onlyuse", .and (.not (.tru c!"interactive")) (.not (.tru c!"ignoredisk")))]

def langSheet (_ : Nat) : Sheet where
  names := [c!"lang"]
  given := [.tru c!"lang"]
  skip := [c!"lang", c!"seen"]
  pos := [c!"lang"]
  ends := [c!"lang", c!"addsupport"]

def liveimgSheet (_ : Nat) : Sheet where
  names := [c!"liveimg"]
  given := [.tru c!"seen"]
  skip := [c!"seen"]
  full := [c!"url"]
  loose := [c!"url", c!"proxy", c!"checksum"]

/-- Until Fedora 33, nothing is written without `--level`. From Fedora 34 on, the level is not written. -/
def loggingSheetOf (old : Bool) : Sheet where
  names := [c!"logging"]
  given := if old then [.and (.tru c!"level") (.tru c!"_level_provided")] else [.tru c!"host"]
  skip := [c!"_level_provided", c!"seen"]
  full := if old then [c!"level"] else []
  lossy := if old then [(c!"port", .tru c!"host")] else [(c!"level", .not .tt)]

def loggingSheet (v : Nat) : Sheet := loggingSheetOf (v < Version.F34)

def monitorSheet (_ : Nat) : Sheet where
  names := [c!"monitor"]
  given := [.tru c!"hsync", .tru c!"monitor", .tru c!"vsync"]
  skip := [c!"seen"]
  full := [c!"probe"]
  loose := [c!"monitor"]

def mouseSheet (_ : Nat) : Sheet where
  names := [c!"mouse"]
  given := [.tru c!"mouse"]
  skip := [c!"mouse", c!"seen"]
  full := [c!"emulthree"]
  pos := [c!"mouse"]

/-- From Fedora Core 6 on, the text is stripped before the options are added. -/
def nfsSheetOf (opts : Bool) : Sheet where
  names := [c!"nfs"]
  given := [.tru c!"seen"]
  skip := [c!"seen"]
  full := [c!"server", c!"dir"]
  loose := [c!"opts"]
  ends := if opts then [c!"dir"] else []

def nfsSheet (v : Nat) : Sheet := nfsSheetOf (Version.FC6 ≤ v)

def ostreesetupSheet (_ : Nat) : Sheet where
  names := [c!"ostreesetup"]
  given := [.tru c!"osname"]
  skip := [c!"remote", c!"seen"]
  full := [c!"osname", c!"nogpg"]
  loose := [c!"osname", c!"remote", c!"url", c!"ref"]

def rebootSheetOf (wait : Bool) : Sheet where
  names := [c!"reboot", c!"shutdown", c!"halt", c!"poweroff"]
  given := [.and (.not (.eq c!"action" (.int 0))) (.eq c!"action" (.int 1))]
  skip := [c!"action", c!"seen"]
  lossy := [c!"eject", c!"kexec"].map fun k => (k, if wait then .and (.not (.eq c!"action" (.int 0))) (.eq c!"action" (.int 1)) else .eq c!"action" (.int 1))

def rebootSheet (v : Nat) : Sheet := rebootSheetOf (Version.F18 ≤ v)

def reqpartSheet (_ : Nat) : Sheet where
  names := [c!"reqpart"]
  given := [.tru c!"reqpart"]
  skip := [c!"reqpart", c!"seen"]
  full := [c!"addBoot"]

def rescueSheet (_ : Nat) : Sheet where
  names := [c!"rescue"]
  given := [.tru c!"rescue"]
  skip := [c!"rescue", c!"seen"]
  full := [c!"nomount", c!"romount"]

def selinuxSheet (_ : Nat) : Sheet where
  names := [c!"selinux"]
  given := []
  skip := [c!"seen"]
  full := [c!"selinux"]

def servicesSheet (_ : Nat) : Sheet where
  names := [c!"services"]
  given := [.tru c!"disabled", .tru c!"enabled"]
  skip := [c!"seen"]

/-- Until Fedora 17, `--utc` is the only option. From Fedora 18 to Fedora 22, `parse` drops
servers that are named twice. -/
def timezoneSheetOf (old dedup : Bool) : Sheet where
  names := [c!"timezone"]
  given := [.tru c!"timezone"]
  skip := [c!"timezone", c!"seen"] ++ if dedup then [c!"ntpservers"] else []
  full := if old then [] else [c!"isUtc", c!"nontp"]
  pos := [c!"timezone"]
  lossy := if old then [(c!"isUtc", .not (.and (.tru c!"timezone") (.not (.tru c!"isUtc"))))] else []

def timezoneSheet (v : Nat) : Sheet := timezoneSheetOf (v < Version.F18 && v ≠ Version.RHEL7) (Version.F18 ≤ v && v < Version.F23)

/-- From Fedora 18 on, there is a choice of sources, and only the one that is set is written: there is a
sheet for each of them. -/
def urlSheetOf (old : Bool) (others : List Str) (req : List Cond) : Sheet where
  names := [c!"url"]
  given := [.tru c!"seen"]
  skip := [c!"seen"]
  full := c!"noverifyssl" :: if old then [c!"url"] else []
  loose := [c!"url", c!"mirrorlist", c!"metalink", c!"proxy", c!"sslcacert", c!"sslclientcert", c!"sslclientkey"]
  lossy := others.map fun k => (k, .not .tt)
  req := if old then [] else req

def urlSheet (v : Nat) : Sheet := urlSheetOf (v < Version.F18) [c!"mirrorlist", c!"metalink"] [.tru c!"url"]

def urlMirrorSheet (_ : Nat) : Sheet := urlSheetOf false [c!"url", c!"metalink"] [.not (.tru c!"url"), .tru c!"mirrorlist"]

def urlMetaSheet (_ : Nat) : Sheet := urlSheetOf false [c!"url", c!"mirrorlist"] [.not (.tru c!"url"), .not (.tru c!"mirrorlist"), .tru c!"metalink"]

/-- From Fedora Core 6 on, `parse` splits the address. -/
def vncSheetOf (old : Bool) : Sheet where
  names := [c!"vnc"]
  given := [.tru c!"enabled"]
  skip := [c!"enabled", c!"seen"] ++ if old then [] else [c!"host", c!"port", c!"_connect"]

def vncSheet (v : Nat) : Sheet := vncSheetOf (v < Version.FC6)

def xconfigSheetOf (mid : Bool) : Sheet where
  names := [c!"xconfig"]
  given := [.tru c!"defaultdesktop", .tru c!"startX"]
  skip := [c!"seen"]
  full := [c!"startX"]
  lossy := (c!"videoram", .and (.has c!"videoRam") (.tru c!"videoRam")) ::
    if mid then [c!"card", c!"hsync", c!"monitor", c!"noprobe", c!"vsync"].map fun k => (k, .not .tt) else []

def xconfigSheet (v : Nat) : Sheet := xconfigSheetOf (Version.FC6 ≤ v && v < Version.F9)

def ziplSheet (_ : Nat) : Sheet where
  names := [c!"zipl"]
  given := [.not (.eq c!"secure_boot" (.int (-1)))]
  skip := [c!"seen"]

/-- The sheets of the commands, and the versions from which they hold. -/
def selfSheets : List (Str × Nat × (Nat → Sheet)) :=
  [(c!"autopart", Version.F9, autopartSheet), (c!"autostep", 0, autostepSheet), (c!"bootloader", 0, bootloaderSheet), (c!"clearpart", 0, clearpartSheet),
   (c!"eula", 0, eulaSheet), (c!"harddrive", 0, harddriveSheet), (c!"ignoredisk", 0, ignorediskSheet), (c!"lang", Version.F19, langSheet),
   (c!"liveimg", 0, liveimgSheet), (c!"logging", 0, loggingSheet), (c!"monitor", 0, monitorSheet),
   (c!"mouse", 0, mouseSheet), (c!"nfs", 0, nfsSheet), (c!"ostreesetup", 0, ostreesetupSheet), (c!"reboot", Version.FC6, rebootSheet),
   (c!"reqpart", 0, reqpartSheet), (c!"rescue", 0, rescueSheet), (c!"selinux", 0, selinuxSheet), (c!"services", 0, servicesSheet),
   (c!"timezone", 0, timezoneSheet), (c!"url", 0, urlSheet), (c!"url", Version.F18, urlMirrorSheet), (c!"url", Version.F27, urlMetaSheet), (c!"vnc", 0, vncSheet), (c!"xconfig", 0, xconfigSheet), (c!"zipl", 0, ziplSheet)]

end Ks
