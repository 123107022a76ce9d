import Verif.Commands.ReadBackLogic
import Verif.Handler
/-!
# Sheets

What is claimed of the text of an object in a data list, for the commands whose text is made from
options. Positional arguments and attributes that `parse` computes are not claimed (`skip`).
-/
namespace Ks

/-- `part`, `partition`: the options for encryption are only written with `--encrypted`. -/
def encrypted : List (Str × Cond) :=
  ([c!"passphrase", c!"escrowcert", c!"cipher", c!"luks_version", c!"pbkdf", c!"pbkdf_memory", c!"pbkdf_time", c!"pbkdf_iterations"].map fun k => (k, .tru c!"encrypted")) ++
    [(c!"backuppassphrase", .and (.tru c!"encrypted") (.tru c!"escrowcert"))]

/-- From Fedora 9 to Fedora 13 and in RHEL 6, which is between Fedora 13 and Fedora 14, `--bytes-per-inode` is
deprecated and its value is not written. -/
def inodesLost (v : Nat) : Bool := Version.F9 ≤ v && v < Version.F14

def partSheetOf (lost : Bool) : Sheet where
  names := [c!"part"]
  skip := [c!"mntpoint", c!"mountpoint", c!"lineno"]
  full := [c!"active", c!"primOnly", c!"grow", c!"format", c!"recommended", c!"encrypted", c!"resize", c!"hibernation"]
  pos := [c!"mountpoint"]
  loose := [c!"fstype", c!"fsopts", c!"fsprofile", c!"passphrase", c!"escrowcert", c!"cipher", c!"mkfsopts"]
  lossy := (c!"maxSizeMB", .gt c!"maxSizeMB" 0) :: (if lost then [(c!"bytes_per_inode", .not .tt)] else []) ++ encrypted

def logvolSheetOf (lost : Bool) : Sheet where
  names := [c!"logvol"]
  skip := [c!"mntpoint", c!"mountpoint", c!"preexist", c!"lineno"]
  full := [c!"grow", c!"name", c!"format", c!"recommended", c!"vgname", c!"encrypted", c!"resize", c!"hibernation", c!"thin_pool", c!"thin_volume"]
  pos := [c!"mountpoint"]
  loose := [c!"fstype", c!"fsopts", c!"fsprofile", c!"label", c!"passphrase", c!"escrowcert", c!"cipher", c!"mkfsopts"]
  lossy := (c!"pool_name", .tru c!"thin_volume") :: (c!"chunk_size", .tru c!"thin_pool") :: (c!"metadata_size", .tru c!"thin_pool") ::
    (if lost then [(c!"bytes_per_inode", .not .tt)] else []) ++ encrypted

def partSheet (v : Nat) : Sheet := partSheetOf (inodesLost v)

def logvolSheet (v : Nat) : Sheet := logvolSheetOf (inodesLost v)

/-- From Fedora 24 on, `--noipv4` clears the boot protocol. -/
def networkSheetOf (v4 : Bool) : Sheet where
  names := [c!"network"]
  skip := [c!"teamslaves", c!"lineno"] ++ if v4 then [c!"bootProto"] else []
  full := [c!"bootProto", c!"nodns", c!"onboot", c!"notksdevice", c!"noipv4", c!"noipv6", c!"activate", c!"nodefroute", c!"bindto"]
  loose := [c!"essid", c!"ethtool", c!"teamconfig"]

def networkSheet (v : Nat) : Sheet := networkSheetOf (Version.F24 ≤ v)

def repoSheet (_ : Nat) : Sheet where
  names := [c!"repo"]
  skip := [c!"lineno"]
  full := [c!"name", c!"noverifyssl", c!"install"]
  loose := [c!"name", c!"excludepkgs", c!"includepkgs", c!"proxy", c!"sslcacert", c!"sslclientcert", c!"sslclientkey"]
  lossy := [(c!"mirrorlist", .not (.tru c!"baseurl"))]

def driverdiskSheet (_ : Nat) : Sheet where
  names := [c!"driverdisk"]
  skip := [c!"partition", c!"lineno"]
  opt := [c!"partition"]
  lossy := [(c!"source", .not (.tru c!"partition")), (c!"type", .tru c!"partition"), (c!"biospart", .and (.not (.tru c!"partition")) (.not (.tru c!"source")))]

def sshpwSheet (_ : Nat) : Sheet where
  names := [c!"sshpw"]
  skip := [c!"password", c!"lineno"]
  full := [c!"username", c!"isCrypted", c!"lock", c!"sshkey"]
  pos := [c!"password"]
  lossy := [(c!"isCrypted", .not (.tru c!"sshkey")), (c!"lock", .not (.tru c!"sshkey"))]

def sshkeySheet (_ : Nat) : Sheet where
  names := [c!"sshkey"]
  skip := [c!"sshkey", c!"key", c!"lineno"]
  full := [c!"username"]
  pos := [c!"key"]

def deviceSheet (_ : Nat) : Sheet where
  names := [c!"device"]
  given := [.tru c!"moduleName"]
  skip := [c!"moduleName", c!"lineno"]
  pos := [c!"moduleName"]
  loose := [c!"moduleOpts"]

def userSheet (_ : Nat) : Sheet where
  names := [c!"user"]
  given := [.tru c!"name"]
  skip := [c!"lineno"]
  full := [c!"isCrypted", c!"lock"]
  loose := [c!"gecos"]

def groupSheet (_ : Nat) : Sheet where
  names := [c!"group"]
  skip := [c!"lineno"]

def fcoeSheet (_ : Nat) : Sheet where
  names := [c!"fcoe"]
  skip := [c!"lineno"]
  full := [c!"dcb", c!"autovlan"]

def iscsiSheet (_ : Nat) : Sheet where
  names := [c!"iscsi"]
  skip := [c!"lineno"]
  full := [c!"port"]

def zfcpSheet (_ : Nat) : Sheet where
  names := [c!"zfcp"]
  skip := [c!"lineno"]

def moduleSheet (_ : Nat) : Sheet where
  names := [c!"module"]
  given := [.tru c!"name"]
  skip := [c!"lineno"]
  full := [c!"name", c!"enable"]

def timesourceSheet (_ : Nat) : Sheet where
  names := [c!"timesource"]
  given := [.tru c!"ntp_server", .tru c!"ntp_pool", .tru c!"ntp_disable"]
  skip := [c!"lineno"]
  full := [c!"ntp_disable", c!"nts"]

/-- The sheets of the commands. -/
def sheets : List (Str × (Nat → Sheet)) :=
  [(c!"part", partSheet), (c!"partition", partSheet), (c!"logvol", logvolSheet), (c!"network", networkSheet), (c!"repo", repoSheet),
   (c!"driverdisk", driverdiskSheet), (c!"sshpw", sshpwSheet), (c!"sshkey", sshkeySheet), (c!"device", deviceSheet), (c!"user", userSheet),
   (c!"group", groupSheet), (c!"fcoe", fcoeSheet), (c!"iscsi", iscsiSheet), (c!"zfcp", zfcpSheet), (c!"module", moduleSheet),
   (c!"timesource", timesourceSheet)]

end Ks
