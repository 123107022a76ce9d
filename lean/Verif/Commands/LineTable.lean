import Verif.Commands.LineSpec
import Verif.Version
/-!
# What the first lines of the commands do

The lines of every command that keeps settings, in the versions in which it is neither deprecated nor removed.
Written by `scripts/gen_lines.py` from `scripts/lines.json`.
-/
namespace Ks

open Version

/-- `autopart ` -/
def autopartLines : CommandLines where
  cmd := c!"autopart"
  base := []
  start := [([(RHEL3, F34)], [(c!"autopart", .bool true)])]
  lines := [
    flag [(RHEL5, RHEL5), (F9, F11), (F29, F34)] c!"--encrypted" c!"encrypted" (.bool true),
    wrong [(RHEL3, FC6), (F7, F8)] [c!"--encrypted"],
    text [(RHEL5, RHEL5), (F9, F11), (F29, F34)] c!"--passphrase" c!"passphrase",
    wrong [(RHEL3, FC6), (F7, F8)] [c!"--passphrase=QX"],
    wrong [(RHEL5, RHEL5), (F9, F11)] [c!"--escrowcert=QX"],
    text [(F12, F13), (F14, F15), (F29, F34)] c!"--escrowcert" c!"escrowcert",
    wrong [(RHEL5, RHEL5), (F9, F11)] [c!"--backuppassphrase"],
    flag [(F12, F13), (F14, F15), (F29, F34)] c!"--backuppassphrase" c!"backuppassphrase" (.bool true),
    wrong [(F12, F13), (F14, F15)] [c!"--nolvm"],
    flag [(F16, F16)] c!"--nolvm" c!"lvm" (.bool false),
    flag [(F17, F17), (F29, F34)] c!"--nolvm" c!"type" (.int 0),
    wrong [(F16, F16)] [c!"--type=lvm"],
    fixed [(F17, F17), (F29, F34)] [c!"--type=lvm"] [(c!"type", .int 2)],
    wrong [(F16, F16), (RHEL8, RHEL8)] [c!"--type=btrfs"],
    fixed [(F17, F17), (F29, F34)] [c!"--type=btrfs"] [(c!"type", .int 1)],
    wrong [(F16, F16)] [c!"--type=plain"],
    fixed [(F17, F17), (F29, F34)] [c!"--type=plain"] [(c!"type", .int 0)],
    wrong [(F16, F16)] [c!"--type=partition"],
    fixed [(F17, F17), (F29, F34)] [c!"--type=partition"] [(c!"type", .int 0)],
    wrong [(F12, F13), (F14, F15), (F17, F17)] [c!"--cipher=QX"],
    text [(RHEL6, RHEL6), (F18, F19), (F29, F34)] c!"--cipher" c!"cipher",
    wrong [(F18, F19)] [c!"--type=thinp"],
    fixed [(F20, F20), (F29, F34)] [c!"--type=thinp"] [(c!"type", .int 3)],
    wrong [(F20, F20)] [c!"--fstype=QX"],
    fixed [(F21, F21), (F22, F22), (F29, F34)] [c!"--fstype=QX"] [(c!"fstype", .str c!"QX")],
    wrong [(F21, F21), (F22, F25)] [c!"--nohome"],
    flag [(RHEL7, RHEL7), (F26, F28), (F29, F34)] c!"--nohome" c!"nohome" (.bool true),
    wrong [(F23, F25)] [c!"--noboot"],
    flag [(F26, F28), (F29, F34)] c!"--noboot" c!"noboot" (.bool true),
    wrong [(F23, F25)] [c!"--noswap"],
    flag [(F26, F28), (F29, F34)] c!"--noswap" c!"noswap" (.bool true),
    wrong [(F26, F28)] [c!"--luks-version=QX"],
    text [(RHEL8, F34)] c!"--luks-version" c!"luks_version",
    wrong [(F26, F28)] [c!"--pbkdf=QX"],
    text [(RHEL8, F34)] c!"--pbkdf" c!"pbkdf",
    wrong [(F26, F28)] [c!"--pbkdf-memory=42"],
    fixed [(RHEL8, F34)] [c!"--pbkdf-memory=42"] [(c!"pbkdf_memory", .int 42)],
    wrong [(F26, F28)] [c!"--pbkdf-time=42"],
    fixed [(RHEL8, F34)] [c!"--pbkdf-time=42"] [(c!"pbkdf_time", .int 42)],
    wrong [(F26, F28)] [c!"--pbkdf-iterations=42"],
    fixed [(RHEL8, F34)] [c!"--pbkdf-iterations=42"] [(c!"pbkdf_iterations", .int 42)]]

/-- `autostep ` -/
def autostepLines : CommandLines where
  cmd := c!"autostep"
  base := []
  start := [([(RHEL3, F33)], [(c!"autostep", .bool true)])]
  lines := [
    flag [(RHEL3, F33)] c!"--autoscreenshot" c!"autoscreenshot" (.bool true)]

/-- `bootloader ` -/
def bootloaderLines : CommandLines where
  cmd := c!"bootloader"
  base := []
  start := [([(RHEL3, F34)], [(c!"location", .str c!"mbr")])]
  lines := [
    text [(RHEL3, RHEL4), (F34, F34)] c!"--append" c!"appendLine",
    fixed [(RHEL3, RHEL4), (F34, F34)] [c!"--location=mbr"] [],
    fixed [(RHEL3, RHEL4), (F34, F34)] [c!"--location=partition"] [(c!"location", .str c!"partition")],
    fixed [(RHEL3, RHEL4), (F34, F34)] [c!"--location=none"] [(c!"location", .str c!"none")],
    fixed [(RHEL3, RHEL4), (F34, F34)] [c!"--location=boot"] [(c!"location", .str c!"boot")],
    wrong [(F14, F14)] [c!"--lba32"],
    flag [(RHEL3, RHEL4)] c!"--lba32" c!"forceLBA" (.bool true),
    text [(RHEL3, RHEL4), (F34, F34)] c!"--password" c!"password",
    text [(RHEL3, RHEL4), (F14, F14)] c!"--md5pass" c!"md5pass",
    ⟨[(RHEL6, RHEL6), (F15, F16), (F34, F34)], fun x => [c!"--md5pass=" ++ x], some fun x => [(c!"password", .str x), (c!"isCrypted", .bool true)]⟩,
    wrong [(F34, F34)] [c!"--upgrade"],
    flag [(RHEL3, RHEL4)] c!"--upgrade" c!"upgrade" (.bool true),
    items [(RHEL3, RHEL4), (F34, F34)] c!"--driveorder" c!"driveorder",
    fixed [(F8, F11), (F34, F34)] [c!"--timeout=42"] [(c!"timeout", .int 42)],
    wrong [(FC4, FC6), (F7, F7)] [c!"--timeout=42"],
    text [(F8, F11), (F34, F34)] c!"--default" c!"default",
    wrong [(FC4, FC6), (F7, F7)] [c!"--default=QX"],
    wrong [(F12, F13), (F14, F14)] [c!"--iscrypted"],
    flag [(RHEL6, RHEL6), (F15, F16), (F34, F34)] c!"--iscrypted" c!"isCrypted" (.bool true),
    wrong [(F15, F16)] [c!"--boot-drive=QX"],
    fixed [(F17, F17), (F34, F34)] [c!"--boot-drive=QX"] [(c!"bootDrive", .str c!"QX")],
    wrong [(F17, F17)] [c!"--leavebootorder"],
    flag [(F18, F18), (F34, F34)] c!"--leavebootorder" c!"leavebootorder" (.bool true),
    wrong [(F18, F18)] [c!"--extlinux"],
    flag [(F19, F20), (F34, F34)] c!"--extlinux" c!"extlinux" (.bool true),
    wrong [(F19, F20)] [c!"--disabled"],
    flag [(F21, F21), (F22, F28), (F34, F34)] c!"--disabled" c!"disabled" (.bool true),
    wrong [(F19, F20)] [c!"--nombr"],
    flag [(F21, F21), (F22, F28), (F34, F34)] c!"--nombr" c!"nombr" (.bool true),
    wrong [(FC4, FC6), (F7, F7)] [c!"--linear"],
    fixed [(RHEL3, RHEL4)] [c!"--linear"] [],
    wrong [(FC4, FC6), (F7, F7)] [c!"--nolinear"],
    flag [(RHEL3, RHEL4)] c!"--nolinear" c!"linear" (.bool false),
    wrong [(FC4, FC6), (F7, F7)] [c!"--useLilo"],
    flag [(RHEL3, RHEL4)] c!"--useLilo" c!"useLilo" (.bool true),
    wrong [(FC4, FC6), (F7, F7)] [c!"--hvargs=QX"],
    text [(RHEL5, RHEL5)] c!"--hvargs" c!"hvArgs"]

/-- `btrfs /x a` -/
def btrfsLines : CommandLines where
  cmd := c!"btrfs"
  base := [c!"/x", c!"a"]
  start := [([(F17, F28), (F29, F34)], [(c!"format", .bool true), (c!"mountpoint", .str c!"/x"), (c!"devices", .list [c!"a"])])]
  lines := [
    fixed [(F17, F28), (F29, F34)] [c!"--noformat"] [(c!"format", .bool false), (c!"preexist", .bool true)],
    fixed [(F17, F28), (F29, F34)] [c!"--useexisting"] [(c!"format", .bool false), (c!"preexist", .bool true)],
    text [(F17, F28), (F29, F34)] c!"--label" c!"label",
    fixed [(F17, F28), (F29, F34)] [c!"--data=raid0"] [(c!"dataLevel", .str c!"raid0")],
    fixed [(F17, F28), (F29, F34)] [c!"--data=0"] [(c!"dataLevel", .str c!"raid0")],
    fixed [(F17, F28), (F29, F34)] [c!"--data=raid1"] [(c!"dataLevel", .str c!"raid1")],
    fixed [(F17, F28), (F29, F34)] [c!"--data=1"] [(c!"dataLevel", .str c!"raid1")],
    fixed [(F17, F28), (F29, F34)] [c!"--data=raid10"] [(c!"dataLevel", .str c!"raid10")],
    fixed [(F17, F28), (F29, F34)] [c!"--data=10"] [(c!"dataLevel", .str c!"raid10")],
    fixed [(F17, F28), (F29, F34)] [c!"--data=single"] [(c!"dataLevel", .str c!"single")],
    fixed [(F17, F28), (F29, F34)] [c!"--metadata=raid0"] [(c!"metaDataLevel", .str c!"raid0")],
    fixed [(F17, F28), (F29, F34)] [c!"--metadata=0"] [(c!"metaDataLevel", .str c!"raid0")],
    fixed [(F17, F28), (F29, F34)] [c!"--metadata=raid1"] [(c!"metaDataLevel", .str c!"raid1")],
    fixed [(F17, F28), (F29, F34)] [c!"--metadata=1"] [(c!"metaDataLevel", .str c!"raid1")],
    fixed [(F17, F28), (F29, F34)] [c!"--metadata=raid10"] [(c!"metaDataLevel", .str c!"raid10")],
    fixed [(F17, F28), (F29, F34)] [c!"--metadata=10"] [(c!"metaDataLevel", .str c!"raid10")],
    fixed [(F17, F28), (F29, F34)] [c!"--metadata=single"] [(c!"metaDataLevel", .str c!"single")],
    wrong [(F17, F28), (F29, F34)] [c!"--subvol"],
    text [(F17, F28), (F29, F34)] c!"--parent" c!"parent",
    text [(F17, F28), (F29, F34)] c!"--name" c!"name",
    wrong [(F17, F21), (F22, F22)] [c!"--mkfsoptions=QX"],
    text [(RHEL7, RHEL7), (F23, F28), (F29, F34)] c!"--mkfsoptions" c!"mkfsopts"]

/-- `btrfs /x --subvol --name=s LABEL=l` -/
def btrfsLines2 : CommandLines where
  cmd := c!"btrfs"
  base := [c!"/x", c!"--subvol", c!"--name=s", c!"LABEL=l"]
  start := [([(F17, F28), (F29, F34)], [(c!"format", .bool true), (c!"mountpoint", .str c!"/x"), (c!"devices", .list [c!"LABEL=l"]), (c!"subvol", .bool true), (c!"name", .str c!"s")])]
  lines := [
    text [(F17, F28), (F29, F34)] c!"--parent" c!"parent"]

/-- `btrfs /x --noformat LABEL=l` -/
def btrfsLines3 : CommandLines where
  cmd := c!"btrfs"
  base := [c!"/x", c!"--noformat", c!"LABEL=l"]
  start := [([(F17, F28), (F29, F34)], [(c!"preexist", .bool true), (c!"mountpoint", .str c!"/x"), (c!"devices", .list [c!"LABEL=l"])])]
  lines := [
    fixed [(F17, F28), (F29, F34)] [c!"--useexisting"] []]

/-- `cdrom ` -/
def cdromLines : CommandLines where
  cmd := c!"cdrom"
  base := []
  start := [([(RHEL3, F34)], [])]
  lines := [
    wrong [(RHEL3, F34)] [c!"x"],
    wrong [(RHEL3, F34)] [c!"--x"]]

/-- `clearpart ` -/
def clearpartLines : CommandLines where
  cmd := c!"clearpart"
  base := []
  start := [([(RHEL3, F34)], [])]
  lines := [
    flag [(RHEL3, F34)] c!"--all" c!"type" (.int 1),
    items [(RHEL3, F34)] c!"--drives" c!"drives",
    flag [(RHEL3, F34)] c!"--initlabel" c!"initAll" (.bool true),
    flag [(RHEL3, F34)] c!"--linux" c!"type" (.int 0),
    flag [(RHEL3, F34)] c!"--none" c!"type" (.int 2),
    wrong [(RHEL3, F16)] [c!"--list=QX"],
    fixed [(F17, F34)] [c!"--list=QX"] [(c!"type", .int 3), (c!"devices", .list [c!"QX"])],
    wrong [(F17, F20)] [c!"--disklabel=QX"],
    text [(F21, F34)] c!"--disklabel" c!"disklabel",
    wrong [(F21, F21), (F22, F27)] [c!"--cdl"],
    flag [(RHEL7, RHEL7), (F28, F34)] c!"--cdl" c!"cdl" (.bool true)]

/-- `clearpart --all` -/
def clearpartLines2 : CommandLines where
  cmd := c!"clearpart"
  base := [c!"--all"]
  start := [([(RHEL3, F34)], [(c!"type", .int 1)])]
  lines := [
    flag [(RHEL3, F34)] c!"--initlabel" c!"initAll" (.bool true),
    items [(RHEL3, F34)] c!"--drives" c!"drives",
    flag [(RHEL3, F34)] c!"--linux" c!"type" (.int 0)]

/-- `cmdline ` -/
def cmdlineLines : CommandLines where
  cmd := c!"cmdline"
  base := []
  start := [([(RHEL3, F34)], [(c!"displayMode", .int 0)])]
  lines := [
    wrong [(RHEL3, F34)] [c!"--non-interactive"]]

/-- `device e100` -/
def deviceLines : CommandLines where
  cmd := c!"device"
  base := [c!"e100"]
  start := [([(F8, F23)], [(c!"moduleName", .str c!"e100")])]
  lines := [
    text [(F8, F23)] c!"--opts" c!"moduleOpts"]

/-- `device scsi e100` -/
def deviceLines2 : CommandLines where
  cmd := c!"device"
  base := [c!"scsi", c!"e100"]
  start := [([(RHEL3, F7)], [(c!"type", .str c!"scsi"), (c!"moduleName", .str c!"e100")])]
  lines := [
    text [(RHEL3, F7)] c!"--opts" c!"moduleOpts"]

/-- `dmraid --name=n --dev=d` -/
def dmraidLines : CommandLines where
  cmd := c!"dmraid"
  base := [c!"--name=n", c!"--dev=d"]
  start := [([(FC6, F23)], [(c!"name", .str c!"n"), (c!"devices", .list [c!"d"])])]
  lines := [
    fixed [(FC6, F23)] [c!"--name=QX"] [(c!"name", .str c!"QX")],
    ⟨[(FC6, F23)], fun x => [c!"--dev=" ++ x], some fun x => [(c!"devices", .list [c!"d", x])]⟩]

/-- `driverdisk d` -/
def driverdiskLines : CommandLines where
  cmd := c!"driverdisk"
  base := [c!"d"]
  start := [([(RHEL3, F34)], [(c!"partition", .str c!"d")])]
  lines := [
    wrong [(RHEL3, F34)] [c!"--source=QX"],
    text [(RHEL3, RHEL6)] c!"--type" c!"type",
    wrong [(F14, F34)] [c!"--type=QX"],
    wrong [(RHEL3, F34)] [c!"--biospart=QX"]]

/-- `driverdisk --source=s` -/
def driverdiskLines2 : CommandLines where
  cmd := c!"driverdisk"
  base := [c!"--source=s"]
  start := [([(RHEL3, F34)], [(c!"source", .str c!"s")])]
  lines := []

/-- `driverdisk --biospart=b` -/
def driverdiskLines3 : CommandLines where
  cmd := c!"driverdisk"
  base := [c!"--biospart=b"]
  start := [([(RHEL4, F34)], [(c!"biospart", .str c!"b")])]
  lines := []

/-- `eula --agreed` -/
def eulaLines : CommandLines where
  cmd := c!"eula"
  base := [c!"--agreed"]
  start := [([(F20, F34)], [(c!"agreed", .bool true)])]
  lines := [
    fixed [(F20, F34)] [c!"--accepted"] [],
    fixed [(F20, F34)] [c!"--accept"] [],
    fixed [(F20, F34)] [c!"--agree"] []]

/-- `fcoe --nic=n` -/
def fcoeLines : CommandLines where
  cmd := c!"fcoe"
  base := [c!"--nic=n"]
  start := [([(F12, F34)], [(c!"nic", .str c!"n")])]
  lines := [
    text [(F12, F34)] c!"--nic" c!"nic",
    wrong [(F12, F12)] [c!"--dcb"],
    flag [(F13, F34)] c!"--dcb" c!"dcb" (.bool true),
    wrong [(F13, F17), (F19, F21), (F22, F27)] [c!"--autovlan"],
    flag [(RHEL7, RHEL7), (F28, F34)] c!"--autovlan" c!"autovlan" (.bool true)]

/-- `firewall ` -/
def firewallLines : CommandLines where
  cmd := c!"firewall"
  base := []
  start := [([(RHEL3, F27)], [(c!"enabled", .bool true)]),
    ([(F28, F34)], [(c!"enabled", .bool true), (c!"use_system_defaults", .bool false)])]
  lines := [
    flag [(RHEL3, F34)] c!"--disable" c!"enabled" (.bool false),
    flag [(RHEL3, F34)] c!"--disabled" c!"enabled" (.bool false),
    fixed [(RHEL3, F34)] [c!"--enable"] [],
    fixed [(RHEL3, F34)] [c!"--enabled"] [],
    fixed [(RHEL3, F34)] [c!"--port=QX:tcp"] [(c!"ports", .list [c!"QX:tcp"])],
    ⟨[(RHEL3, F34)], fun x => [c!"--trust=" ++ x], some fun x => [(c!"trusts", .list [x])]⟩,
    items [(F10, F34)] c!"--service" c!"services",
    wrong [(F9, F9)] [c!"--service=QX"],
    flag [(F10, F34)] c!"--ftp" c!"services" (.list [c!"ftp"]),
    flag [(RHEL3, F9)] c!"--ftp" c!"ports" (.list [c!"21:tcp"]),
    flag [(F10, F34)] c!"--http" c!"services" (.list [c!"http"]),
    flag [(RHEL3, F9)] c!"--http" c!"ports" (.list [c!"80:tcp", c!"443:tcp"]),
    flag [(F10, F34)] c!"--smtp" c!"services" (.list [c!"smtp"]),
    flag [(RHEL3, F9)] c!"--smtp" c!"ports" (.list [c!"25:tcp"]),
    flag [(F10, F34)] c!"--ssh" c!"services" (.list [c!"ssh"]),
    flag [(RHEL3, F9)] c!"--ssh" c!"ports" (.list [c!"22:tcp"]),
    text [(F10, RHEL6)] c!"--telnet" c!"telnet",
    wrong [(F9, F9), (F14, F19)] [c!"--telnet=QX"],
    wrong [(F14, F19)] [c!"--remove-service=QX"],
    items [(F20, F34)] c!"--remove-service" c!"remove_services",
    wrong [(F20, F27)] [c!"--use-system-defaults"],
    flag [(F28, F34)] c!"--use-system-defaults" c!"use_system_defaults" (.bool true),
    wrong [(F10, RHEL6)] [c!"--telnet"],
    flag [(RHEL3, F9)] c!"--telnet" c!"ports" (.list [c!"23:tcp"]),
    text [(RHEL3, F8)] c!"--high" c!"high",
    wrong [(F9, F9)] [c!"--high=QX"],
    text [(RHEL3, F8)] c!"--medium" c!"medium",
    wrong [(F9, F9)] [c!"--medium=QX"]]

/-- `firstboot ` -/
def firstbootLines : CommandLines where
  cmd := c!"firstboot"
  base := []
  start := [([(RHEL3, F34)], [])]
  lines := [
    flag [(RHEL3, F34)] c!"--disable" c!"firstboot" (.int 1),
    flag [(RHEL3, F34)] c!"--disabled" c!"firstboot" (.int 1),
    flag [(RHEL3, F34)] c!"--enable" c!"firstboot" (.int 0),
    flag [(RHEL3, F34)] c!"--enabled" c!"firstboot" (.int 0),
    flag [(RHEL3, F34)] c!"--reconfig" c!"firstboot" (.int 2)]

/-- `graphical ` -/
def graphicalLines : CommandLines where
  cmd := c!"graphical"
  base := []
  start := [([(RHEL3, F34)], [(c!"displayMode", .int 1)])]
  lines := [
    wrong [(RHEL3, F25)] [c!"--non-interactive"],
    flag [(F26, F34)] c!"--non-interactive" c!"nonInteractive" (.bool true)]

/-- `group --name=g` -/
def groupLines : CommandLines where
  cmd := c!"group"
  base := [c!"--name=g"]
  start := [([(F12, F34)], [(c!"name", .str c!"g")])]
  lines := [
    text [(F12, F34)] c!"--name" c!"name",
    fixed [(F12, F34)] [c!"--gid=42"] [(c!"gid", .int 42)]]

/-- `halt ` -/
def haltLines : CommandLines where
  cmd := c!"halt"
  base := []
  start := [([(RHEL3, F17)], []),
    ([(F18, F34)], [(c!"action", .int 0)])]
  lines := [
    flag [(FC6, F34)] c!"--eject" c!"eject" (.bool true),
    fixed [(RHEL3, FC5)] [c!"--eject"] [],
    wrong [(FC6, F22)] [c!"--kexec"],
    flag [(F23, F34)] c!"--kexec" c!"kexec" (.bool true),
    fixed [(RHEL3, FC5)] [c!"--kexec"] []]

/-- `harddrive --dir=d --partition=p` -/
def harddriveLines : CommandLines where
  cmd := c!"harddrive"
  base := [c!"--dir=d", c!"--partition=p"]
  start := [([(RHEL3, F34)], [(c!"partition", .str c!"p"), (c!"dir", .str c!"d")])]
  lines := [
    wrong [(RHEL3, F34)] [c!"--biospart=QX"],
    text [(RHEL3, F34)] c!"--partition" c!"partition",
    text [(RHEL3, F34)] c!"--dir" c!"dir"]

/-- `harddrive --dir=d --biospart=b` -/
def harddriveLines2 : CommandLines where
  cmd := c!"harddrive"
  base := [c!"--dir=d", c!"--biospart=b"]
  start := [([(RHEL3, F32)], [(c!"biospart", .str c!"b"), (c!"dir", .str c!"d")])]
  lines := [
    wrong [(RHEL3, F32)] [c!"--partition=QX"],
    text [(RHEL3, F32)] c!"--dir" c!"dir"]

/-- `hmc ` -/
def hmcLines : CommandLines where
  cmd := c!"hmc"
  base := []
  start := [([(RHEL7, RHEL7), (F28, F34)], [])]
  lines := [
    wrong [(RHEL7, RHEL7), (F28, F34)] [c!"x"],
    wrong [(RHEL7, RHEL7), (F28, F34)] [c!"--x"]]

/-- `ignoredisk --drives=a` -/
def ignorediskLines : CommandLines where
  cmd := c!"ignoredisk"
  base := [c!"--drives=a"]
  start := [([(RHEL3, F34)], [(c!"ignoredisk", .list [c!"a"])])]
  lines := [
    fixed [(RHEL3, F34)] [c!"--drives=QX"] [(c!"ignoredisk", .list [c!"QX"])],
    wrong [(RHEL3, F34)] [c!"--only-use=QX"],
    wrong [(F14, F28), (F34, F34)] [c!"--interactive"],
    flag [(RHEL8, F33)] c!"--interactive" c!"interactive" (.bool true)]

/-- `ignoredisk --only-use=a` -/
def ignorediskLines2 : CommandLines where
  cmd := c!"ignoredisk"
  base := [c!"--only-use=a"]
  start := [([(RHEL4, RHEL4), (RHEL5, RHEL5), (F8, F34)], [(c!"onlyuse", .list [c!"a"])])]
  lines := [
    wrong [(RHEL4, RHEL4), (RHEL5, RHEL5), (F8, F34)] [c!"--drives=QX"],
    fixed [(RHEL4, RHEL4), (RHEL5, RHEL5), (F8, F34)] [c!"--only-use=QX"] [(c!"onlyuse", .list [c!"QX"])]]

/-- `ignoredisk --interactive` -/
def ignorediskLines3 : CommandLines where
  cmd := c!"ignoredisk"
  base := [c!"--interactive"]
  start := [([(RHEL6, F28)], [(c!"interactive", .bool true)])]
  lines := [
    wrong [(RHEL6, F28)] [c!"--only-use=QX"]]

/-- `install ` -/
def installLines : CommandLines where
  cmd := c!"install"
  base := []
  start := [([(RHEL3, F28)], [(c!"upgrade", .bool false)])]
  lines := [
    wrong [(RHEL3, F10)] [c!"--root-device=QX"],
    text [(F11, F28)] c!"--root-device" c!"root_device"]

/-- `interactive ` -/
def interactiveLines : CommandLines where
  cmd := c!"interactive"
  base := []
  start := [([(RHEL3, RHEL6)], [(c!"interactive", .bool true)])]
  lines := [
    wrong [(RHEL3, RHEL6)] [c!"x"]]

/-- `iscsi --ipaddr=i` -/
def iscsiLines : CommandLines where
  cmd := c!"iscsi"
  base := [c!"--ipaddr=i"]
  start := [([(FC6, F34)], [(c!"ipaddr", .str c!"i"), (c!"port", .int 3260)])]
  lines := [
    text [(FC6, F34)] c!"--target" c!"target",
    text [(FC6, F34)] c!"--ipaddr" c!"ipaddr",
    fixed [(FC6, F34)] [c!"--port=42"] [(c!"port", .int 42)],
    text [(FC6, F34)] c!"--user" c!"user",
    text [(FC6, F34)] c!"--password" c!"password",
    text [(F10, F34)] c!"--reverse-user" c!"user_in",
    wrong [(FC6, F9)] [c!"--reverse-user=QX"],
    text [(F10, F34)] c!"--reverse-password" c!"password_in",
    wrong [(FC6, F9)] [c!"--reverse-password=QX"],
    wrong [(F10, F13), (F14, F16)] [c!"--iface=QX"],
    text [(RHEL6, RHEL6), (F17, F34)] c!"--iface" c!"iface"]

/-- `iscsiname I` -/
def iscsinameLines : CommandLines where
  cmd := c!"iscsiname"
  base := [c!"I"]
  start := [([(FC6, F34)], [(c!"iscsiname", .str c!"I")])]
  lines := []

/-- `key K` -/
def keyLines : CommandLines where
  cmd := c!"key"
  base := [c!"K"]
  start := [([(RHEL5, RHEL5), (RHEL6, RHEL6)], [(c!"key", .str c!"K")])]
  lines := [
    fixed [(RHEL5, RHEL5), (RHEL6, RHEL6)] [c!"--skip"] [(c!"key", .int (-99)), (c!"skip", .bool true)]]

/-- `key --skip` -/
def keyLines2 : CommandLines where
  cmd := c!"key"
  base := [c!"--skip"]
  start := [([(RHEL5, RHEL5), (RHEL6, RHEL6)], [(c!"key", .int (-99)), (c!"skip", .bool true)])]
  lines := []

/-- `keyboard K` -/
def keyboardLines : CommandLines where
  cmd := c!"keyboard"
  base := [c!"K"]
  start := [([(RHEL3, F17)], [(c!"keyboard", .str c!"K")]),
    ([(F18, F34)], [(c!"_keyboard", .str c!"K"), (c!"kbd", .list [c!"K"])])]
  lines := [
    wrong [(RHEL3, F17)] [c!"--vckeymap=QX"],
    text [(F18, F34)] c!"--vckeymap" c!"vc_keymap",
    wrong [(RHEL3, F17)] [c!"--xlayouts=QX"],
    items [(F18, F34)] c!"--xlayouts" c!"x_layouts",
    wrong [(RHEL3, F17)] [c!"--switch=QX"],
    items [(F18, F34)] c!"--switch" c!"switch_options"]

/-- `keyboard --vckeymap=v` -/
def keyboardLines2 : CommandLines where
  cmd := c!"keyboard"
  base := [c!"--vckeymap=v"]
  start := [([(F18, F34)], [(c!"vc_keymap", .str c!"v"), (c!"kbd", .list [])])]
  lines := [
    items [(F18, F34)] c!"--xlayouts" c!"x_layouts",
    items [(F18, F34)] c!"--switch" c!"switch_options"]

/-- `lang L` -/
def langLines : CommandLines where
  cmd := c!"lang"
  base := [c!"L"]
  start := [([(RHEL3, F34)], [(c!"lang", .str c!"L")])]
  lines := [
    wrong [(RHEL3, F18)] [c!"--addsupport=QX"],
    items [(F19, F34)] c!"--addsupport" c!"addsupport"]

/-- `langsupport ` -/
def langsupportLines : CommandLines where
  cmd := c!"langsupport"
  base := []
  start := [([(RHEL3, FC4)], [(c!"deflang", .str c!"en_US.UTF-8")])]
  lines := [
    text [(RHEL3, FC4)] c!"--default" c!"deflang"]

/-- `lilo ` -/
def liloLines : CommandLines where
  cmd := c!"lilo"
  base := []
  start := [([(RHEL3, RHEL4)], [(c!"location", .str c!"mbr"), (c!"useLilo", .bool true)])]
  lines := [
    text [(RHEL3, RHEL4)] c!"--append" c!"appendLine",
    fixed [(RHEL3, RHEL4)] [c!"--linear"] [],
    flag [(RHEL3, RHEL4)] c!"--nolinear" c!"linear" (.bool false),
    fixed [(RHEL3, RHEL4)] [c!"--location=mbr"] [],
    fixed [(RHEL3, RHEL4)] [c!"--location=partition"] [(c!"location", .str c!"partition")],
    fixed [(RHEL3, RHEL4)] [c!"--location=none"] [(c!"location", .str c!"none")],
    fixed [(RHEL3, RHEL4)] [c!"--location=boot"] [(c!"location", .str c!"boot")],
    flag [(RHEL3, RHEL4)] c!"--lba32" c!"forceLBA" (.bool true),
    text [(RHEL3, RHEL4)] c!"--password" c!"password",
    text [(RHEL3, RHEL4)] c!"--md5pass" c!"md5pass",
    flag [(RHEL3, RHEL4)] c!"--upgrade" c!"upgrade" (.bool true),
    fixed [(RHEL3, RHEL4)] [c!"--useLilo"] [],
    items [(RHEL3, RHEL4)] c!"--driveorder" c!"driveorder"]

/-- `lilocheck ` -/
def lilocheckLines : CommandLines where
  cmd := c!"lilocheck"
  base := []
  start := [([(RHEL3, RHEL4)], [(c!"check", .bool true)])]
  lines := [
    wrong [(RHEL3, RHEL4)] [c!"x"]]

/-- `liveimg --url=u` -/
def liveimgLines : CommandLines where
  cmd := c!"liveimg"
  base := [c!"--url=u"]
  start := [([(F19, F34)], [(c!"noverifyssl", .bool false), (c!"url", .str c!"u")])]
  lines := [
    text [(F19, F34)] c!"--url" c!"url",
    text [(F19, F34)] c!"--proxy" c!"proxy",
    flag [(F19, F34)] c!"--noverifyssl" c!"noverifyssl" (.bool true),
    text [(F19, F34)] c!"--checksum" c!"checksum"]

/-- `logging ` -/
def loggingLines : CommandLines where
  cmd := c!"logging"
  base := []
  start := [([(FC6, F34)], [(c!"_level_provided", .bool true)])]
  lines := [
    text [(FC6, F34)] c!"--host" c!"host",
    wrong [(FC6, F34)] [c!"--port=QX"],
    fixed [(FC6, F34)] [c!"--level=debug"] [(c!"level", .str c!"debug")],
    fixed [(FC6, F34)] [c!"--level=info"] [],
    fixed [(FC6, F34)] [c!"--level=warning"] [(c!"level", .str c!"warning")],
    fixed [(FC6, F34)] [c!"--level=error"] [(c!"level", .str c!"error")],
    fixed [(FC6, F34)] [c!"--level=critical"] [(c!"level", .str c!"critical")],
    wrong [(FC6, F33)] [c!"--level=QX"],
    text [(F34, F34)] c!"--level" c!"level"]

/-- `logging --host=h` -/
def loggingLines2 : CommandLines where
  cmd := c!"logging"
  base := [c!"--host=h"]
  start := [([(FC6, F34)], [(c!"host", .str c!"h"), (c!"_level_provided", .bool true)])]
  lines := [
    text [(FC6, F34)] c!"--port" c!"port",
    fixed [(FC6, F34)] [c!"--level=debug"] [(c!"level", .str c!"debug")]]

/-- `logvol /x --name=n --vgname=g --size=1` -/
def logvolLines : CommandLines where
  cmd := c!"logvol"
  base := [c!"/x", c!"--name=n", c!"--vgname=g", c!"--size=1"]
  start := [([(RHEL3, RHEL4), (F9, F34)], [(c!"name", .str c!"n"), (c!"format", .bool true), (c!"size", .int 1), (c!"vgname", .str c!"g"), (c!"mountpoint", .str c!"/x"), (c!"mntpoint", .list [c!"/x"])]),
    ([(FC4, F8)], [(c!"name", .str c!"n"), (c!"format", .bool true), (c!"size", .int 1), (c!"vgname", .str c!"g"), (c!"mountpoint", .str c!"/x"), (c!"bytesPerInode", .int 4096), (c!"mntpoint", .list [c!"/x"])])]
  lines := [
    text [(RHEL3, RHEL4), (F29, F34)] c!"--fstype" c!"fstype",
    flag [(RHEL3, RHEL4), (F29, F34)] c!"--grow" c!"grow" (.bool true),
    fixed [(RHEL3, RHEL4), (F29, F34)] [c!"--maxsize=42"] [(c!"maxSizeMB", .int 42)],
    text [(RHEL3, RHEL4), (F29, F34)] c!"--name" c!"name",
    fixed [(RHEL3, RHEL4), (F29, F34)] [c!"--noformat"] [(c!"format", .bool false), (c!"preexist", .bool true)],
    wrong [(F21, F21), (F22, F22)] [c!"--percent=42"],
    fixed [(RHEL3, RHEL4)] [c!"--percent=42"] [(c!"percent", .int 42)],
    flag [(RHEL3, RHEL4), (F29, F34)] c!"--recommended" c!"recommended" (.bool true),
    fixed [(RHEL3, RHEL4), (F29, F34)] [c!"--size=42"] [(c!"size", .int 42)],
    flag [(RHEL3, RHEL4), (F29, F34)] c!"--useexisting" c!"preexist" (.bool true),
    text [(RHEL3, RHEL4), (F29, F34)] c!"--vgname" c!"vgname",
    text [(FC4, FC6), (F7, F8), (F29, F34)] c!"--fsoptions" c!"fsopts",
    wrong [(RHEL3, RHEL4)] [c!"--fsoptions=QX"],
    text [(F9, F11)] c!"--bytes-per-inode" c!"bytes_per_inode",
    wrong [(FC4, FC6), (F7, F8), (F14, F14)] [c!"--bytes-per-inode=QX"],
    text [(F9, F11), (F29, F34)] c!"--fsprofile" c!"fsprofile",
    wrong [(FC4, FC6), (F7, F8)] [c!"--fsprofile=QX"],
    flag [(RHEL5, RHEL5), (F9, F11), (F29, F34)] c!"--encrypted" c!"encrypted" (.bool true),
    wrong [(FC4, FC6), (F7, F8)] [c!"--encrypted"],
    text [(RHEL5, RHEL5), (F9, F11), (F29, F34)] c!"--passphrase" c!"passphrase",
    wrong [(FC4, FC6), (F7, F8)] [c!"--passphrase=QX"],
    wrong [(F9, F11)] [c!"--escrowcert=QX"],
    text [(F12, F13), (F29, F34)] c!"--escrowcert" c!"escrowcert",
    wrong [(F9, F11)] [c!"--backuppassphrase"],
    flag [(F12, F13), (F29, F34)] c!"--backuppassphrase" c!"backuppassphrase" (.bool true),
    wrong [(F14, F14)] [c!"--label=QX"],
    text [(F15, F15), (F29, F34)] c!"--label" c!"label",
    wrong [(RHEL3, F34)] [c!"--resize"],
    wrong [(F12, F13), (F14, F14), (F17, F17)] [c!"--hibernation"],
    flag [(RHEL6, RHEL6), (F18, F18), (F29, F34)] c!"--hibernation" c!"hibernation" (.bool true),
    wrong [(F12, F13), (F14, F14), (F17, F17)] [c!"--cipher=QX"],
    text [(RHEL6, RHEL6), (F18, F18), (F29, F34)] c!"--cipher" c!"cipher",
    wrong [(F12, F13), (F14, F14), (F19, F19)] [c!"--thinpool"],
    flag [(RHEL6, RHEL6), (F20, F20), (F29, F34)] c!"--thinpool" c!"thin_pool" (.bool true),
    wrong [(RHEL3, F34)] [c!"--thin"],
    wrong [(F12, F13), (F14, F14), (F19, F19)] [c!"--poolname=QX"],
    text [(RHEL6, RHEL6), (F20, F20), (F29, F34)] c!"--poolname" c!"pool_name",
    wrong [(RHEL3, F34)] [c!"--chunksize=42"],
    wrong [(RHEL3, F34)] [c!"--metadatasize=42"],
    wrong [(F12, F13), (F14, F14), (F20, F20)] [c!"--profile=QX"],
    text [(RHEL6, RHEL6), (F21, F21), (F22, F22), (F29, F34)] c!"--profile" c!"profile",
    wrong [(RHEL3, F34)] [c!"--cachesize=42"],
    wrong [(RHEL3, F34)] [c!"--cachemode=QX"],
    wrong [(RHEL3, F34)] [c!"--cachepvs=QX"],
    wrong [(F21, F21), (F22, F22)] [c!"--mkfsoptions=QX"],
    text [(RHEL7, RHEL7), (F23, F28), (F29, F34)] c!"--mkfsoptions" c!"mkfsopts",
    wrong [(F23, F28)] [c!"--luks-version=QX"],
    text [(RHEL8, F34)] c!"--luks-version" c!"luks_version",
    wrong [(F23, F28)] [c!"--pbkdf=QX"],
    text [(RHEL8, F34)] c!"--pbkdf" c!"pbkdf",
    wrong [(F23, F28)] [c!"--pbkdf-memory=42"],
    fixed [(RHEL8, F34)] [c!"--pbkdf-memory=42"] [(c!"pbkdf_memory", .int 42)],
    wrong [(F23, F28)] [c!"--pbkdf-time=42"],
    fixed [(RHEL8, F34)] [c!"--pbkdf-time=42"] [(c!"pbkdf_time", .int 42)],
    wrong [(F23, F28)] [c!"--pbkdf-iterations=42"],
    fixed [(RHEL8, F34)] [c!"--pbkdf-iterations=42"] [(c!"pbkdf_iterations", .int 42)],
    fixed [(F9, F11)] [c!"--bytes-per-inode=42"] [(c!"bytes_per_inode", .str c!"42")],
    wrong [(RHEL3, RHEL4), (F14, F14)] [c!"--bytes-per-inode=42"],
    fixed [(FC4, FC6), (F7, F8)] [c!"--bytes-per-inode=42"] [(c!"bytesPerInode", .int 42)]]

/-- `logvol /x --name=n --vgname=g --useexisting` -/
def logvolLines2 : CommandLines where
  cmd := c!"logvol"
  base := [c!"/x", c!"--name=n", c!"--vgname=g", c!"--useexisting"]
  start := [([(RHEL3, RHEL4), (F9, F34)], [(c!"name", .str c!"n"), (c!"format", .bool true), (c!"preexist", .bool true), (c!"vgname", .str c!"g"), (c!"mountpoint", .str c!"/x"), (c!"mntpoint", .list [c!"/x"])]),
    ([(FC4, F8)], [(c!"name", .str c!"n"), (c!"format", .bool true), (c!"preexist", .bool true), (c!"vgname", .str c!"g"), (c!"mountpoint", .str c!"/x"), (c!"bytesPerInode", .int 4096), (c!"mntpoint", .list [c!"/x"])])]
  lines := [
    fixed [(RHEL3, RHEL4), (F29, F34)] [c!"--size=42"] [(c!"size", .int 42)],
    wrong [(RHEL3, F34)] [c!"--resize"],
    flag [(RHEL3, RHEL4), (F29, F34)] c!"--noformat" c!"format" (.bool false),
    fixed [(RHEL3, RHEL4), (F29, F34)] [c!"--fstype=ext4"] [(c!"fstype", .str c!"ext4")]]

/-- `logvol /x --name=n --vgname=g` -/
def logvolLines3 : CommandLines where
  cmd := c!"logvol"
  base := [c!"/x", c!"--name=n", c!"--vgname=g"]
  start := [([(RHEL3, RHEL4), (F9, F19)], [(c!"name", .str c!"n"), (c!"format", .bool true), (c!"vgname", .str c!"g"), (c!"mountpoint", .str c!"/x"), (c!"mntpoint", .list [c!"/x"])]),
    ([(FC4, F8)], [(c!"name", .str c!"n"), (c!"format", .bool true), (c!"vgname", .str c!"g"), (c!"mountpoint", .str c!"/x"), (c!"bytesPerInode", .int 4096), (c!"mntpoint", .list [c!"/x"])])]
  lines := [
    fixed [(RHEL3, RHEL4), (F19, F19)] [c!"--percent=42"] [(c!"percent", .int 42)],
    flag [(RHEL3, RHEL4), (F19, F19)] c!"--useexisting" c!"preexist" (.bool true),
    fixed [(RHEL3, RHEL4), (F19, F19)] [c!"--noformat"] [(c!"format", .bool false), (c!"preexist", .bool true)]]

/-- `logvol /x --name=n --vgname=g --size=1 --poolname=p` -/
def logvolLines4 : CommandLines where
  cmd := c!"logvol"
  base := [c!"/x", c!"--name=n", c!"--vgname=g", c!"--size=1", c!"--poolname=p"]
  start := [([(RHEL6, RHEL6), (F20, F34)], [(c!"name", .str c!"n"), (c!"format", .bool true), (c!"size", .int 1), (c!"vgname", .str c!"g"), (c!"mountpoint", .str c!"/x"), (c!"pool_name", .str c!"p"), (c!"mntpoint", .list [c!"/x"])])]
  lines := [
    flag [(RHEL6, RHEL6), (F29, F34)] c!"--thin" c!"thin_volume" (.bool true),
    flag [(RHEL6, RHEL6), (F29, F34)] c!"--thinpool" c!"thin_pool" (.bool true),
    text [(F20, F20), (F29, F34)] c!"--label" c!"label",
    wrong [(RHEL6, RHEL6)] [c!"--label=QX"]]

/-- `logvol none --name=n --vgname=g --size=1 --thinpool` -/
def logvolLines5 : CommandLines where
  cmd := c!"logvol"
  base := [c!"none", c!"--name=n", c!"--vgname=g", c!"--size=1", c!"--thinpool"]
  start := [([(RHEL6, RHEL6), (F20, F34)], [(c!"name", .str c!"n"), (c!"format", .bool true), (c!"size", .int 1), (c!"vgname", .str c!"g"), (c!"mountpoint", .str c!"none"), (c!"thin_pool", .bool true), (c!"mntpoint", .list [c!"none"])])]
  lines := [
    fixed [(RHEL6, RHEL6), (F29, F34)] [c!"--chunksize=42"] [(c!"chunk_size", .int 42)],
    fixed [(RHEL6, RHEL6), (F29, F34)] [c!"--metadatasize=42"] [(c!"metadata_size", .int 42)],
    wrong [(F20, F20)] [c!"--profile=QX"],
    text [(RHEL6, RHEL6), (F21, F21), (F22, F22), (F29, F34)] c!"--profile" c!"profile",
    flag [(RHEL6, RHEL6), (F29, F34)] c!"--grow" c!"grow" (.bool true)]

/-- `logvol /x --name=n --vgname=g --size=1 --cachepvs=a --cachesize=5` -/
def logvolLines6 : CommandLines where
  cmd := c!"logvol"
  base := [c!"/x", c!"--name=n", c!"--vgname=g", c!"--size=1", c!"--cachepvs=a", c!"--cachesize=5"]
  start := [([(F23, F34)], [(c!"name", .str c!"n"), (c!"format", .bool true), (c!"size", .int 1), (c!"vgname", .str c!"g"), (c!"mountpoint", .str c!"/x"), (c!"cache_size", .int 5), (c!"cache_pvs", .list [c!"a"]), (c!"mntpoint", .list [c!"/x"])])]
  lines := [
    fixed [(F23, F28), (F29, F34)] [c!"--cachemode=writeback"] [(c!"cache_mode", .str c!"writeback")],
    fixed [(F23, F28), (F29, F34)] [c!"--cachemode=writethrough"] [(c!"cache_mode", .str c!"writethrough")]]

/-- `mediacheck ` -/
def mediacheckLines : CommandLines where
  cmd := c!"mediacheck"
  base := []
  start := [([(FC4, F34)], [(c!"mediacheck", .bool true)])]
  lines := [
    wrong [(FC4, F34)] [c!"x"]]

/-- `module --name=m` -/
def moduleLines : CommandLines where
  cmd := c!"module"
  base := [c!"--name=m"]
  start := [([(F29, F30)], [(c!"name", .str c!"m")]),
    ([(RHEL8, RHEL8), (F31, F34)], [(c!"name", .str c!"m"), (c!"enable", .bool true)])]
  lines := [
    text [(RHEL8, F34)] c!"--name" c!"name",
    text [(RHEL8, F34)] c!"--stream" c!"stream",
    wrong [(F29, F30)] [c!"--disable"],
    flag [(RHEL8, RHEL8), (F31, F34)] c!"--disable" c!"enable" (.bool false)]

/-- `monitor ` -/
def monitorLines : CommandLines where
  cmd := c!"monitor"
  base := []
  start := [([(RHEL3, F9)], [])]
  lines := [
    text [(RHEL3, F9)] c!"--hsync" c!"hsync",
    text [(RHEL3, F9)] c!"--monitor" c!"monitor",
    text [(RHEL3, F9)] c!"--vsync" c!"vsync",
    flag [(FC6, F9)] c!"--noprobe" c!"probe" (.bool false),
    wrong [(RHEL3, FC5)] [c!"--noprobe"]]

/-- `mount a /x` -/
def mountLines : CommandLines where
  cmd := c!"mount"
  base := [c!"a", c!"/x"]
  start := [([(F27, F34)], [(c!"mount_point", .str c!"/x"), (c!"device", .str c!"a"), (c!"mntpoint", .list [c!"/x"])])]
  lines := [
    ⟨[(F27, F34)], fun x => [c!"--reformat=" ++ x], some fun x => [(c!"format", .str x), (c!"reformat", .bool true)]⟩,
    wrong [(F27, F34)] [c!"--mkfsoptions=QX"],
    text [(F27, F34)] c!"--mountoptions" c!"mount_opts"]

/-- `mount a /x --reformat=ext4` -/
def mountLines2 : CommandLines where
  cmd := c!"mount"
  base := [c!"a", c!"/x", c!"--reformat=ext4"]
  start := [([(F27, F34)], [(c!"mount_point", .str c!"/x"), (c!"device", .str c!"a"), (c!"format", .str c!"ext4"), (c!"reformat", .bool true), (c!"mntpoint", .list [c!"/x"])])]
  lines := [
    text [(F27, F34)] c!"--mkfsoptions" c!"mkfs_opts"]

/-- `mouse generic` -/
def mouseLines : CommandLines where
  cmd := c!"mouse"
  base := [c!"generic"]
  start := [([(RHEL3, RHEL3)], [(c!"mouse", .str c!"generic")])]
  lines := [
    text [(RHEL3, RHEL3)] c!"--device" c!"device",
    flag [(RHEL3, RHEL3)] c!"--emulthree" c!"emulthree" (.bool true)]

/-- `network ` -/
def networkLines : CommandLines where
  cmd := c!"network"
  base := []
  start := [([(RHEL3, F34)], [(c!"bootProto", .str c!"dhcp"), (c!"onboot", .bool true)])]
  lines := [
    fixed [(RHEL3, RHEL3), (F27, F34)] [c!"--bootproto=dhcp"] [],
    fixed [(RHEL3, RHEL3), (F27, F34)] [c!"--bootproto=bootp"] [(c!"bootProto", .str c!"bootp")],
    fixed [(RHEL3, RHEL3), (F27, F34)] [c!"--bootproto=static"] [(c!"bootProto", .str c!"static")],
    fixed [(RHEL5, RHEL5), (F9, F13), (F14, F15), (F27, F34)] [c!"--bootproto=query"] [(c!"bootProto", .str c!"query")],
    wrong [(FC6, FC6), (F7, F8)] [c!"--bootproto=query"],
    text [(RHEL3, RHEL3), (F27, F34)] c!"--dhcpclass" c!"dhcpclass",
    text [(RHEL3, RHEL3), (F27, F34)] c!"--device" c!"device",
    text [(RHEL3, RHEL3), (F27, F34)] c!"--essid" c!"essid",
    text [(RHEL3, RHEL3), (F27, F34)] c!"--ethtool" c!"ethtool",
    text [(RHEL3, RHEL3), (F27, F34)] c!"--gateway" c!"gateway",
    text [(RHEL3, RHEL3), (F27, F34)] c!"--hostname" c!"hostname",
    text [(RHEL3, RHEL3), (F27, F34)] c!"--ip" c!"ip",
    text [(RHEL3, RHEL3), (F27, F34)] c!"--mtu" c!"mtu",
    text [(RHEL3, RHEL3), (F27, F34)] c!"--nameserver" c!"nameserver",
    text [(RHEL3, RHEL3), (F27, F34)] c!"--netmask" c!"netmask",
    flag [(RHEL3, RHEL3), (F27, F34)] c!"--nodns" c!"nodns" (.bool true),
    fixed [(RHEL3, RHEL3), (F27, F34)] [c!"--onboot=yes"] [],
    fixed [(RHEL3, RHEL3), (F27, F34)] [c!"--onboot=off"] [(c!"onboot", .bool false)],
    text [(RHEL3, RHEL3), (F27, F34)] c!"--wepkey" c!"wepkey",
    flag [(RHEL4, RHEL4), (F27, F34)] c!"--notksdevice" c!"notksdevice" (.bool true),
    wrong [(FC3, FC3)] [c!"--notksdevice"],
    fixed [(F24, F24), (F27, F34)] [c!"--noipv4"] [(c!"bootProto", .str c!""), (c!"noipv4", .bool true)],
    flag [(FC6, FC6), (F7, F7)] c!"--noipv4" c!"noipv4" (.bool true),
    wrong [(FC4, FC5)] [c!"--noipv4"],
    flag [(FC6, FC6), (F7, F7), (F27, F34)] c!"--noipv6" c!"noipv6" (.bool true),
    wrong [(FC4, FC5)] [c!"--noipv6"],
    text [(F8, F8), (F27, F34)] c!"--ipv6" c!"ipv6",
    wrong [(FC6, FC6), (F7, F7)] [c!"--ipv6=QX"],
    wrong [(F9, F13), (F14, F15)] [c!"--bootproto=ibft"],
    fixed [(RHEL6, RHEL6), (F16, F17), (F27, F34)] [c!"--bootproto=ibft"] [(c!"bootProto", .str c!"ibft")],
    wrong [(F9, F13), (F14, F15)] [c!"--activate"],
    flag [(RHEL6, RHEL6), (F16, F17), (F27, F34)] c!"--activate" c!"activate" (.bool true),
    wrong [(F9, F13), (F14, F15)] [c!"--nodefroute"],
    flag [(RHEL6, RHEL6), (F16, F17), (F27, F34)] c!"--nodefroute" c!"nodefroute" (.bool true),
    wrong [(F9, F13), (F14, F15)] [c!"--wpakey=QX"],
    text [(F16, F17), (F27, F34)] c!"--wpakey" c!"wpakey",
    wrong [(F9, F13), (F14, F15), (F18, F18)] [c!"--bondslaves=QX"],
    text [(RHEL6, RHEL6), (F19, F19), (F27, F34)] c!"--bondslaves" c!"bondslaves",
    wrong [(F9, F13), (F14, F15), (F18, F18)] [c!"--bondopts=QX"],
    text [(RHEL6, RHEL6), (F19, F19), (F27, F34)] c!"--bondopts" c!"bondopts",
    wrong [(F9, F13), (F14, F15), (F18, F18)] [c!"--vlanid=QX"],
    text [(RHEL6, RHEL6), (F19, F19), (F27, F34)] c!"--vlanid" c!"vlanid",
    wrong [(F18, F18)] [c!"--ipv6gateway=QX"],
    text [(F19, F19), (F27, F34)] c!"--ipv6gateway" c!"ipv6gateway",
    wrong [(F19, F19)] [c!"--teamslaves=QX"],
    fixed [(F20, F20), (F27, F34)] [c!"--teamslaves=QX"] [(c!"teamslaves", .pairs [(c!"QX", c!"")])],
    wrong [(F19, F19)] [c!"--teamconfig=QX"],
    text [(F20, F20), (F27, F34)] c!"--teamconfig" c!"teamconfig",
    wrong [(F20, F20)] [c!"--interfacename=QX"],
    text [(F21, F21), (F27, F34)] c!"--interfacename" c!"interfacename",
    wrong [(F21, F21)] [c!"--bridgeslaves=QX"],
    text [(RHEL7, RHEL7), (F27, F34)] c!"--bridgeslaves" c!"bridgeslaves",
    wrong [(RHEL3, F34)] [c!"--bridgeopts=QX"],
    wrong [(F21, F21), (F22, F24)] [c!"--no-activate"],
    flag [(RHEL7, RHEL7), (F25, F34)] c!"--no-activate" c!"activate" (.bool false),
    wrong [(F21, F21), (F22, F23), (F25, F26)] [c!"--bindto=mac"],
    fixed [(RHEL7, RHEL7), (F27, F34)] [c!"--bindto=mac"] [(c!"bindto", .str c!"mac")]]

/-- `network --device=b --bridgeslaves=e` -/
def networkLines2 : CommandLines where
  cmd := c!"network"
  base := [c!"--device=b", c!"--bridgeslaves=e"]
  start := [([(RHEL7, F34)], [(c!"bootProto", .str c!"dhcp"), (c!"device", .str c!"b"), (c!"onboot", .bool true), (c!"bridgeslaves", .str c!"e")])]
  lines := [
    fixed [(RHEL7, RHEL7), (F27, F34)] [c!"--bridgeopts=stp=6"] [(c!"bridgeopts", .str c!"stp=6")],
    wrong [(RHEL7, F34)] [c!"--bridgeopts=stp"],
    fixed [(RHEL7, RHEL7), (F27, F34)] [c!"--bridgeslaves=a,b"] [(c!"bridgeslaves", .str c!"a,b")]]

/-- `network --bootproto=static --ip=i` -/
def networkLines3 : CommandLines where
  cmd := c!"network"
  base := [c!"--bootproto=static", c!"--ip=i"]
  start := [([(RHEL3, F34)], [(c!"bootProto", .str c!"static"), (c!"ip", .str c!"i"), (c!"onboot", .bool true)])]
  lines := [
    text [(RHEL3, RHEL3), (F27, F34)] c!"--netmask" c!"netmask",
    text [(RHEL3, RHEL3), (F27, F34)] c!"--gateway" c!"gateway"]

/-- `network --device=t` -/
def networkLines4 : CommandLines where
  cmd := c!"network"
  base := [c!"--device=t"]
  start := [([(RHEL3, F34)], [(c!"bootProto", .str c!"dhcp"), (c!"device", .str c!"t"), (c!"onboot", .bool true)])]
  lines := [
    wrong [(F19, F19)] [c!"--teamslaves=a"],
    fixed [(F20, F20), (F27, F34)] [c!"--teamslaves=a"] [(c!"teamslaves", .pairs [(c!"a", c!"")])],
    wrong [(F9, F13), (F14, F15), (F18, F18)] [c!"--bondslaves=a,b"],
    fixed [(RHEL6, RHEL6), (F19, F19), (F27, F34)] [c!"--bondslaves=a,b"] [(c!"bondslaves", .str c!"a,b")],
    wrong [(F9, F13), (F14, F15), (F18, F18)] [c!"--vlanid=5"],
    fixed [(RHEL6, RHEL6), (F19, F19), (F27, F34)] [c!"--vlanid=5"] [(c!"vlanid", .str c!"5")]]

/-- `nfs --server=s --dir=d` -/
def nfsLines : CommandLines where
  cmd := c!"nfs"
  base := [c!"--server=s", c!"--dir=d"]
  start := [([(RHEL3, F34)], [(c!"server", .str c!"s"), (c!"dir", .str c!"d")])]
  lines := [
    text [(RHEL3, F34)] c!"--server" c!"server",
    text [(RHEL3, F34)] c!"--dir" c!"dir",
    text [(FC6, F34)] c!"--opts" c!"opts",
    wrong [(RHEL3, FC5)] [c!"--opts=QX"]]

/-- `nvdimm use --namespace=n` -/
def nvdimmLines : CommandLines where
  cmd := c!"nvdimm"
  base := [c!"use", c!"--namespace=n"]
  start := [([(RHEL7, RHEL7), (F28, F34)], [(c!"action", .str c!"use"), (c!"namespace", .str c!"n"), (c!"mode", .str c!"sector")])]
  lines := [
    text [(RHEL7, RHEL7), (F28, F34)] c!"--namespace" c!"namespace",
    wrong [(RHEL7, RHEL7), (F28, F34)] [c!"--blockdevs=QX"],
    fixed [(RHEL7, RHEL7), (F28, F34)] [c!"--mode=sector"] [],
    fixed [(RHEL7, RHEL7), (F28, F34)] [c!"--sectorsize=42"] [(c!"sectorsize", .int 42)]]

/-- `nvdimm use --blockdevs=a,b` -/
def nvdimmLines2 : CommandLines where
  cmd := c!"nvdimm"
  base := [c!"use", c!"--blockdevs=a,b"]
  start := [([(RHEL7, RHEL7), (F28, F34)], [(c!"action", .str c!"use"), (c!"mode", .str c!"sector"), (c!"blockdevs", .list [c!"a", c!"b"])])]
  lines := [
    wrong [(RHEL7, RHEL7), (F28, F34)] [c!"--namespace=QX"]]

/-- `ostreesetup --osname=o --url=http://u --ref=r` -/
def ostreesetupLines : CommandLines where
  cmd := c!"ostreesetup"
  base := [c!"--osname=o", c!"--url=http://u", c!"--ref=r"]
  start := [([(F21, F34)], [(c!"osname", .str c!"o"), (c!"remote", .str c!"o"), (c!"url", .str c!"http://u"), (c!"ref", .str c!"r")])]
  lines := [
    ⟨[(F21, F34)], fun x => [c!"--osname=" ++ x], some fun x => [(c!"osname", .str x), (c!"remote", .str x)]⟩,
    text [(F21, F34)] c!"--remote" c!"remote",
    wrong [(F21, F34)] [c!"--url=QX"],
    text [(F21, F34)] c!"--ref" c!"ref",
    flag [(F21, F34)] c!"--nogpg" c!"nogpg" (.bool true)]

/-- `part /x --size=1` -/
def partLines : CommandLines where
  cmd := c!"part"
  base := [c!"/x", c!"--size=1"]
  start := [([(RHEL3, RHEL4), (F9, F34)], [(c!"format", .bool true), (c!"size", .int 1), (c!"mountpoint", .str c!"/x"), (c!"mntpoint", .list [c!"/x"])]),
    ([(FC4, F8)], [(c!"format", .bool true), (c!"size", .int 1), (c!"mountpoint", .str c!"/x"), (c!"bytesPerInode", .int 4096), (c!"mntpoint", .list [c!"/x"])])]
  lines := [
    wrong [(F34, F34)] [c!"--active"],
    flag [(RHEL3, RHEL4)] c!"--active" c!"active" (.bool true),
    flag [(RHEL3, RHEL4), (F34, F34)] c!"--asprimary" c!"primOnly" (.bool true),
    fixed [(F11, F11)] [c!"--start=42"] [(c!"start", .str c!"42")],
    wrong [(F14, F15)] [c!"--start=42"],
    fixed [(RHEL3, RHEL4)] [c!"--start=42"] [(c!"start", .int 42)],
    fixed [(F11, F11)] [c!"--end=42"] [(c!"end", .str c!"42")],
    wrong [(F14, F15)] [c!"--end=42"],
    fixed [(RHEL3, RHEL4)] [c!"--end=42"] [(c!"end", .int 42)],
    fixed [(RHEL3, RHEL4), (F34, F34)] [c!"--fstype=QX"] [(c!"fstype", .str c!"QX")],
    fixed [(RHEL3, RHEL4), (F34, F34)] [c!"--type=QX"] [(c!"fstype", .str c!"QX")],
    flag [(RHEL3, RHEL4), (F34, F34)] c!"--grow" c!"grow" (.bool true),
    fixed [(RHEL3, RHEL4), (F34, F34)] [c!"--maxsize=42"] [(c!"maxSizeMB", .int 42)],
    flag [(RHEL3, RHEL4), (F34, F34)] c!"--noformat" c!"format" (.bool false),
    text [(RHEL3, RHEL4), (F34, F34)] c!"--onbiosdisk" c!"onbiosdisk",
    text [(RHEL3, RHEL4), (F34, F34)] c!"--ondisk" c!"disk",
    text [(RHEL3, RHEL4), (F34, F34)] c!"--ondrive" c!"disk",
    fixed [(RHEL3, RHEL4), (F34, F34)] [c!"--onpart=QX"] [(c!"onPart", .str c!"QX")],
    fixed [(RHEL3, RHEL4), (F34, F34)] [c!"--usepart=QX"] [(c!"onPart", .str c!"QX")],
    flag [(RHEL3, RHEL4), (F34, F34)] c!"--recommended" c!"recommended" (.bool true),
    fixed [(RHEL3, RHEL4), (F34, F34)] [c!"--size=42"] [(c!"size", .int 42)],
    text [(FC4, FC6), (F7, F8), (F34, F34)] c!"--fsoptions" c!"fsopts",
    wrong [(RHEL3, RHEL4)] [c!"--fsoptions=QX"],
    text [(FC4, FC6), (F7, F8), (F34, F34)] c!"--label" c!"label",
    wrong [(RHEL3, RHEL4)] [c!"--label=QX"],
    text [(F9, F10)] c!"--bytes-per-inode" c!"bytes_per_inode",
    wrong [(FC4, FC6), (F7, F8), (F14, F15)] [c!"--bytes-per-inode=QX"],
    text [(F9, F10), (F34, F34)] c!"--fsprofile" c!"fsprofile",
    wrong [(FC4, FC6), (F7, F8)] [c!"--fsprofile=QX"],
    flag [(RHEL5, RHEL5), (F9, F10), (F34, F34)] c!"--encrypted" c!"encrypted" (.bool true),
    wrong [(FC4, FC6), (F7, F8)] [c!"--encrypted"],
    text [(RHEL5, RHEL5), (F9, F10), (F34, F34)] c!"--passphrase" c!"passphrase",
    wrong [(FC4, FC6), (F7, F8)] [c!"--passphrase=QX"],
    wrong [(F9, F10), (F14, F15)] [c!"--start=QX"],
    text [(F11, F11)] c!"--start" c!"start",
    wrong [(F9, F10), (F14, F15)] [c!"--end=QX"],
    text [(F11, F11)] c!"--end" c!"end",
    wrong [(F11, F11)] [c!"--escrowcert=QX"],
    text [(F12, F13), (F34, F34)] c!"--escrowcert" c!"escrowcert",
    wrong [(F11, F11)] [c!"--backuppassphrase"],
    flag [(F12, F13), (F34, F34)] c!"--backuppassphrase" c!"backuppassphrase" (.bool true),
    wrong [(RHEL3, F34)] [c!"--resize"],
    wrong [(F12, F13), (F14, F15), (F17, F17)] [c!"--hibernation"],
    flag [(RHEL6, RHEL6), (F18, F19), (F34, F34)] c!"--hibernation" c!"hibernation" (.bool true),
    wrong [(F12, F13), (F14, F15), (F17, F17)] [c!"--cipher=QX"],
    text [(RHEL6, RHEL6), (F18, F19), (F34, F34)] c!"--cipher" c!"cipher",
    wrong [(F20, F21), (F22, F22)] [c!"--mkfsoptions=QX"],
    text [(RHEL7, RHEL7), (F23, F28), (F34, F34)] c!"--mkfsoptions" c!"mkfsopts",
    wrong [(F23, F28)] [c!"--luks-version=QX"],
    text [(RHEL8, RHEL8), (F34, F34)] c!"--luks-version" c!"luks_version",
    wrong [(F23, F28)] [c!"--pbkdf=QX"],
    text [(RHEL8, RHEL8), (F34, F34)] c!"--pbkdf" c!"pbkdf",
    wrong [(F23, F28)] [c!"--pbkdf-memory=42"],
    fixed [(RHEL8, RHEL8), (F34, F34)] [c!"--pbkdf-memory=42"] [(c!"pbkdf_memory", .int 42)],
    wrong [(F23, F28)] [c!"--pbkdf-time=42"],
    fixed [(RHEL8, RHEL8), (F34, F34)] [c!"--pbkdf-time=42"] [(c!"pbkdf_time", .int 42)],
    wrong [(F23, F28)] [c!"--pbkdf-iterations=42"],
    fixed [(RHEL8, RHEL8), (F34, F34)] [c!"--pbkdf-iterations=42"] [(c!"pbkdf_iterations", .int 42)],
    fixed [(F9, F10)] [c!"--bytes-per-inode=42"] [(c!"bytes_per_inode", .str c!"42")],
    wrong [(RHEL3, RHEL4), (F14, F15)] [c!"--bytes-per-inode=42"],
    fixed [(FC4, FC6), (F7, F8)] [c!"--bytes-per-inode=42"] [(c!"bytesPerInode", .int 42)]]

/-- `part /x --onpart=sda1 --size=1` -/
def partLines2 : CommandLines where
  cmd := c!"part"
  base := [c!"/x", c!"--onpart=sda1", c!"--size=1"]
  start := [([(RHEL3, RHEL4), (F9, F34)], [(c!"format", .bool true), (c!"onPart", .str c!"sda1"), (c!"size", .int 1), (c!"mountpoint", .str c!"/x"), (c!"mntpoint", .list [c!"/x"])]),
    ([(FC4, F8)], [(c!"format", .bool true), (c!"onPart", .str c!"sda1"), (c!"size", .int 1), (c!"mountpoint", .str c!"/x"), (c!"bytesPerInode", .int 4096), (c!"mntpoint", .list [c!"/x"])])]
  lines := [
    wrong [(F16, F16)] [c!"--resize"],
    flag [(F17, F17), (F34, F34)] c!"--resize" c!"resize" (.bool true),
    flag [(RHEL3, RHEL4), (F34, F34)] c!"--noformat" c!"format" (.bool false)]

def partitionLines : CommandLines := { partLines with cmd := c!"partition" }

def partitionLines2 : CommandLines := { partLines2 with cmd := c!"partition" }

/-- `poweroff ` -/
def poweroffLines : CommandLines where
  cmd := c!"poweroff"
  base := []
  start := [([(RHEL3, F34)], [(c!"action", .int 2)])]
  lines := [
    flag [(FC6, F34)] c!"--eject" c!"eject" (.bool true),
    fixed [(RHEL3, FC5)] [c!"--eject"] [],
    wrong [(FC6, F22)] [c!"--kexec"],
    flag [(F23, F34)] c!"--kexec" c!"kexec" (.bool true),
    fixed [(RHEL3, FC5)] [c!"--kexec"] []]

/-- `raid /x --device=1 --level=RAID1 raid.1 raid.2` -/
def raidLines : CommandLines where
  cmd := c!"raid"
  base := [c!"/x", c!"--device=1", c!"--level=RAID1", c!"raid.1", c!"raid.2"]
  start := [([(RHEL3, FC4), (F9, F18)], [(c!"device", .int 1), (c!"level", .str c!"RAID1"), (c!"format", .bool true), (c!"mountpoint", .str c!"/x"), (c!"members", .list [c!"raid.1", c!"raid.2"]), (c!"mntpoint", .list [c!"/x"]), (c!"partitions", .list [c!"raid.1", c!"raid.2"])]),
    ([(F19, F34)], [(c!"device", .str c!"1"), (c!"level", .str c!"RAID1"), (c!"format", .bool true), (c!"mountpoint", .str c!"/x"), (c!"members", .list [c!"raid.1", c!"raid.2"]), (c!"mntpoint", .list [c!"/x"]), (c!"partitions", .list [c!"raid.1", c!"raid.2"])]),
    ([(FC5, F8)], [(c!"device", .int 1), (c!"level", .str c!"RAID1"), (c!"format", .bool true), (c!"mountpoint", .str c!"/x"), (c!"members", .list [c!"raid.1", c!"raid.2"]), (c!"bytesPerInode", .int 4096), (c!"mntpoint", .list [c!"/x"]), (c!"partitions", .list [c!"raid.1", c!"raid.2"])])]
  lines := [
    wrong [(F18, F18)] [c!"--device=QX"],
    fixed [(F19, F19), (F29, F34)] [c!"--device=QX"] [(c!"device", .str c!"QX")],
    text [(RHEL3, RHEL4), (F29, F34)] c!"--fstype" c!"fstype",
    fixed [(RHEL3, RHEL4), (F29, F34)] [c!"--level=RAID0"] [(c!"level", .str c!"RAID0")],
    fixed [(RHEL3, RHEL4), (F29, F34)] [c!"--level=0"] [(c!"level", .str c!"RAID0")],
    fixed [(RHEL3, RHEL4), (F29, F34)] [c!"--level=RAID1"] [],
    fixed [(RHEL3, RHEL4), (F29, F34)] [c!"--level=1"] [],
    fixed [(RHEL3, RHEL4), (F29, F34)] [c!"--level=RAID5"] [(c!"level", .str c!"RAID5")],
    fixed [(RHEL3, RHEL4), (F29, F34)] [c!"--level=5"] [(c!"level", .str c!"RAID5")],
    fixed [(RHEL3, RHEL4), (F29, F34)] [c!"--level=RAID6"] [(c!"level", .str c!"RAID6")],
    fixed [(RHEL3, RHEL4), (F29, F34)] [c!"--level=6"] [(c!"level", .str c!"RAID6")],
    fixed [(RHEL5, RHEL5), (F29, F34)] [c!"--level=RAID10"] [(c!"level", .str c!"RAID10")],
    wrong [(FC5, FC6)] [c!"--level=RAID10"],
    fixed [(RHEL5, RHEL5), (F29, F34)] [c!"--level=10"] [(c!"level", .str c!"RAID10")],
    wrong [(FC5, FC6)] [c!"--level=10"],
    wrong [(RHEL3, F34)] [c!"--noformat"],
    fixed [(RHEL3, RHEL4), (F29, F34)] [c!"--spares=42"] [(c!"spares", .int 42)],
    wrong [(RHEL3, F34)] [c!"--useexisting"],
    text [(FC4, FC4), (F29, F34)] c!"--fsoptions" c!"fsopts",
    wrong [(RHEL3, RHEL4)] [c!"--fsoptions=QX"],
    text [(F9, F11)] c!"--bytes-per-inode" c!"bytes_per_inode",
    wrong [(F7, F8), (F14, F14)] [c!"--bytes-per-inode=QX"],
    text [(F9, F11), (F29, F34)] c!"--fsprofile" c!"fsprofile",
    wrong [(F7, F8)] [c!"--fsprofile=QX"],
    flag [(RHEL5, RHEL5), (F9, F11), (F29, F34)] c!"--encrypted" c!"encrypted" (.bool true),
    wrong [(FC5, FC6), (F7, F8)] [c!"--encrypted"],
    text [(RHEL5, RHEL5), (F9, F11), (F29, F34)] c!"--passphrase" c!"passphrase",
    wrong [(FC5, FC6), (F7, F8)] [c!"--passphrase=QX"],
    wrong [(F9, F11)] [c!"--escrowcert=QX"],
    text [(F12, F12), (F29, F34)] c!"--escrowcert" c!"escrowcert",
    wrong [(F9, F11)] [c!"--backuppassphrase"],
    flag [(F12, F12), (F29, F34)] c!"--backuppassphrase" c!"backuppassphrase" (.bool true),
    wrong [(F12, F12)] [c!"--level=RAID4"],
    fixed [(F13, F13), (F29, F34)] [c!"--level=RAID4"] [(c!"level", .str c!"RAID4")],
    wrong [(F12, F12)] [c!"--level=4"],
    fixed [(F13, F13), (F29, F34)] [c!"--level=4"] [(c!"level", .str c!"RAID4")],
    wrong [(F14, F14)] [c!"--label=QX"],
    text [(F15, F17), (F29, F34)] c!"--label" c!"label",
    wrong [(F13, F13), (F14, F17)] [c!"--cipher=QX"],
    text [(RHEL6, RHEL6), (F18, F18), (F29, F34)] c!"--cipher" c!"cipher",
    wrong [(F20, F21), (F22, F22)] [c!"--mkfsoptions=QX"],
    text [(RHEL7, RHEL7), (F23, F24), (F29, F34)] c!"--mkfsoptions" c!"mkfsopts",
    wrong [(F20, F21), (F22, F24)] [c!"--chunksize=42"],
    fixed [(RHEL7, RHEL7), (F25, F28), (F29, F34)] [c!"--chunksize=42"] [(c!"chunk_size", .int 42)],
    wrong [(F25, F28)] [c!"--luks-version=QX"],
    text [(RHEL8, F34)] c!"--luks-version" c!"luks_version",
    wrong [(F25, F28)] [c!"--pbkdf=QX"],
    text [(RHEL8, F34)] c!"--pbkdf" c!"pbkdf",
    wrong [(F25, F28)] [c!"--pbkdf-memory=42"],
    fixed [(RHEL8, F34)] [c!"--pbkdf-memory=42"] [(c!"pbkdf_memory", .int 42)],
    wrong [(F25, F28)] [c!"--pbkdf-time=42"],
    fixed [(RHEL8, F34)] [c!"--pbkdf-time=42"] [(c!"pbkdf_time", .int 42)],
    wrong [(F25, F28)] [c!"--pbkdf-iterations=42"],
    fixed [(RHEL8, F34)] [c!"--pbkdf-iterations=42"] [(c!"pbkdf_iterations", .int 42)],
    fixed [(F9, F11)] [c!"--bytes-per-inode=42"] [(c!"bytes_per_inode", .str c!"42")],
    wrong [(FC4, FC4), (F14, F14)] [c!"--bytes-per-inode=42"],
    fixed [(FC5, FC6)] [c!"--bytes-per-inode=42"] [(c!"bytesPerInode", .int 42)]]

/-- `raid /x --device=1 --noformat` -/
def raidLines2 : CommandLines where
  cmd := c!"raid"
  base := [c!"/x", c!"--device=1", c!"--noformat"]
  start := [([(RHEL3, FC4), (F9, F18)], [(c!"device", .int 1), (c!"preexist", .bool true), (c!"mountpoint", .str c!"/x"), (c!"mntpoint", .list [c!"/x"])]),
    ([(F19, F34)], [(c!"device", .str c!"1"), (c!"preexist", .bool true), (c!"mountpoint", .str c!"/x"), (c!"mntpoint", .list [c!"/x"])]),
    ([(FC5, F8)], [(c!"device", .int 1), (c!"preexist", .bool true), (c!"mountpoint", .str c!"/x"), (c!"bytesPerInode", .int 4096), (c!"mntpoint", .list [c!"/x"])])]
  lines := [
    fixed [(RHEL3, RHEL4), (F29, F34)] [c!"--fstype=ext4"] [(c!"fstype", .str c!"ext4")],
    wrong [(F14, F14)] [c!"--label=QX"],
    text [(F15, F17), (F29, F34)] c!"--label" c!"label"]

/-- `raid /x --device=1 --useexisting` -/
def raidLines3 : CommandLines where
  cmd := c!"raid"
  base := [c!"/x", c!"--device=1", c!"--useexisting"]
  start := [([(RHEL3, FC4), (F9, F18)], [(c!"device", .int 1), (c!"format", .bool true), (c!"preexist", .bool true), (c!"mountpoint", .str c!"/x"), (c!"mntpoint", .list [c!"/x"])]),
    ([(F19, F34)], [(c!"device", .str c!"1"), (c!"format", .bool true), (c!"preexist", .bool true), (c!"mountpoint", .str c!"/x"), (c!"mntpoint", .list [c!"/x"])]),
    ([(FC5, F8)], [(c!"device", .int 1), (c!"format", .bool true), (c!"preexist", .bool true), (c!"mountpoint", .str c!"/x"), (c!"bytesPerInode", .int 4096), (c!"mntpoint", .list [c!"/x"])])]
  lines := [
    fixed [(RHEL3, RHEL4), (F29, F34)] [c!"--fstype=ext4"] [(c!"fstype", .str c!"ext4")],
    wrong [(F14, F14)] [c!"--label=QX"],
    text [(F15, F17), (F29, F34)] c!"--label" c!"label"]

/-- `raid /x --device=1 --level=RAID1 raid.1 raid.2 raid.3` -/
def raidLines4 : CommandLines where
  cmd := c!"raid"
  base := [c!"/x", c!"--device=1", c!"--level=RAID1", c!"raid.1", c!"raid.2", c!"raid.3"]
  start := [([(RHEL3, FC4), (F9, F18)], [(c!"device", .int 1), (c!"level", .str c!"RAID1"), (c!"format", .bool true), (c!"mountpoint", .str c!"/x"), (c!"members", .list [c!"raid.1", c!"raid.2", c!"raid.3"]), (c!"mntpoint", .list [c!"/x"]), (c!"partitions", .list [c!"raid.1", c!"raid.2", c!"raid.3"])]),
    ([(F19, F34)], [(c!"device", .str c!"1"), (c!"level", .str c!"RAID1"), (c!"format", .bool true), (c!"mountpoint", .str c!"/x"), (c!"members", .list [c!"raid.1", c!"raid.2", c!"raid.3"]), (c!"mntpoint", .list [c!"/x"]), (c!"partitions", .list [c!"raid.1", c!"raid.2", c!"raid.3"])]),
    ([(FC5, F8)], [(c!"device", .int 1), (c!"level", .str c!"RAID1"), (c!"format", .bool true), (c!"mountpoint", .str c!"/x"), (c!"members", .list [c!"raid.1", c!"raid.2", c!"raid.3"]), (c!"bytesPerInode", .int 4096), (c!"mntpoint", .list [c!"/x"]), (c!"partitions", .list [c!"raid.1", c!"raid.2", c!"raid.3"])])]
  lines := [
    fixed [(F19, F19), (F29, F34)] [c!"--device=md7"] [(c!"device", .str c!"7")],
    fixed [(RHEL3, RHEL4)] [c!"--device=md7"] [(c!"device", .int 7)],
    wrong [(F18, F18)] [c!"--device=data"],
    fixed [(F19, F19), (F29, F34)] [c!"--device=data"] [(c!"device", .str c!"data")],
    fixed [(RHEL3, RHEL4), (F29, F34)] [c!"--level=0"] [(c!"level", .str c!"RAID0")],
    fixed [(RHEL3, RHEL4), (F29, F34)] [c!"--level=RAID5"] [(c!"level", .str c!"RAID5")],
    fixed [(RHEL3, RHEL4), (F29, F34)] [c!"--level=raid6"] [(c!"level", .str c!"RAID6")],
    fixed [(RHEL5, RHEL5), (F29, F34)] [c!"--level=10"] [(c!"level", .str c!"RAID10")],
    wrong [(FC5, FC6)] [c!"--level=10"],
    wrong [(RHEL3, F34)] [c!"--level=linear"],
    fixed [(RHEL3, RHEL4), (F29, F34)] [c!"--spares=1"] [(c!"spares", .int 1)],
    fixed [(RHEL3, RHEL4), (F29, F34)] [c!"--spares=2"] [(c!"spares", .int 2)]]

/-- `reboot ` -/
def rebootLines : CommandLines where
  cmd := c!"reboot"
  base := []
  start := [([(RHEL3, F34)], [(c!"action", .int 1)])]
  lines := [
    flag [(FC6, F34)] c!"--eject" c!"eject" (.bool true),
    fixed [(RHEL3, FC5)] [c!"--eject"] [],
    wrong [(FC6, F22)] [c!"--kexec"],
    flag [(F23, F34)] c!"--kexec" c!"kexec" (.bool true),
    fixed [(RHEL3, FC5)] [c!"--kexec"] []]

/-- `repo --name=r --baseurl=b` -/
def repoLines : CommandLines where
  cmd := c!"repo"
  base := [c!"--name=r", c!"--baseurl=b"]
  start := [([(FC6, F34)], [(c!"baseurl", .str c!"b"), (c!"name", .str c!"r")])]
  lines := [
    text [(FC6, F7), (F33, F34)] c!"--name" c!"name",
    text [(FC6, F7), (F33, F34)] c!"--baseurl" c!"baseurl",
    wrong [(FC6, F34)] [c!"--mirrorlist=QX"],
    fixed [(F8, F10), (F33, F34)] [c!"--cost=42"] [(c!"cost", .int 42)],
    wrong [(FC6, F7)] [c!"--cost=42"],
    items [(F8, F10), (F33, F34)] c!"--excludepkgs" c!"excludepkgs",
    wrong [(FC6, F7)] [c!"--excludepkgs=QX"],
    items [(F8, F10), (F33, F34)] c!"--includepkgs" c!"includepkgs",
    wrong [(FC6, F7)] [c!"--includepkgs=QX"],
    wrong [(F8, F10)] [c!"--ignoregroups=yes"],
    fixed [(F11, F12), (F33, F34)] [c!"--ignoregroups=yes"] [(c!"ignoregroups", .bool true)],
    wrong [(F8, F10)] [c!"--ignoregroups=off"],
    fixed [(F11, F12), (F33, F34)] [c!"--ignoregroups=off"] [(c!"ignoregroups", .bool false)],
    wrong [(F11, F12)] [c!"--proxy=QX"],
    text [(F13, F13), (F33, F34)] c!"--proxy" c!"proxy",
    wrong [(F13, F13)] [c!"--noverifyssl"],
    flag [(RHEL6, RHEL6), (F33, F34)] c!"--noverifyssl" c!"noverifyssl" (.bool true),
    wrong [(F15, F20)] [c!"--install"],
    flag [(F21, F21), (F22, F26), (F33, F34)] c!"--install" c!"install" (.bool true),
    wrong [(FC6, F34)] [c!"--metalink=QX"],
    wrong [(F27, F28), (F29, F29)] [c!"--sslcacert=QX"],
    text [(RHEL8, RHEL8), (F30, F34)] c!"--sslcacert" c!"sslcacert",
    wrong [(F27, F28), (F29, F29)] [c!"--sslclientcert=QX"],
    text [(RHEL8, RHEL8), (F30, F34)] c!"--sslclientcert" c!"sslclientcert",
    wrong [(F27, F28), (F29, F29)] [c!"--sslclientkey=QX"],
    text [(RHEL8, RHEL8), (F30, F34)] c!"--sslclientkey" c!"sslclientkey"]

/-- `repo --name=r --mirrorlist=m` -/
def repoLines2 : CommandLines where
  cmd := c!"repo"
  base := [c!"--name=r", c!"--mirrorlist=m"]
  start := [([(FC6, F34)], [(c!"mirrorlist", .str c!"m"), (c!"name", .str c!"r")])]
  lines := [
    wrong [(FC6, F34)] [c!"--baseurl=QX"],
    wrong [(FC6, F34)] [c!"--metalink=QX"]]

/-- `repo --name=r --metalink=m` -/
def repoLines3 : CommandLines where
  cmd := c!"repo"
  base := [c!"--name=r", c!"--metalink=m"]
  start := [([(F27, F34)], [(c!"name", .str c!"r"), (c!"metalink", .str c!"m")])]
  lines := [
    wrong [(F27, F34)] [c!"--mirrorlist=QX"]]

/-- `reqpart ` -/
def reqpartLines : CommandLines where
  cmd := c!"reqpart"
  base := []
  start := [([(RHEL7, RHEL7), (F23, F34)], [(c!"reqpart", .bool true)])]
  lines := [
    flag [(RHEL7, RHEL7), (F23, F34)] c!"--add-boot" c!"addBoot" (.bool true)]

/-- `rescue ` -/
def rescueLines : CommandLines where
  cmd := c!"rescue"
  base := []
  start := [([(F10, F34)], [(c!"rescue", .bool true)])]
  lines := [
    flag [(F10, F34)] c!"--nomount" c!"nomount" (.bool true),
    flag [(F10, F34)] c!"--romount" c!"romount" (.bool true)]

/-- `rhsm --organization=o --activation-key=k` -/
def rhsmLines : CommandLines where
  cmd := c!"rhsm"
  base := [c!"--organization=o", c!"--activation-key=k"]
  start := [([(RHEL8, RHEL8)], [(c!"organization", .str c!"o"), (c!"activation_keys", .list [c!"k"]), (c!"connect_to_insights", .bool false)])]
  lines := [
    text [(RHEL8, RHEL8)] c!"--organization" c!"organization",
    ⟨[(RHEL8, RHEL8)], fun x => [c!"--activation-key=" ++ x], some fun x => [(c!"activation_keys", .list [c!"k", x])]⟩,
    flag [(RHEL8, RHEL8)] c!"--connect-to-insights" c!"connect_to_insights" (.bool true),
    text [(RHEL8, RHEL8)] c!"--proxy" c!"proxy",
    text [(RHEL8, RHEL8)] c!"--server-hostname" c!"server_hostname",
    text [(RHEL8, RHEL8)] c!"--rhsm-baseurl" c!"rhsm_baseurl"]

/-- `rootpw P` -/
def rootpwLines : CommandLines where
  cmd := c!"rootpw"
  base := [c!"P"]
  start := [([(RHEL3, F34)], [(c!"password", .str c!"P")])]
  lines := [
    flag [(RHEL3, F34)] c!"--iscrypted" c!"isCrypted" (.bool true),
    flag [(F8, F34)] c!"--lock" c!"lock" (.bool true),
    wrong [(RHEL3, F7)] [c!"--lock"],
    fixed [(F8, F34)] [c!"--plaintext"] [],
    wrong [(RHEL3, F7)] [c!"--plaintext"]]

/-- `rootpw --lock` -/
def rootpwLines2 : CommandLines where
  cmd := c!"rootpw"
  base := [c!"--lock"]
  start := [([(F18, F34)], [(c!"lock", .bool true)])]
  lines := [
    flag [(F18, F34)] c!"--iscrypted" c!"isCrypted" (.bool true),
    fixed [(F18, F34)] [c!"--plaintext"] []]

/-- `selinux ` -/
def selinuxLines : CommandLines where
  cmd := c!"selinux"
  base := []
  start := [([(FC3, F34)], [])]
  lines := [
    flag [(FC3, F34)] c!"--disabled" c!"selinux" (.int 0),
    flag [(FC3, F34)] c!"--enforcing" c!"selinux" (.int 1),
    flag [(FC3, F34)] c!"--permissive" c!"selinux" (.int 2)]

/-- `services --enabled=a` -/
def servicesLines : CommandLines where
  cmd := c!"services"
  base := [c!"--enabled=a"]
  start := [([(FC6, F34)], [(c!"enabled", .list [c!"a"])])]
  lines := [
    fixed [(FC6, F34)] [c!"--disabled=QX"] [(c!"disabled", .list [c!"QX"])]]

/-- `services --disabled=a` -/
def servicesLines2 : CommandLines where
  cmd := c!"services"
  base := [c!"--disabled=a"]
  start := [([(FC6, F34)], [(c!"disabled", .list [c!"a"])])]
  lines := [
    items [(FC6, F34)] c!"--enabled" c!"enabled"]

/-- `shutdown ` -/
def shutdownLines : CommandLines where
  cmd := c!"shutdown"
  base := []
  start := [([(RHEL3, F34)], [(c!"action", .int 2)])]
  lines := [
    flag [(FC6, F34)] c!"--eject" c!"eject" (.bool true),
    fixed [(RHEL3, FC5)] [c!"--eject"] [],
    wrong [(FC6, F22)] [c!"--kexec"],
    flag [(F23, F34)] c!"--kexec" c!"kexec" (.bool true),
    fixed [(RHEL3, FC5)] [c!"--kexec"] []]

/-- `skipx ` -/
def skipxLines : CommandLines where
  cmd := c!"skipx"
  base := []
  start := [([(RHEL3, F34)], [(c!"skipx", .bool true)])]
  lines := [
    wrong [(RHEL3, F34)] [c!"x"],
    wrong [(RHEL3, F34)] [c!"--x"]]

/-- `snapshot a/b --name=s --when=pre-install` -/
def snapshotLines : CommandLines where
  cmd := c!"snapshot"
  base := [c!"a/b", c!"--name=s", c!"--when=pre-install"]
  start := [([(RHEL7, RHEL7), (F26, F34)], [(c!"name", .str c!"s"), (c!"origin", .str c!"a/b"), (c!"when", .int 1)])]
  lines := [
    text [(RHEL7, RHEL7), (F26, F34)] c!"--name" c!"name",
    fixed [(RHEL7, RHEL7), (F26, F34)] [c!"--when=post-install"] [(c!"when", .int 0)],
    fixed [(RHEL7, RHEL7), (F26, F34)] [c!"--when=pre-install"] []]

/-- `sshkey --username=u k` -/
def sshkeyLines : CommandLines where
  cmd := c!"sshkey"
  base := [c!"--username=u", c!"k"]
  start := [([(F22, F34)], [(c!"username", .str c!"u"), (c!"key", .str c!"k"), (c!"sshkey", .list [c!"k"])])]
  lines := [
    text [(F22, F34)] c!"--username" c!"username"]

/-- `sshpw --username=u p` -/
def sshpwLines : CommandLines where
  cmd := c!"sshpw"
  base := [c!"--username=u", c!"p"]
  start := [([(F13, F34)], [(c!"username", .str c!"u"), (c!"password", .str c!"p")])]
  lines := [
    text [(F13, F34)] c!"--username" c!"username",
    flag [(F13, F34)] c!"--iscrypted" c!"isCrypted" (.bool true),
    fixed [(F13, F34)] [c!"--plaintext"] [],
    flag [(F13, F34)] c!"--lock" c!"lock" (.bool true),
    wrong [(F13, F23)] [c!"--sshkey"],
    flag [(F24, F34)] c!"--sshkey" c!"sshkey" (.bool true)]

/-- `syspurpose ` -/
def syspurposeLines : CommandLines where
  cmd := c!"syspurpose"
  base := []
  start := [([(RHEL8, RHEL8)], [])]
  lines := [
    text [(RHEL8, RHEL8)] c!"--role" c!"role",
    text [(RHEL8, RHEL8)] c!"--sla" c!"sla",
    text [(RHEL8, RHEL8)] c!"--usage" c!"usage",
    ⟨[(RHEL8, RHEL8)], fun x => [c!"--addon=" ++ x], some fun x => [(c!"addons", .list [x])]⟩]

/-- `syspurpose --role=a` -/
def syspurposeLines2 : CommandLines where
  cmd := c!"syspurpose"
  base := [c!"--role=a"]
  start := [([(RHEL8, RHEL8)], [(c!"role", .str c!"a")])]
  lines := [
    text [(RHEL8, RHEL8)] c!"--sla" c!"sla",
    text [(RHEL8, RHEL8)] c!"--usage" c!"usage",
    ⟨[(RHEL8, RHEL8)], fun x => [c!"--addon=" ++ x], some fun x => [(c!"addons", .list [x])]⟩]

/-- `text ` -/
def textLines : CommandLines where
  cmd := c!"text"
  base := []
  start := [([(RHEL3, F34)], [(c!"displayMode", .int 2)])]
  lines := [
    wrong [(RHEL3, F25)] [c!"--non-interactive"],
    flag [(F26, F34)] c!"--non-interactive" c!"nonInteractive" (.bool true)]

/-- `timesource --ntp-server=s` -/
def timesourceLines : CommandLines where
  cmd := c!"timesource"
  base := [c!"--ntp-server=s"]
  start := [([(F33, F34)], [(c!"ntp_server", .str c!"s")])]
  lines := [
    flag [(F33, F34)] c!"--nts" c!"nts" (.bool true)]

/-- `timesource --ntp-pool=p` -/
def timesourceLines2 : CommandLines where
  cmd := c!"timesource"
  base := [c!"--ntp-pool=p"]
  start := [([(F33, F34)], [(c!"ntp_pool", .str c!"p")])]
  lines := [
    flag [(F33, F34)] c!"--nts" c!"nts" (.bool true),
    wrong [(F33, F34)] [c!"--ntp-server=QX"]]

/-- `timesource --ntp-disable` -/
def timesourceLines3 : CommandLines where
  cmd := c!"timesource"
  base := [c!"--ntp-disable"]
  start := [([(F33, F34)], [(c!"ntp_disable", .bool true)])]
  lines := [
    flag [(F33, F34)] c!"--nts" c!"nts" (.bool true),
    wrong [(F33, F34)] [c!"--ntp-pool=QX"]]

/-- `timezone T` -/
def timezoneLines : CommandLines where
  cmd := c!"timezone"
  base := [c!"T"]
  start := [([(RHEL3, F34)], [(c!"timezone", .str c!"T")])]
  lines := [
    flag [(RHEL3, F34)] c!"--utc" c!"isUtc" (.bool true),
    flag [(FC6, F34)] c!"--isUtc" c!"isUtc" (.bool true),
    wrong [(RHEL3, FC5)] [c!"--isUtc"],
    wrong [(FC6, F17)] [c!"--nontp"],
    flag [(F18, F34)] c!"--nontp" c!"nontp" (.bool true),
    wrong [(FC6, F17)] [c!"--ntpservers=QX"],
    fixed [(F18, F34)] [c!"--ntpservers=QX"] [(c!"ntpservers", .list [c!"QX"])]]

/-- `timezone --utc T` -/
def timezoneLines2 : CommandLines where
  cmd := c!"timezone"
  base := [c!"--utc", c!"T"]
  start := [([(RHEL3, F34)], [(c!"isUtc", .bool true), (c!"timezone", .str c!"T")])]
  lines := [
    wrong [(FC6, F17)] [c!"--ntpservers=QX"],
    fixed [(F18, F34)] [c!"--ntpservers=QX"] [(c!"ntpservers", .list [c!"QX"])],
    wrong [(FC6, F17)] [c!"--nontp"],
    flag [(F18, F34)] c!"--nontp" c!"nontp" (.bool true)]

/-- `unsupported_hardware ` -/
def unsupportedHardwareLines : CommandLines where
  cmd := c!"unsupported_hardware"
  base := []
  start := [([(RHEL6, RHEL6), (RHEL7, RHEL7)], [(c!"unsupported_hardware", .bool true)])]
  lines := [
    wrong [(RHEL6, RHEL6), (RHEL7, RHEL7)] [c!"x"]]

/-- `updates ` -/
def updatesLines : CommandLines where
  cmd := c!"updates"
  base := []
  start := [([(F7, F33)], [(c!"url", .str c!"floppy")])]
  lines := []

/-- `updates U` -/
def updatesLines2 : CommandLines where
  cmd := c!"updates"
  base := [c!"U"]
  start := [([(F7, F34)], [(c!"url", .str c!"U")])]
  lines := []

/-- `upgrade ` -/
def upgradeLines : CommandLines where
  cmd := c!"upgrade"
  base := []
  start := [([(RHEL3, F19)], [(c!"upgrade", .bool true)])]
  lines := [
    wrong [(RHEL3, F10)] [c!"--root-device=QX"],
    text [(F11, F19)] c!"--root-device" c!"root_device"]

/-- `url --url=U` -/
def urlLines : CommandLines where
  cmd := c!"url"
  base := [c!"--url=U"]
  start := [([(RHEL3, F34)], [(c!"url", .str c!"U")])]
  lines := [
    text [(RHEL3, F34)] c!"--url" c!"url",
    wrong [(RHEL3, F12)] [c!"--proxy=QX"],
    text [(F13, F34)] c!"--proxy" c!"proxy",
    wrong [(F13, F13)] [c!"--noverifyssl"],
    flag [(RHEL6, F34)] c!"--noverifyssl" c!"noverifyssl" (.bool true),
    wrong [(RHEL3, F34)] [c!"--mirrorlist=QX"],
    wrong [(RHEL3, F34)] [c!"--metalink=QX"],
    wrong [(F27, F28), (F29, F29)] [c!"--sslcacert=QX"],
    text [(RHEL8, RHEL8), (F30, F34)] c!"--sslcacert" c!"sslcacert",
    wrong [(F27, F28), (F29, F29)] [c!"--sslclientcert=QX"],
    text [(RHEL8, RHEL8), (F30, F34)] c!"--sslclientcert" c!"sslclientcert",
    wrong [(F27, F28), (F29, F29)] [c!"--sslclientkey=QX"],
    text [(RHEL8, RHEL8), (F30, F34)] c!"--sslclientkey" c!"sslclientkey"]

/-- `url --mirrorlist=M` -/
def urlLines2 : CommandLines where
  cmd := c!"url"
  base := [c!"--mirrorlist=M"]
  start := [([(F18, F34)], [(c!"mirrorlist", .str c!"M")])]
  lines := [
    text [(F18, F34)] c!"--proxy" c!"proxy",
    wrong [(F18, F34)] [c!"--metalink=QX"],
    wrong [(F18, F34)] [c!"--url=QX"]]

/-- `url --metalink=M` -/
def urlLines3 : CommandLines where
  cmd := c!"url"
  base := [c!"--metalink=M"]
  start := [([(F27, F34)], [(c!"metalink", .str c!"M")])]
  lines := [
    wrong [(F27, F34)] [c!"--mirrorlist=QX"]]

/-- `user --name=u` -/
def userLines : CommandLines where
  cmd := c!"user"
  base := [c!"--name=u"]
  start := [([(FC6, F34)], [(c!"name", .str c!"u")])]
  lines := [
    items [(FC6, F34)] c!"--groups" c!"groups",
    text [(FC6, F34)] c!"--homedir" c!"homedir",
    flag [(FC6, F34)] c!"--iscrypted" c!"isCrypted" (.bool true),
    text [(FC6, F34)] c!"--name" c!"name",
    text [(FC6, F34)] c!"--password" c!"password",
    text [(FC6, F34)] c!"--shell" c!"shell",
    fixed [(FC6, F34)] [c!"--uid=42"] [(c!"uid", .int 42)],
    flag [(F8, F34)] c!"--lock" c!"lock" (.bool true),
    wrong [(FC6, F7)] [c!"--lock"],
    fixed [(F8, F34)] [c!"--plaintext"] [],
    wrong [(FC6, F7)] [c!"--plaintext"],
    wrong [(F8, F11)] [c!"--gecos=QX"],
    text [(F12, F34)] c!"--gecos" c!"gecos",
    wrong [(F12, F18)] [c!"--gid=42"],
    fixed [(F19, F34)] [c!"--gid=42"] [(c!"gid", .int 42)]]

/-- `vnc ` -/
def vncLines : CommandLines where
  cmd := c!"vnc"
  base := []
  start := [([(RHEL3, F34)], [(c!"enabled", .bool true)])]
  lines := [
    text [(RHEL3, F34)] c!"--password" c!"password",
    text [(FC6, F34)] c!"--host" c!"host",
    wrong [(RHEL3, FC5)] [c!"--host=QX"],
    text [(FC6, F34)] c!"--port" c!"port",
    wrong [(RHEL3, FC5)] [c!"--port=QX"],
    wrong [(F9, F34)] [c!"--connect=QX"],
    fixed [(FC6, F8)] [c!"--connect=QX"] [(c!"host", .str c!"QX")],
    fixed [(RHEL3, FC5)] [c!"--connect=QX"] [(c!"connect", .str c!"QX")]]

/-- `volgroup g pv.1` -/
def volgroupLines : CommandLines where
  cmd := c!"volgroup"
  base := [c!"g", c!"pv.1"]
  start := [([(RHEL3, F20)], [(c!"format", .bool true), (c!"pesize", .int 32768), (c!"vgname", .str c!"g"), (c!"physvols", .list [c!"pv.1"]), (c!"name", .list [c!"g"]), (c!"partitions", .list [c!"pv.1"])]),
    ([(F21, F34)], [(c!"format", .bool true), (c!"vgname", .str c!"g"), (c!"physvols", .list [c!"pv.1"]), (c!"name", .list [c!"g"]), (c!"partitions", .list [c!"pv.1"])])]
  lines := [
    wrong [(RHEL3, F34)] [c!"--noformat"],
    fixed [(RHEL3, F34)] [c!"--pesize=42"] [(c!"pesize", .int 42)],
    wrong [(RHEL3, F34)] [c!"--useexisting"],
    fixed [(RHEL3, F13), (F14, F15)] [c!"--reserved-space=42"] [(c!"physvols", .list [c!"--reserved-space=42"]), (c!"name", .list [c!"g", c!"pv.1"]), (c!"partitions", .list [c!"--reserved-space=42"])],
    fixed [(RHEL6, RHEL6), (F16, F34)] [c!"--reserved-space=42"] [(c!"reserved_space", .int 42)],
    fixed [(RHEL3, F13), (F14, F15)] [c!"--reserved-percent=42"] [(c!"physvols", .list [c!"--reserved-percent=42"]), (c!"name", .list [c!"g", c!"pv.1"]), (c!"partitions", .list [c!"--reserved-percent=42"])],
    fixed [(RHEL6, RHEL6), (F16, F34)] [c!"--reserved-percent=42"] [(c!"reserved_percent", .int 42)]]

/-- `volgroup g --noformat` -/
def volgroupLines2 : CommandLines where
  cmd := c!"volgroup"
  base := [c!"g", c!"--noformat"]
  start := [([(RHEL3, F20)], [(c!"pesize", .int 32768), (c!"preexist", .bool true), (c!"vgname", .str c!"g"), (c!"name", .list [c!"g"])]),
    ([(F21, F34)], [(c!"preexist", .bool true), (c!"vgname", .str c!"g"), (c!"name", .list [c!"g"])])]
  lines := []

/-- `volgroup g --useexisting` -/
def volgroupLines3 : CommandLines where
  cmd := c!"volgroup"
  base := [c!"g", c!"--useexisting"]
  start := [([(RHEL3, F20)], [(c!"format", .bool true), (c!"pesize", .int 32768), (c!"preexist", .bool true), (c!"vgname", .str c!"g"), (c!"name", .list [c!"g"])]),
    ([(F21, F34)], [(c!"format", .bool true), (c!"preexist", .bool true), (c!"vgname", .str c!"g"), (c!"name", .list [c!"g"])])]
  lines := [
    flag [(RHEL3, F34)] c!"--noformat" c!"format" (.bool false)]

/-- `xconfig ` -/
def xconfigLines : CommandLines where
  cmd := c!"xconfig"
  base := []
  start := [([(RHEL3, F34)], [])]
  lines := [
    text [(RHEL3, F34)] c!"--defaultdesktop" c!"defaultdesktop",
    flag [(RHEL3, F34)] c!"--startxonboot" c!"startX" (.bool true),
    text [(FC6, RHEL6)] c!"--driver" c!"driver",
    wrong [(RHEL3, FC5), (F14, F34)] [c!"--driver=QX"],
    text [(F10, RHEL6)] c!"--depth" c!"depth",
    wrong [(F9, F9), (F14, F34)] [c!"--depth=QX"],
    text [(RHEL3, RHEL6)] c!"--resolution" c!"resolution",
    wrong [(F14, F34)] [c!"--resolution=QX"],
    text [(F10, RHEL6)] c!"--videoram" c!"videoram",
    wrong [(F14, F34)] [c!"--videoram=QX"],
    text [(RHEL3, F9)] c!"--videoram" c!"videoRam",
    fixed [(F10, RHEL6)] [c!"--depth=42"] [(c!"depth", .str c!"42")],
    wrong [(F14, F34)] [c!"--depth=42"],
    fixed [(RHEL3, F9)] [c!"--depth=42"] [(c!"depth", .int 42)],
    text [(RHEL3, F8)] c!"--card" c!"card",
    wrong [(F9, F9)] [c!"--card=QX"],
    text [(RHEL3, F8)] c!"--hsync" c!"hsync",
    wrong [(F9, F9)] [c!"--hsync=QX"],
    text [(RHEL3, F8)] c!"--monitor" c!"monitor",
    wrong [(F9, F9)] [c!"--monitor=QX"],
    text [(FC6, F8)] c!"--noprobe" c!"noprobe",
    wrong [(RHEL3, FC5), (F9, F9)] [c!"--noprobe=QX"],
    text [(RHEL3, F8)] c!"--vsync" c!"vsync",
    wrong [(F9, F9)] [c!"--vsync=QX"],
    wrong [(FC6, F8)] [c!"--noprobe"],
    flag [(RHEL3, FC5)] c!"--noprobe" c!"noProbe" (.bool true),
    wrong [(FC6, F8)] [c!"--server=QX"],
    text [(RHEL3, FC5)] c!"--server" c!"server"]

/-- `zerombr ` -/
def zerombrLines : CommandLines where
  cmd := c!"zerombr"
  base := []
  start := [([(RHEL3, F34)], [(c!"zerombr", .bool true)])]
  lines := [
    wrong [(F9, F34)] [c!"x"],
    fixed [(RHEL3, F8)] [c!"x"] [],
    wrong [(F9, F34)] [c!"yes"],
    fixed [(RHEL3, F8)] [c!"yes"] []]

/-- `zfcp --devnum=d --wwpn=w --fcplun=f --scsiid=s --scsilun=l` -/
def zfcpLines : CommandLines where
  cmd := c!"zfcp"
  base := [c!"--devnum=d", c!"--wwpn=w", c!"--fcplun=f", c!"--scsiid=s", c!"--scsilun=l"]
  start := [([(FC3, RHEL6)], [(c!"devnum", .str c!"d"), (c!"wwpn", .str c!"w"), (c!"fcplun", .str c!"f"), (c!"scsiid", .str c!"s"), (c!"scsilun", .str c!"l")])]
  lines := [
    text [(FC3, RHEL6)] c!"--devnum" c!"devnum",
    text [(FC3, RHEL6)] c!"--wwpn" c!"wwpn",
    text [(FC3, RHEL6)] c!"--fcplun" c!"fcplun",
    text [(FC3, RHEL6)] c!"--scsiid" c!"scsiid",
    text [(FC3, RHEL6)] c!"--scsilun" c!"scsilun"]

/-- `zfcp --devnum=d --wwpn=w --fcplun=f` -/
def zfcpLines2 : CommandLines where
  cmd := c!"zfcp"
  base := [c!"--devnum=d", c!"--wwpn=w", c!"--fcplun=f"]
  start := [([(F12, F34)], [(c!"devnum", .str c!"d"), (c!"wwpn", .str c!"w"), (c!"fcplun", .str c!"f")])]
  lines := [
    text [(F12, F34)] c!"--devnum" c!"devnum",
    text [(F12, F34)] c!"--wwpn" c!"wwpn",
    text [(F12, F34)] c!"--fcplun" c!"fcplun"]

/-- `zipl ` -/
def ziplLines : CommandLines where
  cmd := c!"zipl"
  base := []
  start := [([(RHEL8, RHEL8), (F32, F34)], [])]
  lines := [
    flag [(RHEL8, RHEL8), (F32, F34)] c!"--secure-boot" c!"secure_boot" (.int 2),
    flag [(RHEL8, RHEL8), (F32, F34)] c!"--force-secure-boot" c!"secure_boot" (.int 1),
    flag [(RHEL8, RHEL8), (F32, F34)] c!"--no-secure-boot" c!"secure_boot" (.int 0)]

/-- All lines. -/
def commandLines : List CommandLines := [autopartLines,
  autostepLines,
  bootloaderLines,
  btrfsLines,
  btrfsLines2,
  btrfsLines3,
  cdromLines,
  clearpartLines,
  clearpartLines2,
  cmdlineLines,
  deviceLines,
  deviceLines2,
  dmraidLines,
  driverdiskLines,
  driverdiskLines2,
  driverdiskLines3,
  eulaLines,
  fcoeLines,
  firewallLines,
  firstbootLines,
  graphicalLines,
  groupLines,
  haltLines,
  harddriveLines,
  harddriveLines2,
  hmcLines,
  ignorediskLines,
  ignorediskLines2,
  ignorediskLines3,
  installLines,
  interactiveLines,
  iscsiLines,
  iscsinameLines,
  keyLines,
  keyLines2,
  keyboardLines,
  keyboardLines2,
  langLines,
  langsupportLines,
  liloLines,
  lilocheckLines,
  liveimgLines,
  loggingLines,
  loggingLines2,
  logvolLines,
  logvolLines2,
  logvolLines3,
  logvolLines4,
  logvolLines5,
  logvolLines6,
  mediacheckLines,
  moduleLines,
  monitorLines,
  mountLines,
  mountLines2,
  mouseLines,
  networkLines,
  networkLines2,
  networkLines3,
  networkLines4,
  nfsLines,
  nvdimmLines,
  nvdimmLines2,
  ostreesetupLines,
  partLines,
  partLines2,
  partitionLines,
  partitionLines2,
  poweroffLines,
  raidLines,
  raidLines2,
  raidLines3,
  raidLines4,
  rebootLines,
  repoLines,
  repoLines2,
  repoLines3,
  reqpartLines,
  rescueLines,
  rhsmLines,
  rootpwLines,
  rootpwLines2,
  selinuxLines,
  servicesLines,
  servicesLines2,
  shutdownLines,
  skipxLines,
  snapshotLines,
  sshkeyLines,
  sshpwLines,
  syspurposeLines,
  syspurposeLines2,
  textLines,
  timesourceLines,
  timesourceLines2,
  timesourceLines3,
  timezoneLines,
  timezoneLines2,
  unsupportedHardwareLines,
  updatesLines,
  updatesLines2,
  upgradeLines,
  urlLines,
  urlLines2,
  urlLines3,
  userLines,
  vncLines,
  volgroupLines,
  volgroupLines2,
  volgroupLines3,
  xconfigLines,
  zerombrLines,
  zfcpLines,
  zfcpLines2,
  ziplLines]

end Ks
