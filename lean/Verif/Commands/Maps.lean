import Verif.Commands.Authconfig
import Verif.Commands.Authselect
import Verif.Commands.Autopart
import Verif.Commands.Autostep
import Verif.Commands.Bootloader
import Verif.Commands.Btrfs
import Verif.Commands.Cdrom
import Verif.Commands.Clearpart
import Verif.Commands.Device
import Verif.Commands.Deviceprobe
import Verif.Commands.Displaymode
import Verif.Commands.Dmraid
import Verif.Commands.Driverdisk
import Verif.Commands.Eula
import Verif.Commands.Fcoe
import Verif.Commands.Firewall
import Verif.Commands.Firstboot
import Verif.Commands.Group
import Verif.Commands.Harddrive
import Verif.Commands.Hmc
import Verif.Commands.Ignoredisk
import Verif.Commands.Install
import Verif.Commands.Interactive
import Verif.Commands.Iscsi
import Verif.Commands.Iscsiname
import Verif.Commands.Key
import Verif.Commands.Keyboard
import Verif.Commands.Lang
import Verif.Commands.Langsupport
import Verif.Commands.Lilocheck
import Verif.Commands.Liveimg
import Verif.Commands.Logging
import Verif.Commands.Logvol
import Verif.Commands.Mediacheck
import Verif.Commands.Method
import Verif.Commands.Module
import Verif.Commands.Monitor
import Verif.Commands.Mount
import Verif.Commands.Mouse
import Verif.Commands.Network
import Verif.Commands.Nfs
import Verif.Commands.Nvdimm
import Verif.Commands.Ostreesetup
import Verif.Commands.Partition
import Verif.Commands.Raid
import Verif.Commands.Reboot
import Verif.Commands.Repo
import Verif.Commands.Reqpart
import Verif.Commands.Rescue
import Verif.Commands.Rhsm
import Verif.Commands.Rootpw
import Verif.Commands.Selinux
import Verif.Commands.Services
import Verif.Commands.Skipx
import Verif.Commands.Snapshot
import Verif.Commands.Sshkey
import Verif.Commands.Sshpw
import Verif.Commands.Syspurpose
import Verif.Commands.Timesource
import Verif.Commands.Timezone
import Verif.Commands.UnsupportedHardware
import Verif.Commands.Updates
import Verif.Commands.Upgrade
import Verif.Commands.Url
import Verif.Commands.User
import Verif.Commands.Vnc
import Verif.Commands.Volgroup
import Verif.Commands.Xconfig
import Verif.Commands.Zerombr
import Verif.Commands.Zfcp
import Verif.Commands.Zipl
import Verif.Commands.Multipath
import Verif.Commands.Realm
import Verif.Version
/-!
# The command maps of `/repo/pykickstart/handlers`

Written by `scripts/gen_commands.py`.  A command class with a data list is given the data class
that the same handler registers under the name its `dataClass` property asks for.
-/
namespace Ks.Cmd

/-- `handlers/f10.py:29-85` -/
def commandMapF10 : List (Str × Command) := [
  (c!"auth", FC3_Authconfig.cls),
  (c!"authconfig", FC3_Authconfig.cls),
  (c!"autopart", F9_AutoPart.cls),
  (c!"autostep", FC3_AutoStep.cls),
  (c!"bootloader", F8_Bootloader.cls),
  (c!"cdrom", FC3_Cdrom.cls),
  (c!"clearpart", FC3_ClearPart.cls),
  (c!"cmdline", FC3_DisplayMode.cls),
  (c!"device", F8_Device.cls F8_DeviceData.cls),
  (c!"deviceprobe", FC3_DeviceProbe.cls),
  (c!"dmraid", FC6_DmRaid.cls FC6_DmRaidData.cls),
  (c!"driverdisk", FC4_DriverDisk.cls FC4_DriverDiskData.cls),
  (c!"firewall", F10_Firewall.cls),
  (c!"firstboot", FC3_Firstboot.cls),
  (c!"graphical", FC3_DisplayMode.cls),
  (c!"halt", FC6_Reboot.cls),
  (c!"harddrive", FC3_HardDrive.cls),
  (c!"ignoredisk", F8_IgnoreDisk.cls),
  (c!"install", FC3_Upgrade.cls),
  (c!"interactive", FC3_Interactive.cls),
  (c!"iscsi", F10_Iscsi.cls F10_IscsiData.cls),
  (c!"iscsiname", FC6_IscsiName.cls),
  (c!"keyboard", FC3_Keyboard.cls),
  (c!"lang", FC3_Lang.cls),
  (c!"logging", FC6_Logging.cls),
  (c!"logvol", F9_LogVol.cls F9_LogVolData.cls),
  (c!"mediacheck", FC4_MediaCheck.cls),
  (c!"method", FC6_Method.cls),
  (c!"monitor", F10_Monitor.cls),
  (c!"multipath", FC6_MultiPath.cls FC6_MultiPathData.cls),
  (c!"network", F9_Network.cls F8_NetworkData.cls),
  (c!"nfs", FC6_NFS.cls),
  (c!"part", F9_Partition.cls F9_PartData.cls),
  (c!"partition", F9_Partition.cls F9_PartData.cls),
  (c!"poweroff", FC6_Reboot.cls),
  (c!"raid", F9_Raid.cls F9_RaidData.cls),
  (c!"reboot", FC6_Reboot.cls),
  (c!"repo", F8_Repo.cls F8_RepoData.cls),
  (c!"rescue", F10_Rescue.cls),
  (c!"rootpw", F8_RootPw.cls),
  (c!"selinux", FC3_SELinux.cls),
  (c!"services", FC6_Services.cls),
  (c!"shutdown", FC6_Reboot.cls),
  (c!"skipx", FC3_SkipX.cls),
  (c!"text", FC3_DisplayMode.cls),
  (c!"timezone", FC6_Timezone.cls),
  (c!"updates", F7_Updates.cls),
  (c!"upgrade", FC3_Upgrade.cls),
  (c!"url", FC3_Url.cls),
  (c!"user", F8_User.cls F8_UserData.cls),
  (c!"vnc", F9_Vnc.cls),
  (c!"volgroup", FC3_VolGroup.cls FC3_VolGroupData.cls),
  (c!"xconfig", F10_XConfig.cls),
  (c!"zerombr", F9_ZeroMbr.cls),
  (c!"zfcp", FC3_ZFCP.cls FC3_ZFCPData.cls)]

/-- `handlers/f11.py:29-85` -/
def commandMapF11 : List (Str × Command) := [
  (c!"auth", FC3_Authconfig.cls),
  (c!"authconfig", FC3_Authconfig.cls),
  (c!"autopart", F9_AutoPart.cls),
  (c!"autostep", FC3_AutoStep.cls),
  (c!"bootloader", F8_Bootloader.cls),
  (c!"cdrom", FC3_Cdrom.cls),
  (c!"clearpart", FC3_ClearPart.cls),
  (c!"cmdline", FC3_DisplayMode.cls),
  (c!"device", F8_Device.cls F8_DeviceData.cls),
  (c!"deviceprobe", FC3_DeviceProbe.cls),
  (c!"dmraid", FC6_DmRaid.cls FC6_DmRaidData.cls),
  (c!"driverdisk", FC4_DriverDisk.cls FC4_DriverDiskData.cls),
  (c!"firewall", F10_Firewall.cls),
  (c!"firstboot", FC3_Firstboot.cls),
  (c!"graphical", FC3_DisplayMode.cls),
  (c!"halt", FC6_Reboot.cls),
  (c!"harddrive", FC3_HardDrive.cls),
  (c!"ignoredisk", F8_IgnoreDisk.cls),
  (c!"install", F11_Upgrade.cls),
  (c!"interactive", FC3_Interactive.cls),
  (c!"iscsi", F10_Iscsi.cls F10_IscsiData.cls),
  (c!"iscsiname", FC6_IscsiName.cls),
  (c!"keyboard", FC3_Keyboard.cls),
  (c!"lang", FC3_Lang.cls),
  (c!"logging", FC6_Logging.cls),
  (c!"logvol", F9_LogVol.cls F9_LogVolData.cls),
  (c!"mediacheck", FC4_MediaCheck.cls),
  (c!"method", FC6_Method.cls),
  (c!"monitor", F10_Monitor.cls),
  (c!"multipath", FC6_MultiPath.cls FC6_MultiPathData.cls),
  (c!"network", F9_Network.cls F8_NetworkData.cls),
  (c!"nfs", FC6_NFS.cls),
  (c!"part", F11_Partition.cls F11_PartData.cls),
  (c!"partition", F11_Partition.cls F11_PartData.cls),
  (c!"poweroff", FC6_Reboot.cls),
  (c!"raid", F9_Raid.cls F9_RaidData.cls),
  (c!"reboot", FC6_Reboot.cls),
  (c!"repo", F11_Repo.cls F11_RepoData.cls),
  (c!"rescue", F10_Rescue.cls),
  (c!"rootpw", F8_RootPw.cls),
  (c!"selinux", FC3_SELinux.cls),
  (c!"services", FC6_Services.cls),
  (c!"shutdown", FC6_Reboot.cls),
  (c!"skipx", FC3_SkipX.cls),
  (c!"text", FC3_DisplayMode.cls),
  (c!"timezone", FC6_Timezone.cls),
  (c!"updates", F7_Updates.cls),
  (c!"upgrade", F11_Upgrade.cls),
  (c!"url", FC3_Url.cls),
  (c!"user", F8_User.cls F8_UserData.cls),
  (c!"vnc", F9_Vnc.cls),
  (c!"volgroup", FC3_VolGroup.cls FC3_VolGroupData.cls),
  (c!"xconfig", F10_XConfig.cls),
  (c!"zerombr", F9_ZeroMbr.cls),
  (c!"zfcp", FC3_ZFCP.cls FC3_ZFCPData.cls)]

/-- `handlers/f12.py:29-87` -/
def commandMapF12 : List (Str × Command) := [
  (c!"auth", FC3_Authconfig.cls),
  (c!"authconfig", FC3_Authconfig.cls),
  (c!"autopart", F12_AutoPart.cls),
  (c!"autostep", FC3_AutoStep.cls),
  (c!"bootloader", F12_Bootloader.cls),
  (c!"cdrom", FC3_Cdrom.cls),
  (c!"clearpart", FC3_ClearPart.cls),
  (c!"cmdline", FC3_DisplayMode.cls),
  (c!"device", F8_Device.cls F8_DeviceData.cls),
  (c!"deviceprobe", FC3_DeviceProbe.cls),
  (c!"dmraid", FC6_DmRaid.cls FC6_DmRaidData.cls),
  (c!"driverdisk", F12_DriverDisk.cls F12_DriverDiskData.cls),
  (c!"fcoe", F12_Fcoe.cls F12_FcoeData.cls),
  (c!"firewall", F10_Firewall.cls),
  (c!"firstboot", FC3_Firstboot.cls),
  (c!"graphical", FC3_DisplayMode.cls),
  (c!"group", F12_Group.cls F12_GroupData.cls),
  (c!"halt", FC6_Reboot.cls),
  (c!"harddrive", FC3_HardDrive.cls),
  (c!"ignoredisk", F8_IgnoreDisk.cls),
  (c!"install", F11_Upgrade.cls),
  (c!"interactive", FC3_Interactive.cls),
  (c!"iscsi", F10_Iscsi.cls F10_IscsiData.cls),
  (c!"iscsiname", FC6_IscsiName.cls),
  (c!"keyboard", FC3_Keyboard.cls),
  (c!"lang", FC3_Lang.cls),
  (c!"logging", FC6_Logging.cls),
  (c!"logvol", F12_LogVol.cls F12_LogVolData.cls),
  (c!"mediacheck", FC4_MediaCheck.cls),
  (c!"method", FC6_Method.cls),
  (c!"monitor", F10_Monitor.cls),
  (c!"multipath", FC6_MultiPath.cls FC6_MultiPathData.cls),
  (c!"network", F9_Network.cls F8_NetworkData.cls),
  (c!"nfs", FC6_NFS.cls),
  (c!"part", F12_Partition.cls F12_PartData.cls),
  (c!"partition", F12_Partition.cls F12_PartData.cls),
  (c!"poweroff", FC6_Reboot.cls),
  (c!"raid", F12_Raid.cls F12_RaidData.cls),
  (c!"reboot", FC6_Reboot.cls),
  (c!"repo", F11_Repo.cls F11_RepoData.cls),
  (c!"rescue", F10_Rescue.cls),
  (c!"rootpw", F8_RootPw.cls),
  (c!"selinux", FC3_SELinux.cls),
  (c!"services", FC6_Services.cls),
  (c!"shutdown", FC6_Reboot.cls),
  (c!"skipx", FC3_SkipX.cls),
  (c!"text", FC3_DisplayMode.cls),
  (c!"timezone", FC6_Timezone.cls),
  (c!"updates", F7_Updates.cls),
  (c!"upgrade", F11_Upgrade.cls),
  (c!"url", FC3_Url.cls),
  (c!"user", F12_User.cls F12_UserData.cls),
  (c!"vnc", F9_Vnc.cls),
  (c!"volgroup", FC3_VolGroup.cls FC3_VolGroupData.cls),
  (c!"xconfig", F10_XConfig.cls),
  (c!"zerombr", F9_ZeroMbr.cls),
  (c!"zfcp", F12_ZFCP.cls F12_ZFCPData.cls)]

/-- `handlers/f13.py:29-88` -/
def commandMapF13 : List (Str × Command) := [
  (c!"auth", FC3_Authconfig.cls),
  (c!"authconfig", FC3_Authconfig.cls),
  (c!"autopart", F12_AutoPart.cls),
  (c!"autostep", FC3_AutoStep.cls),
  (c!"bootloader", F12_Bootloader.cls),
  (c!"cdrom", FC3_Cdrom.cls),
  (c!"clearpart", FC3_ClearPart.cls),
  (c!"cmdline", FC3_DisplayMode.cls),
  (c!"device", F8_Device.cls F8_DeviceData.cls),
  (c!"deviceprobe", FC3_DeviceProbe.cls),
  (c!"dmraid", FC6_DmRaid.cls FC6_DmRaidData.cls),
  (c!"driverdisk", F12_DriverDisk.cls F12_DriverDiskData.cls),
  (c!"fcoe", F13_Fcoe.cls F13_FcoeData.cls),
  (c!"firewall", F10_Firewall.cls),
  (c!"firstboot", FC3_Firstboot.cls),
  (c!"graphical", FC3_DisplayMode.cls),
  (c!"group", F12_Group.cls F12_GroupData.cls),
  (c!"halt", FC6_Reboot.cls),
  (c!"harddrive", FC3_HardDrive.cls),
  (c!"ignoredisk", F8_IgnoreDisk.cls),
  (c!"install", F11_Upgrade.cls),
  (c!"interactive", FC3_Interactive.cls),
  (c!"iscsi", F10_Iscsi.cls F10_IscsiData.cls),
  (c!"iscsiname", FC6_IscsiName.cls),
  (c!"keyboard", FC3_Keyboard.cls),
  (c!"lang", FC3_Lang.cls),
  (c!"logging", FC6_Logging.cls),
  (c!"logvol", F12_LogVol.cls F12_LogVolData.cls),
  (c!"mediacheck", FC4_MediaCheck.cls),
  (c!"method", F13_Method.cls),
  (c!"monitor", F10_Monitor.cls),
  (c!"multipath", FC6_MultiPath.cls FC6_MultiPathData.cls),
  (c!"network", F9_Network.cls F8_NetworkData.cls),
  (c!"nfs", FC6_NFS.cls),
  (c!"part", F12_Partition.cls F12_PartData.cls),
  (c!"partition", F12_Partition.cls F12_PartData.cls),
  (c!"poweroff", FC6_Reboot.cls),
  (c!"raid", F13_Raid.cls F13_RaidData.cls),
  (c!"reboot", FC6_Reboot.cls),
  (c!"repo", F13_Repo.cls F13_RepoData.cls),
  (c!"rescue", F10_Rescue.cls),
  (c!"rootpw", F8_RootPw.cls),
  (c!"selinux", FC3_SELinux.cls),
  (c!"services", FC6_Services.cls),
  (c!"shutdown", FC6_Reboot.cls),
  (c!"skipx", FC3_SkipX.cls),
  (c!"sshpw", F13_SshPw.cls F13_SshPwData.cls),
  (c!"text", FC3_DisplayMode.cls),
  (c!"timezone", FC6_Timezone.cls),
  (c!"updates", F7_Updates.cls),
  (c!"upgrade", F11_Upgrade.cls),
  (c!"url", F13_Url.cls),
  (c!"user", F12_User.cls F12_UserData.cls),
  (c!"vnc", F9_Vnc.cls),
  (c!"volgroup", FC3_VolGroup.cls FC3_VolGroupData.cls),
  (c!"xconfig", F10_XConfig.cls),
  (c!"zerombr", F9_ZeroMbr.cls),
  (c!"zfcp", F12_ZFCP.cls F12_ZFCPData.cls)]

/-- `handlers/f14.py:29-88` -/
def commandMapF14 : List (Str × Command) := [
  (c!"auth", FC3_Authconfig.cls),
  (c!"authconfig", FC3_Authconfig.cls),
  (c!"autopart", F12_AutoPart.cls),
  (c!"autostep", FC3_AutoStep.cls),
  (c!"bootloader", F14_Bootloader.cls),
  (c!"cdrom", FC3_Cdrom.cls),
  (c!"clearpart", FC3_ClearPart.cls),
  (c!"cmdline", FC3_DisplayMode.cls),
  (c!"device", F8_Device.cls F8_DeviceData.cls),
  (c!"deviceprobe", FC3_DeviceProbe.cls),
  (c!"dmraid", FC6_DmRaid.cls FC6_DmRaidData.cls),
  (c!"driverdisk", F14_DriverDisk.cls F14_DriverDiskData.cls),
  (c!"fcoe", F13_Fcoe.cls F13_FcoeData.cls),
  (c!"firewall", F14_Firewall.cls),
  (c!"firstboot", FC3_Firstboot.cls),
  (c!"graphical", FC3_DisplayMode.cls),
  (c!"group", F12_Group.cls F12_GroupData.cls),
  (c!"halt", FC6_Reboot.cls),
  (c!"harddrive", FC3_HardDrive.cls),
  (c!"ignoredisk", F14_IgnoreDisk.cls),
  (c!"install", F11_Upgrade.cls),
  (c!"interactive", F14_Interactive.cls),
  (c!"iscsi", F10_Iscsi.cls F10_IscsiData.cls),
  (c!"iscsiname", FC6_IscsiName.cls),
  (c!"keyboard", FC3_Keyboard.cls),
  (c!"lang", FC3_Lang.cls),
  (c!"logging", FC6_Logging.cls),
  (c!"logvol", F14_LogVol.cls F14_LogVolData.cls),
  (c!"mediacheck", FC4_MediaCheck.cls),
  (c!"method", F14_Method.cls),
  (c!"monitor", F10_Monitor.cls),
  (c!"multipath", FC6_MultiPath.cls FC6_MultiPathData.cls),
  (c!"network", F9_Network.cls F8_NetworkData.cls),
  (c!"nfs", FC6_NFS.cls),
  (c!"part", F14_Partition.cls F14_PartData.cls),
  (c!"partition", F14_Partition.cls F14_PartData.cls),
  (c!"poweroff", FC6_Reboot.cls),
  (c!"raid", F14_Raid.cls F14_RaidData.cls),
  (c!"reboot", FC6_Reboot.cls),
  (c!"repo", F14_Repo.cls F14_RepoData.cls),
  (c!"rescue", F10_Rescue.cls),
  (c!"rootpw", F8_RootPw.cls),
  (c!"selinux", FC3_SELinux.cls),
  (c!"services", FC6_Services.cls),
  (c!"shutdown", FC6_Reboot.cls),
  (c!"skipx", FC3_SkipX.cls),
  (c!"sshpw", F13_SshPw.cls F13_SshPwData.cls),
  (c!"text", FC3_DisplayMode.cls),
  (c!"timezone", FC6_Timezone.cls),
  (c!"updates", F7_Updates.cls),
  (c!"upgrade", F11_Upgrade.cls),
  (c!"url", F14_Url.cls),
  (c!"user", F12_User.cls F12_UserData.cls),
  (c!"vnc", F9_Vnc.cls),
  (c!"volgroup", FC3_VolGroup.cls FC3_VolGroupData.cls),
  (c!"xconfig", F14_XConfig.cls),
  (c!"zerombr", F9_ZeroMbr.cls),
  (c!"zfcp", F14_ZFCP.cls F14_ZFCPData.cls)]

/-- `handlers/f15.py:29-88` -/
def commandMapF15 : List (Str × Command) := [
  (c!"auth", FC3_Authconfig.cls),
  (c!"authconfig", FC3_Authconfig.cls),
  (c!"autopart", F12_AutoPart.cls),
  (c!"autostep", FC3_AutoStep.cls),
  (c!"bootloader", F15_Bootloader.cls),
  (c!"cdrom", FC3_Cdrom.cls),
  (c!"clearpart", FC3_ClearPart.cls),
  (c!"cmdline", FC3_DisplayMode.cls),
  (c!"device", F8_Device.cls F8_DeviceData.cls),
  (c!"deviceprobe", FC3_DeviceProbe.cls),
  (c!"dmraid", FC6_DmRaid.cls FC6_DmRaidData.cls),
  (c!"driverdisk", F14_DriverDisk.cls F14_DriverDiskData.cls),
  (c!"fcoe", F13_Fcoe.cls F13_FcoeData.cls),
  (c!"firewall", F14_Firewall.cls),
  (c!"firstboot", FC3_Firstboot.cls),
  (c!"graphical", FC3_DisplayMode.cls),
  (c!"group", F12_Group.cls F12_GroupData.cls),
  (c!"halt", FC6_Reboot.cls),
  (c!"harddrive", FC3_HardDrive.cls),
  (c!"ignoredisk", F14_IgnoreDisk.cls),
  (c!"install", F11_Upgrade.cls),
  (c!"interactive", F15_Interactive.cls),
  (c!"iscsi", F10_Iscsi.cls F10_IscsiData.cls),
  (c!"iscsiname", FC6_IscsiName.cls),
  (c!"keyboard", FC3_Keyboard.cls),
  (c!"lang", FC3_Lang.cls),
  (c!"logging", FC6_Logging.cls),
  (c!"logvol", F15_LogVol.cls F15_LogVolData.cls),
  (c!"mediacheck", FC4_MediaCheck.cls),
  (c!"method", F14_Method.cls),
  (c!"monitor", F10_Monitor.cls),
  (c!"multipath", FC6_MultiPath.cls FC6_MultiPathData.cls),
  (c!"network", F9_Network.cls F8_NetworkData.cls),
  (c!"nfs", FC6_NFS.cls),
  (c!"part", F14_Partition.cls F14_PartData.cls),
  (c!"partition", F14_Partition.cls F14_PartData.cls),
  (c!"poweroff", FC6_Reboot.cls),
  (c!"raid", F15_Raid.cls F15_RaidData.cls),
  (c!"reboot", FC6_Reboot.cls),
  (c!"repo", F15_Repo.cls F15_RepoData.cls),
  (c!"rescue", F10_Rescue.cls),
  (c!"rootpw", F8_RootPw.cls),
  (c!"selinux", FC3_SELinux.cls),
  (c!"services", FC6_Services.cls),
  (c!"shutdown", FC6_Reboot.cls),
  (c!"skipx", FC3_SkipX.cls),
  (c!"sshpw", F13_SshPw.cls F13_SshPwData.cls),
  (c!"text", FC3_DisplayMode.cls),
  (c!"timezone", FC6_Timezone.cls),
  (c!"updates", F7_Updates.cls),
  (c!"upgrade", F11_Upgrade.cls),
  (c!"url", F14_Url.cls),
  (c!"user", F12_User.cls F12_UserData.cls),
  (c!"vnc", F9_Vnc.cls),
  (c!"volgroup", FC3_VolGroup.cls FC3_VolGroupData.cls),
  (c!"xconfig", F14_XConfig.cls),
  (c!"zerombr", F9_ZeroMbr.cls),
  (c!"zfcp", F14_ZFCP.cls F14_ZFCPData.cls)]

/-- `handlers/f16.py:29-87` -/
def commandMapF16 : List (Str × Command) := [
  (c!"auth", FC3_Authconfig.cls),
  (c!"authconfig", FC3_Authconfig.cls),
  (c!"autopart", F16_AutoPart.cls),
  (c!"autostep", FC3_AutoStep.cls),
  (c!"bootloader", F15_Bootloader.cls),
  (c!"cdrom", FC3_Cdrom.cls),
  (c!"clearpart", FC3_ClearPart.cls),
  (c!"cmdline", FC3_DisplayMode.cls),
  (c!"device", F8_Device.cls F8_DeviceData.cls),
  (c!"deviceprobe", FC3_DeviceProbe.cls),
  (c!"dmraid", FC6_DmRaid.cls FC6_DmRaidData.cls),
  (c!"driverdisk", F14_DriverDisk.cls F14_DriverDiskData.cls),
  (c!"fcoe", F13_Fcoe.cls F13_FcoeData.cls),
  (c!"firewall", F14_Firewall.cls),
  (c!"firstboot", FC3_Firstboot.cls),
  (c!"graphical", FC3_DisplayMode.cls),
  (c!"group", F12_Group.cls F12_GroupData.cls),
  (c!"halt", FC6_Reboot.cls),
  (c!"harddrive", FC3_HardDrive.cls),
  (c!"ignoredisk", F14_IgnoreDisk.cls),
  (c!"install", F11_Upgrade.cls),
  (c!"iscsi", F10_Iscsi.cls F10_IscsiData.cls),
  (c!"iscsiname", FC6_IscsiName.cls),
  (c!"keyboard", FC3_Keyboard.cls),
  (c!"lang", FC3_Lang.cls),
  (c!"logging", FC6_Logging.cls),
  (c!"logvol", F15_LogVol.cls F17_LogVolData.cls),
  (c!"mediacheck", FC4_MediaCheck.cls),
  (c!"method", F14_Method.cls),
  (c!"monitor", F10_Monitor.cls),
  (c!"multipath", FC6_MultiPath.cls FC6_MultiPathData.cls),
  (c!"network", F16_Network.cls F16_NetworkData.cls),
  (c!"nfs", FC6_NFS.cls),
  (c!"part", F14_Partition.cls F17_PartData.cls),
  (c!"partition", F14_Partition.cls F17_PartData.cls),
  (c!"poweroff", FC6_Reboot.cls),
  (c!"raid", F15_Raid.cls F15_RaidData.cls),
  (c!"reboot", FC6_Reboot.cls),
  (c!"repo", F15_Repo.cls F15_RepoData.cls),
  (c!"rescue", F10_Rescue.cls),
  (c!"rootpw", F8_RootPw.cls),
  (c!"selinux", FC3_SELinux.cls),
  (c!"services", FC6_Services.cls),
  (c!"shutdown", FC6_Reboot.cls),
  (c!"skipx", FC3_SkipX.cls),
  (c!"sshpw", F13_SshPw.cls F13_SshPwData.cls),
  (c!"text", FC3_DisplayMode.cls),
  (c!"timezone", FC6_Timezone.cls),
  (c!"updates", F7_Updates.cls),
  (c!"upgrade", F11_Upgrade.cls),
  (c!"url", F14_Url.cls),
  (c!"user", F12_User.cls F12_UserData.cls),
  (c!"vnc", F9_Vnc.cls),
  (c!"volgroup", F16_VolGroup.cls F16_VolGroupData.cls),
  (c!"xconfig", F14_XConfig.cls),
  (c!"zerombr", F9_ZeroMbr.cls),
  (c!"zfcp", F14_ZFCP.cls F14_ZFCPData.cls)]

/-- `handlers/f17.py:29-88` -/
def commandMapF17 : List (Str × Command) := [
  (c!"auth", FC3_Authconfig.cls),
  (c!"authconfig", FC3_Authconfig.cls),
  (c!"autopart", F17_AutoPart.cls),
  (c!"autostep", FC3_AutoStep.cls),
  (c!"bootloader", F17_Bootloader.cls),
  (c!"btrfs", F17_BTRFS.cls F17_BTRFSData.cls),
  (c!"cdrom", FC3_Cdrom.cls),
  (c!"clearpart", F17_ClearPart.cls),
  (c!"cmdline", FC3_DisplayMode.cls),
  (c!"device", F8_Device.cls F8_DeviceData.cls),
  (c!"deviceprobe", FC3_DeviceProbe.cls),
  (c!"dmraid", FC6_DmRaid.cls FC6_DmRaidData.cls),
  (c!"driverdisk", F14_DriverDisk.cls F14_DriverDiskData.cls),
  (c!"fcoe", F13_Fcoe.cls F13_FcoeData.cls),
  (c!"firewall", F14_Firewall.cls),
  (c!"firstboot", FC3_Firstboot.cls),
  (c!"graphical", FC3_DisplayMode.cls),
  (c!"group", F12_Group.cls F12_GroupData.cls),
  (c!"halt", FC6_Reboot.cls),
  (c!"harddrive", FC3_HardDrive.cls),
  (c!"ignoredisk", F14_IgnoreDisk.cls),
  (c!"install", F11_Upgrade.cls),
  (c!"iscsi", F17_Iscsi.cls F17_IscsiData.cls),
  (c!"iscsiname", FC6_IscsiName.cls),
  (c!"keyboard", FC3_Keyboard.cls),
  (c!"lang", FC3_Lang.cls),
  (c!"logging", FC6_Logging.cls),
  (c!"logvol", F17_LogVol.cls F17_LogVolData.cls),
  (c!"mediacheck", FC4_MediaCheck.cls),
  (c!"method", F14_Method.cls),
  (c!"monitor", F10_Monitor.cls),
  (c!"multipath", FC6_MultiPath.cls FC6_MultiPathData.cls),
  (c!"network", F16_Network.cls F16_NetworkData.cls),
  (c!"nfs", FC6_NFS.cls),
  (c!"part", F17_Partition.cls F17_PartData.cls),
  (c!"partition", F17_Partition.cls F17_PartData.cls),
  (c!"poweroff", FC6_Reboot.cls),
  (c!"raid", F15_Raid.cls F15_RaidData.cls),
  (c!"reboot", FC6_Reboot.cls),
  (c!"repo", F15_Repo.cls F15_RepoData.cls),
  (c!"rescue", F10_Rescue.cls),
  (c!"rootpw", F8_RootPw.cls),
  (c!"selinux", FC3_SELinux.cls),
  (c!"services", FC6_Services.cls),
  (c!"shutdown", FC6_Reboot.cls),
  (c!"skipx", FC3_SkipX.cls),
  (c!"sshpw", F13_SshPw.cls F13_SshPwData.cls),
  (c!"text", FC3_DisplayMode.cls),
  (c!"timezone", FC6_Timezone.cls),
  (c!"updates", F7_Updates.cls),
  (c!"upgrade", F11_Upgrade.cls),
  (c!"url", F14_Url.cls),
  (c!"user", F12_User.cls F12_UserData.cls),
  (c!"vnc", F9_Vnc.cls),
  (c!"volgroup", F16_VolGroup.cls F16_VolGroupData.cls),
  (c!"xconfig", F14_XConfig.cls),
  (c!"zerombr", F9_ZeroMbr.cls),
  (c!"zfcp", F14_ZFCP.cls F14_ZFCPData.cls)]

/-- `handlers/f18.py:29-88` -/
def commandMapF18 : List (Str × Command) := [
  (c!"auth", FC3_Authconfig.cls),
  (c!"authconfig", FC3_Authconfig.cls),
  (c!"autopart", F18_AutoPart.cls),
  (c!"autostep", FC3_AutoStep.cls),
  (c!"bootloader", F18_Bootloader.cls),
  (c!"btrfs", F17_BTRFS.cls F17_BTRFSData.cls),
  (c!"cdrom", FC3_Cdrom.cls),
  (c!"clearpart", F17_ClearPart.cls),
  (c!"cmdline", FC3_DisplayMode.cls),
  (c!"device", F8_Device.cls F8_DeviceData.cls),
  (c!"deviceprobe", FC3_DeviceProbe.cls),
  (c!"dmraid", FC6_DmRaid.cls FC6_DmRaidData.cls),
  (c!"driverdisk", F14_DriverDisk.cls F14_DriverDiskData.cls),
  (c!"fcoe", F13_Fcoe.cls RHEL7_FcoeData.cls),
  (c!"firewall", F14_Firewall.cls),
  (c!"firstboot", FC3_Firstboot.cls),
  (c!"graphical", FC3_DisplayMode.cls),
  (c!"group", F12_Group.cls F12_GroupData.cls),
  (c!"halt", F18_Reboot.cls),
  (c!"harddrive", FC3_HardDrive.cls),
  (c!"ignoredisk", F14_IgnoreDisk.cls),
  (c!"install", F11_Upgrade.cls),
  (c!"iscsi", F17_Iscsi.cls F17_IscsiData.cls),
  (c!"iscsiname", FC6_IscsiName.cls),
  (c!"keyboard", F18_Keyboard.cls),
  (c!"lang", FC3_Lang.cls),
  (c!"logging", FC6_Logging.cls),
  (c!"logvol", F18_LogVol.cls F18_LogVolData.cls),
  (c!"mediacheck", FC4_MediaCheck.cls),
  (c!"method", F18_Method.cls),
  (c!"monitor", F18_Monitor.cls),
  (c!"multipath", FC6_MultiPath.cls FC6_MultiPathData.cls),
  (c!"network", F18_Network.cls F16_NetworkData.cls),
  (c!"nfs", FC6_NFS.cls),
  (c!"part", F18_Partition.cls F18_PartData.cls),
  (c!"partition", F18_Partition.cls F18_PartData.cls),
  (c!"poweroff", F18_Reboot.cls),
  (c!"raid", F18_Raid.cls F18_RaidData.cls),
  (c!"reboot", F18_Reboot.cls),
  (c!"repo", F15_Repo.cls F15_RepoData.cls),
  (c!"rescue", F10_Rescue.cls),
  (c!"rootpw", F18_RootPw.cls),
  (c!"selinux", FC3_SELinux.cls),
  (c!"services", FC6_Services.cls),
  (c!"shutdown", F18_Reboot.cls),
  (c!"skipx", FC3_SkipX.cls),
  (c!"sshpw", F13_SshPw.cls F13_SshPwData.cls),
  (c!"text", FC3_DisplayMode.cls),
  (c!"timezone", F18_Timezone.cls),
  (c!"updates", F7_Updates.cls),
  (c!"upgrade", F11_Upgrade.cls),
  (c!"url", F18_Url.cls),
  (c!"user", F12_User.cls F12_UserData.cls),
  (c!"vnc", F9_Vnc.cls),
  (c!"volgroup", F16_VolGroup.cls F16_VolGroupData.cls),
  (c!"xconfig", F14_XConfig.cls),
  (c!"zerombr", F9_ZeroMbr.cls),
  (c!"zfcp", F14_ZFCP.cls F14_ZFCPData.cls)]

/-- `handlers/f19.py:29-89` -/
def commandMapF19 : List (Str × Command) := [
  (c!"auth", FC3_Authconfig.cls),
  (c!"authconfig", FC3_Authconfig.cls),
  (c!"autopart", F18_AutoPart.cls),
  (c!"autostep", FC3_AutoStep.cls),
  (c!"bootloader", F19_Bootloader.cls),
  (c!"btrfs", F17_BTRFS.cls F17_BTRFSData.cls),
  (c!"cdrom", FC3_Cdrom.cls),
  (c!"clearpart", F17_ClearPart.cls),
  (c!"cmdline", FC3_DisplayMode.cls),
  (c!"device", F8_Device.cls F8_DeviceData.cls),
  (c!"deviceprobe", FC3_DeviceProbe.cls),
  (c!"dmraid", FC6_DmRaid.cls FC6_DmRaidData.cls),
  (c!"driverdisk", F14_DriverDisk.cls F14_DriverDiskData.cls),
  (c!"fcoe", F13_Fcoe.cls F13_FcoeData.cls),
  (c!"firewall", F14_Firewall.cls),
  (c!"firstboot", FC3_Firstboot.cls),
  (c!"graphical", FC3_DisplayMode.cls),
  (c!"group", F12_Group.cls F12_GroupData.cls),
  (c!"halt", F18_Reboot.cls),
  (c!"harddrive", FC3_HardDrive.cls),
  (c!"ignoredisk", F14_IgnoreDisk.cls),
  (c!"install", F11_Upgrade.cls),
  (c!"iscsi", F17_Iscsi.cls F17_IscsiData.cls),
  (c!"iscsiname", FC6_IscsiName.cls),
  (c!"keyboard", F18_Keyboard.cls),
  (c!"lang", F19_Lang.cls),
  (c!"liveimg", F19_Liveimg.cls),
  (c!"logging", FC6_Logging.cls),
  (c!"logvol", F18_LogVol.cls F20_LogVolData.cls),
  (c!"mediacheck", FC4_MediaCheck.cls),
  (c!"method", F19_Method.cls),
  (c!"multipath", FC6_MultiPath.cls FC6_MultiPathData.cls),
  (c!"network", F19_Network.cls F19_NetworkData.cls),
  (c!"nfs", FC6_NFS.cls),
  (c!"part", F18_Partition.cls F18_PartData.cls),
  (c!"partition", F18_Partition.cls F18_PartData.cls),
  (c!"poweroff", F18_Reboot.cls),
  (c!"raid", F19_Raid.cls F18_RaidData.cls),
  (c!"realm", F19_Realm.cls),
  (c!"reboot", F18_Reboot.cls),
  (c!"repo", F15_Repo.cls F15_RepoData.cls),
  (c!"rescue", F10_Rescue.cls),
  (c!"rootpw", F18_RootPw.cls),
  (c!"selinux", FC3_SELinux.cls),
  (c!"services", FC6_Services.cls),
  (c!"shutdown", F18_Reboot.cls),
  (c!"skipx", FC3_SkipX.cls),
  (c!"sshpw", F13_SshPw.cls F13_SshPwData.cls),
  (c!"text", FC3_DisplayMode.cls),
  (c!"timezone", F18_Timezone.cls),
  (c!"updates", F7_Updates.cls),
  (c!"upgrade", F11_Upgrade.cls),
  (c!"url", F18_Url.cls),
  (c!"user", F19_User.cls F19_UserData.cls),
  (c!"vnc", F9_Vnc.cls),
  (c!"volgroup", F16_VolGroup.cls F16_VolGroupData.cls),
  (c!"xconfig", F14_XConfig.cls),
  (c!"zerombr", F9_ZeroMbr.cls),
  (c!"zfcp", F14_ZFCP.cls F14_ZFCPData.cls)]

/-- `handlers/f20.py:29-90` -/
def commandMapF20 : List (Str × Command) := [
  (c!"auth", FC3_Authconfig.cls),
  (c!"authconfig", FC3_Authconfig.cls),
  (c!"autopart", F20_AutoPart.cls),
  (c!"autostep", FC3_AutoStep.cls),
  (c!"bootloader", F19_Bootloader.cls),
  (c!"btrfs", F17_BTRFS.cls F17_BTRFSData.cls),
  (c!"cdrom", FC3_Cdrom.cls),
  (c!"clearpart", F17_ClearPart.cls),
  (c!"cmdline", FC3_DisplayMode.cls),
  (c!"device", F8_Device.cls F8_DeviceData.cls),
  (c!"deviceprobe", FC3_DeviceProbe.cls),
  (c!"dmraid", FC6_DmRaid.cls FC6_DmRaidData.cls),
  (c!"driverdisk", F14_DriverDisk.cls F14_DriverDiskData.cls),
  (c!"eula", F20_Eula.cls),
  (c!"fcoe", F13_Fcoe.cls F13_FcoeData.cls),
  (c!"firewall", F20_Firewall.cls),
  (c!"firstboot", FC3_Firstboot.cls),
  (c!"graphical", FC3_DisplayMode.cls),
  (c!"group", F12_Group.cls F12_GroupData.cls),
  (c!"halt", F18_Reboot.cls),
  (c!"harddrive", FC3_HardDrive.cls),
  (c!"ignoredisk", F14_IgnoreDisk.cls),
  (c!"install", F20_Install.cls),
  (c!"iscsi", F17_Iscsi.cls F17_IscsiData.cls),
  (c!"iscsiname", FC6_IscsiName.cls),
  (c!"keyboard", F18_Keyboard.cls),
  (c!"lang", F19_Lang.cls),
  (c!"liveimg", F19_Liveimg.cls),
  (c!"logging", FC6_Logging.cls),
  (c!"logvol", F20_LogVol.cls F20_LogVolData.cls),
  (c!"mediacheck", FC4_MediaCheck.cls),
  (c!"method", F19_Method.cls),
  (c!"multipath", FC6_MultiPath.cls FC6_MultiPathData.cls),
  (c!"network", F20_Network.cls F20_NetworkData.cls),
  (c!"nfs", FC6_NFS.cls),
  (c!"part", F20_Partition.cls F18_PartData.cls),
  (c!"partition", F20_Partition.cls F18_PartData.cls),
  (c!"poweroff", F18_Reboot.cls),
  (c!"raid", F20_Raid.cls F18_RaidData.cls),
  (c!"realm", F19_Realm.cls),
  (c!"reboot", F18_Reboot.cls),
  (c!"repo", F15_Repo.cls F15_RepoData.cls),
  (c!"rescue", F10_Rescue.cls),
  (c!"rootpw", F18_RootPw.cls),
  (c!"selinux", FC3_SELinux.cls),
  (c!"services", FC6_Services.cls),
  (c!"shutdown", F18_Reboot.cls),
  (c!"skipx", FC3_SkipX.cls),
  (c!"sshpw", F13_SshPw.cls F13_SshPwData.cls),
  (c!"text", FC3_DisplayMode.cls),
  (c!"timezone", F18_Timezone.cls),
  (c!"updates", F7_Updates.cls),
  (c!"upgrade", F20_Upgrade.cls),
  (c!"url", F18_Url.cls),
  (c!"user", F19_User.cls F19_UserData.cls),
  (c!"vnc", F9_Vnc.cls),
  (c!"volgroup", F16_VolGroup.cls F16_VolGroupData.cls),
  (c!"xconfig", F14_XConfig.cls),
  (c!"zerombr", F9_ZeroMbr.cls),
  (c!"zfcp", F14_ZFCP.cls F14_ZFCPData.cls)]

/-- `handlers/f21.py:29-91` -/
def commandMapF21 : List (Str × Command) := [
  (c!"auth", FC3_Authconfig.cls),
  (c!"authconfig", FC3_Authconfig.cls),
  (c!"autopart", F21_AutoPart.cls),
  (c!"autostep", FC3_AutoStep.cls),
  (c!"bootloader", F21_Bootloader.cls),
  (c!"btrfs", F17_BTRFS.cls F17_BTRFSData.cls),
  (c!"cdrom", FC3_Cdrom.cls),
  (c!"clearpart", F21_ClearPart.cls),
  (c!"cmdline", FC3_DisplayMode.cls),
  (c!"device", F8_Device.cls F8_DeviceData.cls),
  (c!"deviceprobe", FC3_DeviceProbe.cls),
  (c!"dmraid", FC6_DmRaid.cls FC6_DmRaidData.cls),
  (c!"driverdisk", F14_DriverDisk.cls F14_DriverDiskData.cls),
  (c!"eula", F20_Eula.cls),
  (c!"fcoe", F13_Fcoe.cls F13_FcoeData.cls),
  (c!"firewall", F20_Firewall.cls),
  (c!"firstboot", FC3_Firstboot.cls),
  (c!"graphical", FC3_DisplayMode.cls),
  (c!"group", F12_Group.cls F12_GroupData.cls),
  (c!"halt", F18_Reboot.cls),
  (c!"harddrive", FC3_HardDrive.cls),
  (c!"ignoredisk", F14_IgnoreDisk.cls),
  (c!"install", F20_Install.cls),
  (c!"iscsi", F17_Iscsi.cls F17_IscsiData.cls),
  (c!"iscsiname", FC6_IscsiName.cls),
  (c!"keyboard", F18_Keyboard.cls),
  (c!"lang", F19_Lang.cls),
  (c!"liveimg", F19_Liveimg.cls),
  (c!"logging", FC6_Logging.cls),
  (c!"logvol", F21_LogVol.cls F21_LogVolData.cls),
  (c!"mediacheck", FC4_MediaCheck.cls),
  (c!"method", F19_Method.cls),
  (c!"multipath", FC6_MultiPath.cls FC6_MultiPathData.cls),
  (c!"network", F21_Network.cls F21_NetworkData.cls),
  (c!"nfs", FC6_NFS.cls),
  (c!"ostreesetup", F21_OSTreeSetup.cls),
  (c!"part", F20_Partition.cls F18_PartData.cls),
  (c!"partition", F20_Partition.cls F18_PartData.cls),
  (c!"poweroff", F18_Reboot.cls),
  (c!"raid", F20_Raid.cls F18_RaidData.cls),
  (c!"realm", F19_Realm.cls),
  (c!"reboot", F18_Reboot.cls),
  (c!"repo", F21_Repo.cls F21_RepoData.cls),
  (c!"rescue", F10_Rescue.cls),
  (c!"rootpw", F18_RootPw.cls),
  (c!"selinux", FC3_SELinux.cls),
  (c!"services", FC6_Services.cls),
  (c!"shutdown", F18_Reboot.cls),
  (c!"skipx", FC3_SkipX.cls),
  (c!"sshpw", F13_SshPw.cls F13_SshPwData.cls),
  (c!"text", FC3_DisplayMode.cls),
  (c!"timezone", F18_Timezone.cls),
  (c!"updates", F7_Updates.cls),
  (c!"upgrade", F20_Upgrade.cls),
  (c!"url", F18_Url.cls),
  (c!"user", F19_User.cls F19_UserData.cls),
  (c!"vnc", F9_Vnc.cls),
  (c!"volgroup", F21_VolGroup.cls F21_VolGroupData.cls),
  (c!"xconfig", F14_XConfig.cls),
  (c!"zerombr", F9_ZeroMbr.cls),
  (c!"zfcp", F14_ZFCP.cls F14_ZFCPData.cls)]

/-- `handlers/f22.py:29-92` -/
def commandMapF22 : List (Str × Command) := [
  (c!"auth", FC3_Authconfig.cls),
  (c!"authconfig", FC3_Authconfig.cls),
  (c!"autopart", F21_AutoPart.cls),
  (c!"autostep", FC3_AutoStep.cls),
  (c!"bootloader", F21_Bootloader.cls),
  (c!"btrfs", F17_BTRFS.cls F17_BTRFSData.cls),
  (c!"cdrom", FC3_Cdrom.cls),
  (c!"clearpart", F21_ClearPart.cls),
  (c!"cmdline", FC3_DisplayMode.cls),
  (c!"device", F8_Device.cls F8_DeviceData.cls),
  (c!"deviceprobe", FC3_DeviceProbe.cls),
  (c!"dmraid", FC6_DmRaid.cls FC6_DmRaidData.cls),
  (c!"driverdisk", F14_DriverDisk.cls F14_DriverDiskData.cls),
  (c!"eula", F20_Eula.cls),
  (c!"fcoe", F13_Fcoe.cls F13_FcoeData.cls),
  (c!"firewall", F20_Firewall.cls),
  (c!"firstboot", FC3_Firstboot.cls),
  (c!"graphical", FC3_DisplayMode.cls),
  (c!"group", F12_Group.cls F12_GroupData.cls),
  (c!"halt", F18_Reboot.cls),
  (c!"harddrive", FC3_HardDrive.cls),
  (c!"ignoredisk", F14_IgnoreDisk.cls),
  (c!"install", F20_Install.cls),
  (c!"iscsi", F17_Iscsi.cls F17_IscsiData.cls),
  (c!"iscsiname", FC6_IscsiName.cls),
  (c!"keyboard", F18_Keyboard.cls),
  (c!"lang", F19_Lang.cls),
  (c!"liveimg", F19_Liveimg.cls),
  (c!"logging", FC6_Logging.cls),
  (c!"logvol", F21_LogVol.cls F21_LogVolData.cls),
  (c!"mediacheck", FC4_MediaCheck.cls),
  (c!"method", F19_Method.cls),
  (c!"multipath", FC6_MultiPath.cls FC6_MultiPathData.cls),
  (c!"network", F22_Network.cls F22_NetworkData.cls),
  (c!"nfs", FC6_NFS.cls),
  (c!"ostreesetup", F21_OSTreeSetup.cls),
  (c!"part", F20_Partition.cls F18_PartData.cls),
  (c!"partition", F20_Partition.cls F18_PartData.cls),
  (c!"poweroff", F18_Reboot.cls),
  (c!"raid", F20_Raid.cls F18_RaidData.cls),
  (c!"realm", F19_Realm.cls),
  (c!"reboot", F18_Reboot.cls),
  (c!"repo", F21_Repo.cls F21_RepoData.cls),
  (c!"rescue", F10_Rescue.cls),
  (c!"rootpw", F18_RootPw.cls),
  (c!"selinux", FC3_SELinux.cls),
  (c!"services", FC6_Services.cls),
  (c!"shutdown", F18_Reboot.cls),
  (c!"skipx", FC3_SkipX.cls),
  (c!"sshpw", F13_SshPw.cls F13_SshPwData.cls),
  (c!"sshkey", F22_SshKey.cls F22_SshKeyData.cls),
  (c!"text", FC3_DisplayMode.cls),
  (c!"timezone", F18_Timezone.cls),
  (c!"updates", F7_Updates.cls),
  (c!"upgrade", F20_Upgrade.cls),
  (c!"url", F18_Url.cls),
  (c!"user", F19_User.cls F19_UserData.cls),
  (c!"vnc", F9_Vnc.cls),
  (c!"volgroup", F21_VolGroup.cls F21_VolGroupData.cls),
  (c!"xconfig", F14_XConfig.cls),
  (c!"zerombr", F9_ZeroMbr.cls),
  (c!"zfcp", F14_ZFCP.cls F14_ZFCPData.cls)]

/-- `handlers/f23.py:29-93` -/
def commandMapF23 : List (Str × Command) := [
  (c!"auth", FC3_Authconfig.cls),
  (c!"authconfig", FC3_Authconfig.cls),
  (c!"autopart", F23_AutoPart.cls),
  (c!"autostep", FC3_AutoStep.cls),
  (c!"bootloader", F21_Bootloader.cls),
  (c!"btrfs", F23_BTRFS.cls F23_BTRFSData.cls),
  (c!"cdrom", FC3_Cdrom.cls),
  (c!"clearpart", F21_ClearPart.cls),
  (c!"cmdline", FC3_DisplayMode.cls),
  (c!"device", F8_Device.cls F8_DeviceData.cls),
  (c!"deviceprobe", FC3_DeviceProbe.cls),
  (c!"dmraid", FC6_DmRaid.cls FC6_DmRaidData.cls),
  (c!"driverdisk", F14_DriverDisk.cls F14_DriverDiskData.cls),
  (c!"eula", F20_Eula.cls),
  (c!"fcoe", F13_Fcoe.cls F13_FcoeData.cls),
  (c!"firewall", F20_Firewall.cls),
  (c!"firstboot", FC3_Firstboot.cls),
  (c!"graphical", FC3_DisplayMode.cls),
  (c!"group", F12_Group.cls F12_GroupData.cls),
  (c!"halt", F23_Reboot.cls),
  (c!"harddrive", FC3_HardDrive.cls),
  (c!"ignoredisk", F14_IgnoreDisk.cls),
  (c!"install", F20_Install.cls),
  (c!"iscsi", F17_Iscsi.cls F17_IscsiData.cls),
  (c!"iscsiname", FC6_IscsiName.cls),
  (c!"keyboard", F18_Keyboard.cls),
  (c!"lang", F19_Lang.cls),
  (c!"liveimg", F19_Liveimg.cls),
  (c!"logging", FC6_Logging.cls),
  (c!"logvol", F23_LogVol.cls F23_LogVolData.cls),
  (c!"mediacheck", FC4_MediaCheck.cls),
  (c!"method", F19_Method.cls),
  (c!"multipath", FC6_MultiPath.cls FC6_MultiPathData.cls),
  (c!"network", F22_Network.cls F22_NetworkData.cls),
  (c!"nfs", FC6_NFS.cls),
  (c!"ostreesetup", F21_OSTreeSetup.cls),
  (c!"part", F23_Partition.cls F23_PartData.cls),
  (c!"partition", F23_Partition.cls F23_PartData.cls),
  (c!"poweroff", F23_Reboot.cls),
  (c!"raid", F23_Raid.cls F23_RaidData.cls),
  (c!"realm", F19_Realm.cls),
  (c!"reboot", F23_Reboot.cls),
  (c!"repo", F21_Repo.cls F21_RepoData.cls),
  (c!"reqpart", F23_ReqPart.cls),
  (c!"rescue", F10_Rescue.cls),
  (c!"rootpw", F18_RootPw.cls),
  (c!"selinux", FC3_SELinux.cls),
  (c!"services", FC6_Services.cls),
  (c!"shutdown", F23_Reboot.cls),
  (c!"skipx", FC3_SkipX.cls),
  (c!"sshpw", F13_SshPw.cls F13_SshPwData.cls),
  (c!"sshkey", F22_SshKey.cls F22_SshKeyData.cls),
  (c!"text", FC3_DisplayMode.cls),
  (c!"timezone", F23_Timezone.cls),
  (c!"updates", F7_Updates.cls),
  (c!"upgrade", F20_Upgrade.cls),
  (c!"url", F18_Url.cls),
  (c!"user", F19_User.cls F19_UserData.cls),
  (c!"vnc", F9_Vnc.cls),
  (c!"volgroup", F21_VolGroup.cls F21_VolGroupData.cls),
  (c!"xconfig", F14_XConfig.cls),
  (c!"zerombr", F9_ZeroMbr.cls),
  (c!"zfcp", F14_ZFCP.cls F14_ZFCPData.cls)]

/-- `handlers/f24.py:29-93` -/
def commandMapF24 : List (Str × Command) := [
  (c!"auth", FC3_Authconfig.cls),
  (c!"authconfig", FC3_Authconfig.cls),
  (c!"autopart", F23_AutoPart.cls),
  (c!"autostep", FC3_AutoStep.cls),
  (c!"bootloader", F21_Bootloader.cls),
  (c!"btrfs", F23_BTRFS.cls F23_BTRFSData.cls),
  (c!"cdrom", FC3_Cdrom.cls),
  (c!"clearpart", F21_ClearPart.cls),
  (c!"cmdline", FC3_DisplayMode.cls),
  (c!"device", F24_Device.cls),
  (c!"deviceprobe", FC3_DeviceProbe.cls),
  (c!"dmraid", F24_DmRaid.cls),
  (c!"driverdisk", F14_DriverDisk.cls F14_DriverDiskData.cls),
  (c!"eula", F20_Eula.cls),
  (c!"fcoe", F13_Fcoe.cls F13_FcoeData.cls),
  (c!"firewall", F20_Firewall.cls),
  (c!"firstboot", FC3_Firstboot.cls),
  (c!"graphical", FC3_DisplayMode.cls),
  (c!"group", F12_Group.cls F12_GroupData.cls),
  (c!"halt", F23_Reboot.cls),
  (c!"harddrive", FC3_HardDrive.cls),
  (c!"ignoredisk", F14_IgnoreDisk.cls),
  (c!"install", F20_Install.cls),
  (c!"iscsi", F17_Iscsi.cls F17_IscsiData.cls),
  (c!"iscsiname", FC6_IscsiName.cls),
  (c!"keyboard", F18_Keyboard.cls),
  (c!"lang", F19_Lang.cls),
  (c!"liveimg", F19_Liveimg.cls),
  (c!"logging", FC6_Logging.cls),
  (c!"logvol", F23_LogVol.cls F23_LogVolData.cls),
  (c!"mediacheck", FC4_MediaCheck.cls),
  (c!"method", F19_Method.cls),
  (c!"multipath", F24_MultiPath.cls),
  (c!"network", F24_Network.cls F22_NetworkData.cls),
  (c!"nfs", FC6_NFS.cls),
  (c!"ostreesetup", F21_OSTreeSetup.cls),
  (c!"part", F23_Partition.cls F23_PartData.cls),
  (c!"partition", F23_Partition.cls F23_PartData.cls),
  (c!"poweroff", F23_Reboot.cls),
  (c!"raid", F23_Raid.cls F23_RaidData.cls),
  (c!"realm", F19_Realm.cls),
  (c!"reboot", F23_Reboot.cls),
  (c!"repo", F21_Repo.cls F21_RepoData.cls),
  (c!"reqpart", F23_ReqPart.cls),
  (c!"rescue", F10_Rescue.cls),
  (c!"rootpw", F18_RootPw.cls),
  (c!"selinux", FC3_SELinux.cls),
  (c!"services", FC6_Services.cls),
  (c!"shutdown", F23_Reboot.cls),
  (c!"skipx", FC3_SkipX.cls),
  (c!"sshpw", F24_SshPw.cls F24_SshPwData.cls),
  (c!"sshkey", F22_SshKey.cls F22_SshKeyData.cls),
  (c!"text", FC3_DisplayMode.cls),
  (c!"timezone", F23_Timezone.cls),
  (c!"updates", F7_Updates.cls),
  (c!"upgrade", F20_Upgrade.cls),
  (c!"url", F18_Url.cls),
  (c!"user", F24_User.cls F19_UserData.cls),
  (c!"vnc", F9_Vnc.cls),
  (c!"volgroup", F21_VolGroup.cls F21_VolGroupData.cls),
  (c!"xconfig", F14_XConfig.cls),
  (c!"zerombr", F9_ZeroMbr.cls),
  (c!"zfcp", F14_ZFCP.cls F14_ZFCPData.cls)]

/-- `handlers/f25.py:29-93` -/
def commandMapF25 : List (Str × Command) := [
  (c!"auth", FC3_Authconfig.cls),
  (c!"authconfig", FC3_Authconfig.cls),
  (c!"autopart", F23_AutoPart.cls),
  (c!"autostep", FC3_AutoStep.cls),
  (c!"bootloader", F21_Bootloader.cls),
  (c!"btrfs", F23_BTRFS.cls F23_BTRFSData.cls),
  (c!"cdrom", FC3_Cdrom.cls),
  (c!"clearpart", F21_ClearPart.cls),
  (c!"cmdline", FC3_DisplayMode.cls),
  (c!"device", F24_Device.cls),
  (c!"deviceprobe", FC3_DeviceProbe.cls),
  (c!"dmraid", F24_DmRaid.cls),
  (c!"driverdisk", F14_DriverDisk.cls F14_DriverDiskData.cls),
  (c!"eula", F20_Eula.cls),
  (c!"fcoe", F13_Fcoe.cls F13_FcoeData.cls),
  (c!"firewall", F20_Firewall.cls),
  (c!"firstboot", FC3_Firstboot.cls),
  (c!"graphical", FC3_DisplayMode.cls),
  (c!"group", F12_Group.cls F12_GroupData.cls),
  (c!"halt", F23_Reboot.cls),
  (c!"harddrive", FC3_HardDrive.cls),
  (c!"ignoredisk", F14_IgnoreDisk.cls),
  (c!"install", F20_Install.cls),
  (c!"iscsi", F17_Iscsi.cls F17_IscsiData.cls),
  (c!"iscsiname", FC6_IscsiName.cls),
  (c!"keyboard", F18_Keyboard.cls),
  (c!"lang", F19_Lang.cls),
  (c!"liveimg", F19_Liveimg.cls),
  (c!"logging", FC6_Logging.cls),
  (c!"logvol", F23_LogVol.cls F23_LogVolData.cls),
  (c!"mediacheck", FC4_MediaCheck.cls),
  (c!"method", F19_Method.cls),
  (c!"multipath", F24_MultiPath.cls),
  (c!"network", F25_Network.cls F25_NetworkData.cls),
  (c!"nfs", FC6_NFS.cls),
  (c!"ostreesetup", F21_OSTreeSetup.cls),
  (c!"part", F23_Partition.cls F23_PartData.cls),
  (c!"partition", F23_Partition.cls F23_PartData.cls),
  (c!"poweroff", F23_Reboot.cls),
  (c!"raid", F25_Raid.cls F25_RaidData.cls),
  (c!"realm", F19_Realm.cls),
  (c!"reboot", F23_Reboot.cls),
  (c!"repo", F21_Repo.cls F21_RepoData.cls),
  (c!"reqpart", F23_ReqPart.cls),
  (c!"rescue", F10_Rescue.cls),
  (c!"rootpw", F18_RootPw.cls),
  (c!"selinux", FC3_SELinux.cls),
  (c!"services", FC6_Services.cls),
  (c!"shutdown", F23_Reboot.cls),
  (c!"skipx", FC3_SkipX.cls),
  (c!"sshpw", F24_SshPw.cls F24_SshPwData.cls),
  (c!"sshkey", F22_SshKey.cls F22_SshKeyData.cls),
  (c!"text", FC3_DisplayMode.cls),
  (c!"timezone", F25_Timezone.cls),
  (c!"updates", F7_Updates.cls),
  (c!"upgrade", F20_Upgrade.cls),
  (c!"url", F18_Url.cls),
  (c!"user", F24_User.cls F19_UserData.cls),
  (c!"vnc", F9_Vnc.cls),
  (c!"volgroup", F21_VolGroup.cls F21_VolGroupData.cls),
  (c!"xconfig", F14_XConfig.cls),
  (c!"zerombr", F9_ZeroMbr.cls),
  (c!"zfcp", F14_ZFCP.cls F14_ZFCPData.cls)]

/-- `handlers/f26.py:29-94` -/
def commandMapF26 : List (Str × Command) := [
  (c!"auth", FC3_Authconfig.cls),
  (c!"authconfig", FC3_Authconfig.cls),
  (c!"autopart", F26_AutoPart.cls),
  (c!"autostep", FC3_AutoStep.cls),
  (c!"bootloader", F21_Bootloader.cls),
  (c!"btrfs", F23_BTRFS.cls F23_BTRFSData.cls),
  (c!"cdrom", FC3_Cdrom.cls),
  (c!"clearpart", F21_ClearPart.cls),
  (c!"cmdline", F26_DisplayMode.cls),
  (c!"device", F24_Device.cls),
  (c!"deviceprobe", FC3_DeviceProbe.cls),
  (c!"dmraid", F24_DmRaid.cls),
  (c!"driverdisk", F14_DriverDisk.cls F14_DriverDiskData.cls),
  (c!"eula", F20_Eula.cls),
  (c!"fcoe", F13_Fcoe.cls F13_FcoeData.cls),
  (c!"firewall", F20_Firewall.cls),
  (c!"firstboot", FC3_Firstboot.cls),
  (c!"graphical", F26_DisplayMode.cls),
  (c!"group", F12_Group.cls F12_GroupData.cls),
  (c!"halt", F23_Reboot.cls),
  (c!"harddrive", FC3_HardDrive.cls),
  (c!"ignoredisk", F14_IgnoreDisk.cls),
  (c!"install", F20_Install.cls),
  (c!"iscsi", F17_Iscsi.cls F17_IscsiData.cls),
  (c!"iscsiname", FC6_IscsiName.cls),
  (c!"keyboard", F18_Keyboard.cls),
  (c!"lang", F19_Lang.cls),
  (c!"liveimg", F19_Liveimg.cls),
  (c!"logging", FC6_Logging.cls),
  (c!"logvol", F23_LogVol.cls F23_LogVolData.cls),
  (c!"mediacheck", FC4_MediaCheck.cls),
  (c!"method", F19_Method.cls),
  (c!"multipath", F24_MultiPath.cls),
  (c!"network", F25_Network.cls F25_NetworkData.cls),
  (c!"nfs", FC6_NFS.cls),
  (c!"ostreesetup", F21_OSTreeSetup.cls),
  (c!"part", F23_Partition.cls F23_PartData.cls),
  (c!"partition", F23_Partition.cls F23_PartData.cls),
  (c!"poweroff", F23_Reboot.cls),
  (c!"raid", F25_Raid.cls F25_RaidData.cls),
  (c!"realm", F19_Realm.cls),
  (c!"reboot", F23_Reboot.cls),
  (c!"repo", F21_Repo.cls F21_RepoData.cls),
  (c!"reqpart", F23_ReqPart.cls),
  (c!"rescue", F10_Rescue.cls),
  (c!"rootpw", F18_RootPw.cls),
  (c!"selinux", FC3_SELinux.cls),
  (c!"services", FC6_Services.cls),
  (c!"shutdown", F23_Reboot.cls),
  (c!"skipx", FC3_SkipX.cls),
  (c!"snapshot", F26_Snapshot.cls F26_SnapshotData.cls),
  (c!"sshpw", F24_SshPw.cls F24_SshPwData.cls),
  (c!"sshkey", F22_SshKey.cls F22_SshKeyData.cls),
  (c!"text", F26_DisplayMode.cls),
  (c!"timezone", F25_Timezone.cls),
  (c!"updates", F7_Updates.cls),
  (c!"upgrade", F20_Upgrade.cls),
  (c!"url", F18_Url.cls),
  (c!"user", F24_User.cls F19_UserData.cls),
  (c!"vnc", F9_Vnc.cls),
  (c!"volgroup", F21_VolGroup.cls F21_VolGroupData.cls),
  (c!"xconfig", F14_XConfig.cls),
  (c!"zerombr", F9_ZeroMbr.cls),
  (c!"zfcp", F14_ZFCP.cls F14_ZFCPData.cls)]

/-- `handlers/f27.py:29-95` -/
def commandMapF27 : List (Str × Command) := [
  (c!"auth", FC3_Authconfig.cls),
  (c!"authconfig", FC3_Authconfig.cls),
  (c!"autopart", F26_AutoPart.cls),
  (c!"autostep", FC3_AutoStep.cls),
  (c!"bootloader", F21_Bootloader.cls),
  (c!"btrfs", F23_BTRFS.cls F23_BTRFSData.cls),
  (c!"cdrom", FC3_Cdrom.cls),
  (c!"clearpart", F21_ClearPart.cls),
  (c!"cmdline", F26_DisplayMode.cls),
  (c!"device", F24_Device.cls),
  (c!"deviceprobe", FC3_DeviceProbe.cls),
  (c!"dmraid", F24_DmRaid.cls),
  (c!"driverdisk", F14_DriverDisk.cls F14_DriverDiskData.cls),
  (c!"eula", F20_Eula.cls),
  (c!"fcoe", F13_Fcoe.cls F13_FcoeData.cls),
  (c!"firewall", F20_Firewall.cls),
  (c!"firstboot", FC3_Firstboot.cls),
  (c!"graphical", F26_DisplayMode.cls),
  (c!"group", F12_Group.cls F12_GroupData.cls),
  (c!"halt", F23_Reboot.cls),
  (c!"harddrive", FC3_HardDrive.cls),
  (c!"ignoredisk", F14_IgnoreDisk.cls),
  (c!"install", F20_Install.cls),
  (c!"iscsi", F17_Iscsi.cls F17_IscsiData.cls),
  (c!"iscsiname", FC6_IscsiName.cls),
  (c!"keyboard", F18_Keyboard.cls),
  (c!"lang", F19_Lang.cls),
  (c!"liveimg", F19_Liveimg.cls),
  (c!"logging", FC6_Logging.cls),
  (c!"logvol", F23_LogVol.cls F23_LogVolData.cls),
  (c!"mediacheck", FC4_MediaCheck.cls),
  (c!"method", F19_Method.cls),
  (c!"mount", F27_Mount.cls F27_MountData.cls),
  (c!"multipath", F24_MultiPath.cls),
  (c!"network", F27_Network.cls F27_NetworkData.cls),
  (c!"nfs", FC6_NFS.cls),
  (c!"ostreesetup", F21_OSTreeSetup.cls),
  (c!"part", F23_Partition.cls F23_PartData.cls),
  (c!"partition", F23_Partition.cls F23_PartData.cls),
  (c!"poweroff", F23_Reboot.cls),
  (c!"raid", F25_Raid.cls F25_RaidData.cls),
  (c!"realm", F19_Realm.cls),
  (c!"reboot", F23_Reboot.cls),
  (c!"repo", F27_Repo.cls F27_RepoData.cls),
  (c!"reqpart", F23_ReqPart.cls),
  (c!"rescue", F10_Rescue.cls),
  (c!"rootpw", F18_RootPw.cls),
  (c!"selinux", FC3_SELinux.cls),
  (c!"services", FC6_Services.cls),
  (c!"shutdown", F23_Reboot.cls),
  (c!"skipx", FC3_SkipX.cls),
  (c!"snapshot", F26_Snapshot.cls F26_SnapshotData.cls),
  (c!"sshpw", F24_SshPw.cls F24_SshPwData.cls),
  (c!"sshkey", F22_SshKey.cls F22_SshKeyData.cls),
  (c!"text", F26_DisplayMode.cls),
  (c!"timezone", F25_Timezone.cls),
  (c!"updates", F7_Updates.cls),
  (c!"upgrade", F20_Upgrade.cls),
  (c!"url", F27_Url.cls),
  (c!"user", F24_User.cls F19_UserData.cls),
  (c!"vnc", F9_Vnc.cls),
  (c!"volgroup", F21_VolGroup.cls F21_VolGroupData.cls),
  (c!"xconfig", F14_XConfig.cls),
  (c!"zerombr", F9_ZeroMbr.cls),
  (c!"zfcp", F14_ZFCP.cls F14_ZFCPData.cls)]

/-- `handlers/f28.py:29-98` -/
def commandMapF28 : List (Str × Command) := [
  (c!"auth", F28_Authconfig.cls),
  (c!"authconfig", F28_Authconfig.cls),
  (c!"authselect", F28_Authselect.cls),
  (c!"autopart", F26_AutoPart.cls),
  (c!"autostep", FC3_AutoStep.cls),
  (c!"bootloader", F21_Bootloader.cls),
  (c!"btrfs", F23_BTRFS.cls F23_BTRFSData.cls),
  (c!"cdrom", FC3_Cdrom.cls),
  (c!"clearpart", F28_ClearPart.cls),
  (c!"cmdline", F26_DisplayMode.cls),
  (c!"device", F24_Device.cls),
  (c!"deviceprobe", FC3_DeviceProbe.cls),
  (c!"dmraid", F24_DmRaid.cls),
  (c!"driverdisk", F14_DriverDisk.cls F14_DriverDiskData.cls),
  (c!"eula", F20_Eula.cls),
  (c!"fcoe", F28_Fcoe.cls F28_FcoeData.cls),
  (c!"firewall", F28_Firewall.cls),
  (c!"firstboot", FC3_Firstboot.cls),
  (c!"graphical", F26_DisplayMode.cls),
  (c!"group", F12_Group.cls F12_GroupData.cls),
  (c!"halt", F23_Reboot.cls),
  (c!"harddrive", FC3_HardDrive.cls),
  (c!"hmc", F28_Hmc.cls),
  (c!"ignoredisk", F14_IgnoreDisk.cls),
  (c!"install", F20_Install.cls),
  (c!"iscsi", F17_Iscsi.cls F17_IscsiData.cls),
  (c!"iscsiname", FC6_IscsiName.cls),
  (c!"keyboard", F18_Keyboard.cls),
  (c!"lang", F19_Lang.cls),
  (c!"liveimg", F19_Liveimg.cls),
  (c!"logging", FC6_Logging.cls),
  (c!"logvol", F23_LogVol.cls F23_LogVolData.cls),
  (c!"mediacheck", FC4_MediaCheck.cls),
  (c!"method", F28_Method.cls),
  (c!"mount", F27_Mount.cls F27_MountData.cls),
  (c!"multipath", F24_MultiPath.cls),
  (c!"network", F27_Network.cls F27_NetworkData.cls),
  (c!"nfs", FC6_NFS.cls),
  (c!"nvdimm", F28_Nvdimm.cls F28_NvdimmData.cls),
  (c!"ostreesetup", F21_OSTreeSetup.cls),
  (c!"part", F23_Partition.cls F23_PartData.cls),
  (c!"partition", F23_Partition.cls F23_PartData.cls),
  (c!"poweroff", F23_Reboot.cls),
  (c!"raid", F25_Raid.cls F25_RaidData.cls),
  (c!"realm", F19_Realm.cls),
  (c!"reboot", F23_Reboot.cls),
  (c!"repo", F27_Repo.cls F27_RepoData.cls),
  (c!"reqpart", F23_ReqPart.cls),
  (c!"rescue", F10_Rescue.cls),
  (c!"rootpw", F18_RootPw.cls),
  (c!"selinux", FC3_SELinux.cls),
  (c!"services", FC6_Services.cls),
  (c!"shutdown", F23_Reboot.cls),
  (c!"skipx", FC3_SkipX.cls),
  (c!"snapshot", F26_Snapshot.cls F26_SnapshotData.cls),
  (c!"sshpw", F24_SshPw.cls F24_SshPwData.cls),
  (c!"sshkey", F22_SshKey.cls F22_SshKeyData.cls),
  (c!"text", F26_DisplayMode.cls),
  (c!"timezone", F25_Timezone.cls),
  (c!"updates", F7_Updates.cls),
  (c!"upgrade", F20_Upgrade.cls),
  (c!"url", F27_Url.cls),
  (c!"user", F24_User.cls F19_UserData.cls),
  (c!"vnc", F9_Vnc.cls),
  (c!"volgroup", F21_VolGroup.cls F21_VolGroupData.cls),
  (c!"xconfig", F14_XConfig.cls),
  (c!"zerombr", F9_ZeroMbr.cls),
  (c!"zfcp", F14_ZFCP.cls F14_ZFCPData.cls)]

/-- `handlers/f29.py:29-99` -/
def commandMapF29 : List (Str × Command) := [
  (c!"auth", F28_Authconfig.cls),
  (c!"authconfig", F28_Authconfig.cls),
  (c!"authselect", F28_Authselect.cls),
  (c!"autopart", F29_AutoPart.cls),
  (c!"autostep", FC3_AutoStep.cls),
  (c!"bootloader", F29_Bootloader.cls),
  (c!"btrfs", F23_BTRFS.cls F23_BTRFSData.cls),
  (c!"cdrom", FC3_Cdrom.cls),
  (c!"clearpart", F28_ClearPart.cls),
  (c!"cmdline", F26_DisplayMode.cls),
  (c!"device", F24_Device.cls),
  (c!"deviceprobe", F29_DeviceProbe.cls),
  (c!"dmraid", F24_DmRaid.cls),
  (c!"driverdisk", F14_DriverDisk.cls F14_DriverDiskData.cls),
  (c!"module", F29_Module.cls F29_ModuleData.cls),
  (c!"eula", F20_Eula.cls),
  (c!"fcoe", F28_Fcoe.cls F28_FcoeData.cls),
  (c!"firewall", F28_Firewall.cls),
  (c!"firstboot", FC3_Firstboot.cls),
  (c!"graphical", F26_DisplayMode.cls),
  (c!"group", F12_Group.cls F12_GroupData.cls),
  (c!"halt", F23_Reboot.cls),
  (c!"harddrive", FC3_HardDrive.cls),
  (c!"hmc", F28_Hmc.cls),
  (c!"ignoredisk", F29_IgnoreDisk.cls),
  (c!"install", F29_Install.cls),
  (c!"iscsi", F17_Iscsi.cls F17_IscsiData.cls),
  (c!"iscsiname", FC6_IscsiName.cls),
  (c!"keyboard", F18_Keyboard.cls),
  (c!"lang", F19_Lang.cls),
  (c!"liveimg", F19_Liveimg.cls),
  (c!"logging", FC6_Logging.cls),
  (c!"logvol", F29_LogVol.cls F29_LogVolData.cls),
  (c!"mediacheck", FC4_MediaCheck.cls),
  (c!"method", F28_Method.cls),
  (c!"mount", F27_Mount.cls F27_MountData.cls),
  (c!"multipath", F24_MultiPath.cls),
  (c!"network", F27_Network.cls F27_NetworkData.cls),
  (c!"nfs", FC6_NFS.cls),
  (c!"nvdimm", F28_Nvdimm.cls F28_NvdimmData.cls),
  (c!"ostreesetup", F21_OSTreeSetup.cls),
  (c!"part", F29_Partition.cls F29_PartData.cls),
  (c!"partition", F29_Partition.cls F29_PartData.cls),
  (c!"poweroff", F23_Reboot.cls),
  (c!"raid", F29_Raid.cls F29_RaidData.cls),
  (c!"realm", F19_Realm.cls),
  (c!"reboot", F23_Reboot.cls),
  (c!"repo", F27_Repo.cls F27_RepoData.cls),
  (c!"reqpart", F23_ReqPart.cls),
  (c!"rescue", F10_Rescue.cls),
  (c!"rootpw", F18_RootPw.cls),
  (c!"selinux", FC3_SELinux.cls),
  (c!"services", FC6_Services.cls),
  (c!"shutdown", F23_Reboot.cls),
  (c!"skipx", FC3_SkipX.cls),
  (c!"snapshot", F26_Snapshot.cls F26_SnapshotData.cls),
  (c!"sshpw", F24_SshPw.cls F24_SshPwData.cls),
  (c!"sshkey", F22_SshKey.cls F22_SshKeyData.cls),
  (c!"text", F26_DisplayMode.cls),
  (c!"timezone", F25_Timezone.cls),
  (c!"updates", F7_Updates.cls),
  (c!"upgrade", F29_Upgrade.cls),
  (c!"url", F27_Url.cls),
  (c!"user", F24_User.cls F19_UserData.cls),
  (c!"vnc", F9_Vnc.cls),
  (c!"volgroup", F21_VolGroup.cls F21_VolGroupData.cls),
  (c!"xconfig", F14_XConfig.cls),
  (c!"zerombr", F9_ZeroMbr.cls),
  (c!"zfcp", F14_ZFCP.cls F14_ZFCPData.cls)]

/-- `handlers/f30.py:29-98` -/
def commandMapF30 : List (Str × Command) := [
  (c!"auth", F28_Authconfig.cls),
  (c!"authconfig", F28_Authconfig.cls),
  (c!"authselect", F28_Authselect.cls),
  (c!"autopart", F29_AutoPart.cls),
  (c!"autostep", FC3_AutoStep.cls),
  (c!"bootloader", F29_Bootloader.cls),
  (c!"btrfs", F23_BTRFS.cls F23_BTRFSData.cls),
  (c!"cdrom", FC3_Cdrom.cls),
  (c!"clearpart", F28_ClearPart.cls),
  (c!"cmdline", F26_DisplayMode.cls),
  (c!"device", F24_Device.cls),
  (c!"deviceprobe", F29_DeviceProbe.cls),
  (c!"dmraid", F24_DmRaid.cls),
  (c!"driverdisk", F14_DriverDisk.cls F14_DriverDiskData.cls),
  (c!"module", F29_Module.cls F29_ModuleData.cls),
  (c!"eula", F20_Eula.cls),
  (c!"fcoe", F28_Fcoe.cls F28_FcoeData.cls),
  (c!"firewall", F28_Firewall.cls),
  (c!"firstboot", FC3_Firstboot.cls),
  (c!"graphical", F26_DisplayMode.cls),
  (c!"group", F12_Group.cls F12_GroupData.cls),
  (c!"halt", F23_Reboot.cls),
  (c!"harddrive", FC3_HardDrive.cls),
  (c!"hmc", F28_Hmc.cls),
  (c!"ignoredisk", F29_IgnoreDisk.cls),
  (c!"install", F29_Install.cls),
  (c!"iscsi", F17_Iscsi.cls F17_IscsiData.cls),
  (c!"iscsiname", FC6_IscsiName.cls),
  (c!"keyboard", F18_Keyboard.cls),
  (c!"lang", F19_Lang.cls),
  (c!"liveimg", F19_Liveimg.cls),
  (c!"logging", FC6_Logging.cls),
  (c!"logvol", F29_LogVol.cls F29_LogVolData.cls),
  (c!"mediacheck", FC4_MediaCheck.cls),
  (c!"method", F28_Method.cls),
  (c!"mount", F27_Mount.cls F27_MountData.cls),
  (c!"multipath", F24_MultiPath.cls),
  (c!"network", F27_Network.cls F27_NetworkData.cls),
  (c!"nfs", FC6_NFS.cls),
  (c!"nvdimm", F28_Nvdimm.cls F28_NvdimmData.cls),
  (c!"ostreesetup", F21_OSTreeSetup.cls),
  (c!"part", F29_Partition.cls F29_PartData.cls),
  (c!"partition", F29_Partition.cls F29_PartData.cls),
  (c!"poweroff", F23_Reboot.cls),
  (c!"raid", F29_Raid.cls F29_RaidData.cls),
  (c!"realm", F19_Realm.cls),
  (c!"reboot", F23_Reboot.cls),
  (c!"repo", F30_Repo.cls F30_RepoData.cls),
  (c!"reqpart", F23_ReqPart.cls),
  (c!"rescue", F10_Rescue.cls),
  (c!"rootpw", F18_RootPw.cls),
  (c!"selinux", FC3_SELinux.cls),
  (c!"services", FC6_Services.cls),
  (c!"shutdown", F23_Reboot.cls),
  (c!"skipx", FC3_SkipX.cls),
  (c!"snapshot", F26_Snapshot.cls F26_SnapshotData.cls),
  (c!"sshpw", F24_SshPw.cls F24_SshPwData.cls),
  (c!"sshkey", F22_SshKey.cls F22_SshKeyData.cls),
  (c!"text", F26_DisplayMode.cls),
  (c!"timezone", F25_Timezone.cls),
  (c!"updates", F7_Updates.cls),
  (c!"url", F30_Url.cls),
  (c!"user", F24_User.cls F19_UserData.cls),
  (c!"vnc", F9_Vnc.cls),
  (c!"volgroup", F21_VolGroup.cls F21_VolGroupData.cls),
  (c!"xconfig", F14_XConfig.cls),
  (c!"zerombr", F9_ZeroMbr.cls),
  (c!"zfcp", F14_ZFCP.cls F14_ZFCPData.cls)]

/-- `handlers/f31.py:29-98` -/
def commandMapF31 : List (Str × Command) := [
  (c!"auth", F28_Authconfig.cls),
  (c!"authconfig", F28_Authconfig.cls),
  (c!"authselect", F28_Authselect.cls),
  (c!"autopart", F29_AutoPart.cls),
  (c!"autostep", FC3_AutoStep.cls),
  (c!"bootloader", F29_Bootloader.cls),
  (c!"btrfs", F23_BTRFS.cls F23_BTRFSData.cls),
  (c!"cdrom", FC3_Cdrom.cls),
  (c!"clearpart", F28_ClearPart.cls),
  (c!"cmdline", F26_DisplayMode.cls),
  (c!"device", F24_Device.cls),
  (c!"deviceprobe", F29_DeviceProbe.cls),
  (c!"dmraid", F24_DmRaid.cls),
  (c!"driverdisk", F14_DriverDisk.cls F14_DriverDiskData.cls),
  (c!"module", F31_Module.cls F31_ModuleData.cls),
  (c!"eula", F20_Eula.cls),
  (c!"fcoe", F28_Fcoe.cls F28_FcoeData.cls),
  (c!"firewall", F28_Firewall.cls),
  (c!"firstboot", FC3_Firstboot.cls),
  (c!"graphical", F26_DisplayMode.cls),
  (c!"group", F12_Group.cls F12_GroupData.cls),
  (c!"halt", F23_Reboot.cls),
  (c!"harddrive", FC3_HardDrive.cls),
  (c!"hmc", F28_Hmc.cls),
  (c!"ignoredisk", F29_IgnoreDisk.cls),
  (c!"install", F29_Install.cls),
  (c!"iscsi", F17_Iscsi.cls F17_IscsiData.cls),
  (c!"iscsiname", FC6_IscsiName.cls),
  (c!"keyboard", F18_Keyboard.cls),
  (c!"lang", F19_Lang.cls),
  (c!"liveimg", F19_Liveimg.cls),
  (c!"logging", FC6_Logging.cls),
  (c!"logvol", F29_LogVol.cls F29_LogVolData.cls),
  (c!"mediacheck", FC4_MediaCheck.cls),
  (c!"method", F28_Method.cls),
  (c!"mount", F27_Mount.cls F27_MountData.cls),
  (c!"multipath", F24_MultiPath.cls),
  (c!"network", F27_Network.cls F27_NetworkData.cls),
  (c!"nfs", FC6_NFS.cls),
  (c!"nvdimm", F28_Nvdimm.cls F28_NvdimmData.cls),
  (c!"ostreesetup", F21_OSTreeSetup.cls),
  (c!"part", F29_Partition.cls F29_PartData.cls),
  (c!"partition", F29_Partition.cls F29_PartData.cls),
  (c!"poweroff", F23_Reboot.cls),
  (c!"raid", F29_Raid.cls F29_RaidData.cls),
  (c!"realm", F19_Realm.cls),
  (c!"reboot", F23_Reboot.cls),
  (c!"repo", F30_Repo.cls F30_RepoData.cls),
  (c!"reqpart", F23_ReqPart.cls),
  (c!"rescue", F10_Rescue.cls),
  (c!"rootpw", F18_RootPw.cls),
  (c!"selinux", FC3_SELinux.cls),
  (c!"services", FC6_Services.cls),
  (c!"shutdown", F23_Reboot.cls),
  (c!"skipx", FC3_SkipX.cls),
  (c!"snapshot", F26_Snapshot.cls F26_SnapshotData.cls),
  (c!"sshpw", F24_SshPw.cls F24_SshPwData.cls),
  (c!"sshkey", F22_SshKey.cls F22_SshKeyData.cls),
  (c!"text", F26_DisplayMode.cls),
  (c!"timezone", F25_Timezone.cls),
  (c!"updates", F7_Updates.cls),
  (c!"url", F30_Url.cls),
  (c!"user", F24_User.cls F19_UserData.cls),
  (c!"vnc", F9_Vnc.cls),
  (c!"volgroup", F21_VolGroup.cls F21_VolGroupData.cls),
  (c!"xconfig", F14_XConfig.cls),
  (c!"zerombr", F9_ZeroMbr.cls),
  (c!"zfcp", F14_ZFCP.cls F14_ZFCPData.cls)]

/-- `handlers/f32.py:27-97` -/
def commandMapF32 : List (Str × Command) := [
  (c!"auth", F28_Authconfig.cls),
  (c!"authconfig", F28_Authconfig.cls),
  (c!"authselect", F28_Authselect.cls),
  (c!"autopart", F29_AutoPart.cls),
  (c!"autostep", FC3_AutoStep.cls),
  (c!"bootloader", F29_Bootloader.cls),
  (c!"btrfs", F23_BTRFS.cls F23_BTRFSData.cls),
  (c!"cdrom", FC3_Cdrom.cls),
  (c!"clearpart", F28_ClearPart.cls),
  (c!"cmdline", F26_DisplayMode.cls),
  (c!"device", F24_Device.cls),
  (c!"deviceprobe", F29_DeviceProbe.cls),
  (c!"dmraid", F24_DmRaid.cls),
  (c!"driverdisk", F14_DriverDisk.cls F14_DriverDiskData.cls),
  (c!"module", F31_Module.cls F31_ModuleData.cls),
  (c!"eula", F20_Eula.cls),
  (c!"fcoe", F28_Fcoe.cls F28_FcoeData.cls),
  (c!"firewall", F28_Firewall.cls),
  (c!"firstboot", FC3_Firstboot.cls),
  (c!"graphical", F26_DisplayMode.cls),
  (c!"group", F12_Group.cls F12_GroupData.cls),
  (c!"halt", F23_Reboot.cls),
  (c!"harddrive", FC3_HardDrive.cls),
  (c!"hmc", F28_Hmc.cls),
  (c!"ignoredisk", F29_IgnoreDisk.cls),
  (c!"install", F29_Install.cls),
  (c!"iscsi", F17_Iscsi.cls F17_IscsiData.cls),
  (c!"iscsiname", FC6_IscsiName.cls),
  (c!"keyboard", F18_Keyboard.cls),
  (c!"lang", F19_Lang.cls),
  (c!"liveimg", F19_Liveimg.cls),
  (c!"logging", FC6_Logging.cls),
  (c!"logvol", F29_LogVol.cls F29_LogVolData.cls),
  (c!"mediacheck", FC4_MediaCheck.cls),
  (c!"method", F28_Method.cls),
  (c!"mount", F27_Mount.cls F27_MountData.cls),
  (c!"multipath", F24_MultiPath.cls),
  (c!"network", F27_Network.cls F27_NetworkData.cls),
  (c!"nfs", FC6_NFS.cls),
  (c!"nvdimm", F28_Nvdimm.cls F28_NvdimmData.cls),
  (c!"ostreesetup", F21_OSTreeSetup.cls),
  (c!"part", F29_Partition.cls F29_PartData.cls),
  (c!"partition", F29_Partition.cls F29_PartData.cls),
  (c!"poweroff", F23_Reboot.cls),
  (c!"raid", F29_Raid.cls F29_RaidData.cls),
  (c!"realm", F19_Realm.cls),
  (c!"reboot", F23_Reboot.cls),
  (c!"repo", F30_Repo.cls F30_RepoData.cls),
  (c!"reqpart", F23_ReqPart.cls),
  (c!"rescue", F10_Rescue.cls),
  (c!"rootpw", F18_RootPw.cls),
  (c!"selinux", FC3_SELinux.cls),
  (c!"services", FC6_Services.cls),
  (c!"shutdown", F23_Reboot.cls),
  (c!"skipx", FC3_SkipX.cls),
  (c!"snapshot", F26_Snapshot.cls F26_SnapshotData.cls),
  (c!"sshpw", F24_SshPw.cls F24_SshPwData.cls),
  (c!"sshkey", F22_SshKey.cls F22_SshKeyData.cls),
  (c!"text", F26_DisplayMode.cls),
  (c!"timezone", F32_Timezone.cls),
  (c!"updates", F7_Updates.cls),
  (c!"url", F30_Url.cls),
  (c!"user", F24_User.cls F19_UserData.cls),
  (c!"vnc", F9_Vnc.cls),
  (c!"volgroup", F21_VolGroup.cls F21_VolGroupData.cls),
  (c!"xconfig", F14_XConfig.cls),
  (c!"zerombr", F9_ZeroMbr.cls),
  (c!"zfcp", F14_ZFCP.cls F14_ZFCPData.cls),
  (c!"zipl", F32_Zipl.cls)]

/-- `handlers/f33.py:27-98` -/
def commandMapF33 : List (Str × Command) := [
  (c!"auth", F28_Authconfig.cls),
  (c!"authconfig", F28_Authconfig.cls),
  (c!"authselect", F28_Authselect.cls),
  (c!"autopart", F29_AutoPart.cls),
  (c!"autostep", FC3_AutoStep.cls),
  (c!"bootloader", F29_Bootloader.cls),
  (c!"btrfs", F23_BTRFS.cls F23_BTRFSData.cls),
  (c!"cdrom", FC3_Cdrom.cls),
  (c!"clearpart", F28_ClearPart.cls),
  (c!"cmdline", F26_DisplayMode.cls),
  (c!"device", F24_Device.cls),
  (c!"deviceprobe", F29_DeviceProbe.cls),
  (c!"dmraid", F24_DmRaid.cls),
  (c!"driverdisk", F14_DriverDisk.cls F14_DriverDiskData.cls),
  (c!"module", F31_Module.cls F31_ModuleData.cls),
  (c!"eula", F20_Eula.cls),
  (c!"fcoe", F28_Fcoe.cls F28_FcoeData.cls),
  (c!"firewall", F28_Firewall.cls),
  (c!"firstboot", FC3_Firstboot.cls),
  (c!"graphical", F26_DisplayMode.cls),
  (c!"group", F12_Group.cls F12_GroupData.cls),
  (c!"halt", F23_Reboot.cls),
  (c!"harddrive", F33_HardDrive.cls),
  (c!"hmc", F28_Hmc.cls),
  (c!"ignoredisk", F29_IgnoreDisk.cls),
  (c!"install", F29_Install.cls),
  (c!"iscsi", F17_Iscsi.cls F17_IscsiData.cls),
  (c!"iscsiname", FC6_IscsiName.cls),
  (c!"keyboard", F18_Keyboard.cls),
  (c!"lang", F19_Lang.cls),
  (c!"liveimg", F19_Liveimg.cls),
  (c!"logging", FC6_Logging.cls),
  (c!"logvol", F29_LogVol.cls F29_LogVolData.cls),
  (c!"mediacheck", FC4_MediaCheck.cls),
  (c!"method", F28_Method.cls),
  (c!"mount", F27_Mount.cls F27_MountData.cls),
  (c!"multipath", F24_MultiPath.cls),
  (c!"network", F27_Network.cls F27_NetworkData.cls),
  (c!"nfs", FC6_NFS.cls),
  (c!"nvdimm", F28_Nvdimm.cls F28_NvdimmData.cls),
  (c!"timesource", F33_Timesource.cls F33_TimesourceData.cls),
  (c!"ostreesetup", F21_OSTreeSetup.cls),
  (c!"part", F29_Partition.cls F29_PartData.cls),
  (c!"partition", F29_Partition.cls F29_PartData.cls),
  (c!"poweroff", F23_Reboot.cls),
  (c!"raid", F29_Raid.cls F29_RaidData.cls),
  (c!"realm", F19_Realm.cls),
  (c!"reboot", F23_Reboot.cls),
  (c!"repo", F33_Repo.cls F30_RepoData.cls),
  (c!"reqpart", F23_ReqPart.cls),
  (c!"rescue", F10_Rescue.cls),
  (c!"rootpw", F18_RootPw.cls),
  (c!"selinux", FC3_SELinux.cls),
  (c!"services", FC6_Services.cls),
  (c!"shutdown", F23_Reboot.cls),
  (c!"skipx", FC3_SkipX.cls),
  (c!"snapshot", F26_Snapshot.cls F26_SnapshotData.cls),
  (c!"sshpw", F24_SshPw.cls F24_SshPwData.cls),
  (c!"sshkey", F22_SshKey.cls F22_SshKeyData.cls),
  (c!"text", F26_DisplayMode.cls),
  (c!"timezone", F33_Timezone.cls),
  (c!"updates", F7_Updates.cls),
  (c!"url", F30_Url.cls),
  (c!"user", F24_User.cls F19_UserData.cls),
  (c!"vnc", F9_Vnc.cls),
  (c!"volgroup", F21_VolGroup.cls F21_VolGroupData.cls),
  (c!"xconfig", F14_XConfig.cls),
  (c!"zerombr", F9_ZeroMbr.cls),
  (c!"zfcp", F14_ZFCP.cls F14_ZFCPData.cls),
  (c!"zipl", F32_Zipl.cls)]

/-- `handlers/f34.py:27-98` -/
def commandMapF34 : List (Str × Command) := [
  (c!"auth", F28_Authconfig.cls),
  (c!"authconfig", F28_Authconfig.cls),
  (c!"authselect", F28_Authselect.cls),
  (c!"autopart", F29_AutoPart.cls),
  (c!"autostep", F34_AutoStep.cls),
  (c!"bootloader", F34_Bootloader.cls),
  (c!"btrfs", F23_BTRFS.cls F23_BTRFSData.cls),
  (c!"cdrom", FC3_Cdrom.cls),
  (c!"clearpart", F28_ClearPart.cls),
  (c!"cmdline", F26_DisplayMode.cls),
  (c!"device", F34_Device.cls),
  (c!"deviceprobe", F34_DeviceProbe.cls),
  (c!"dmraid", F34_DmRaid.cls),
  (c!"driverdisk", F14_DriverDisk.cls F14_DriverDiskData.cls),
  (c!"module", F31_Module.cls F31_ModuleData.cls),
  (c!"eula", F20_Eula.cls),
  (c!"fcoe", F28_Fcoe.cls F28_FcoeData.cls),
  (c!"firewall", F28_Firewall.cls),
  (c!"firstboot", FC3_Firstboot.cls),
  (c!"graphical", F26_DisplayMode.cls),
  (c!"group", F12_Group.cls F12_GroupData.cls),
  (c!"halt", F23_Reboot.cls),
  (c!"harddrive", F33_HardDrive.cls),
  (c!"hmc", F28_Hmc.cls),
  (c!"ignoredisk", F34_IgnoreDisk.cls),
  (c!"install", F34_Install.cls),
  (c!"iscsi", F17_Iscsi.cls F17_IscsiData.cls),
  (c!"iscsiname", FC6_IscsiName.cls),
  (c!"keyboard", F18_Keyboard.cls),
  (c!"lang", F19_Lang.cls),
  (c!"liveimg", F19_Liveimg.cls),
  (c!"logging", F34_Logging.cls),
  (c!"logvol", F29_LogVol.cls F29_LogVolData.cls),
  (c!"mediacheck", FC4_MediaCheck.cls),
  (c!"method", F34_Method.cls),
  (c!"mount", F27_Mount.cls F27_MountData.cls),
  (c!"multipath", F34_MultiPath.cls),
  (c!"network", F27_Network.cls F27_NetworkData.cls),
  (c!"nfs", FC6_NFS.cls),
  (c!"nvdimm", F28_Nvdimm.cls F28_NvdimmData.cls),
  (c!"timesource", F33_Timesource.cls F33_TimesourceData.cls),
  (c!"ostreesetup", F21_OSTreeSetup.cls),
  (c!"part", F34_Partition.cls F29_PartData.cls),
  (c!"partition", F34_Partition.cls F29_PartData.cls),
  (c!"poweroff", F23_Reboot.cls),
  (c!"raid", F29_Raid.cls F29_RaidData.cls),
  (c!"realm", F19_Realm.cls),
  (c!"reboot", F23_Reboot.cls),
  (c!"repo", F33_Repo.cls F30_RepoData.cls),
  (c!"reqpart", F23_ReqPart.cls),
  (c!"rescue", F10_Rescue.cls),
  (c!"rootpw", F18_RootPw.cls),
  (c!"selinux", FC3_SELinux.cls),
  (c!"services", FC6_Services.cls),
  (c!"shutdown", F23_Reboot.cls),
  (c!"skipx", FC3_SkipX.cls),
  (c!"snapshot", F26_Snapshot.cls F26_SnapshotData.cls),
  (c!"sshpw", F24_SshPw.cls F24_SshPwData.cls),
  (c!"sshkey", F22_SshKey.cls F22_SshKeyData.cls),
  (c!"text", F26_DisplayMode.cls),
  (c!"timezone", F33_Timezone.cls),
  (c!"updates", F34_Updates.cls),
  (c!"url", F30_Url.cls),
  (c!"user", F24_User.cls F19_UserData.cls),
  (c!"vnc", F9_Vnc.cls),
  (c!"volgroup", F21_VolGroup.cls F21_VolGroupData.cls),
  (c!"xconfig", F14_XConfig.cls),
  (c!"zerombr", F9_ZeroMbr.cls),
  (c!"zfcp", F14_ZFCP.cls F14_ZFCPData.cls),
  (c!"zipl", F32_Zipl.cls)]

/-- `handlers/f7.py:29-86` -/
def commandMapF7 : List (Str × Command) := [
  (c!"auth", FC3_Authconfig.cls),
  (c!"authconfig", FC3_Authconfig.cls),
  (c!"autopart", FC3_AutoPart.cls),
  (c!"autostep", FC3_AutoStep.cls),
  (c!"bootloader", FC4_Bootloader.cls),
  (c!"cdrom", FC3_Cdrom.cls),
  (c!"clearpart", FC3_ClearPart.cls),
  (c!"cmdline", FC3_DisplayMode.cls),
  (c!"device", FC3_Device.cls),
  (c!"deviceprobe", FC3_DeviceProbe.cls),
  (c!"dmraid", FC6_DmRaid.cls FC6_DmRaidData.cls),
  (c!"driverdisk", FC4_DriverDisk.cls FC4_DriverDiskData.cls),
  (c!"firewall", FC3_Firewall.cls),
  (c!"firstboot", FC3_Firstboot.cls),
  (c!"graphical", FC3_DisplayMode.cls),
  (c!"halt", FC6_Reboot.cls),
  (c!"harddrive", FC3_HardDrive.cls),
  (c!"ignoredisk", FC3_IgnoreDisk.cls),
  (c!"install", FC3_Upgrade.cls),
  (c!"interactive", FC3_Interactive.cls),
  (c!"iscsi", FC6_Iscsi.cls FC6_IscsiData.cls),
  (c!"iscsiname", FC6_IscsiName.cls),
  (c!"keyboard", FC3_Keyboard.cls),
  (c!"lang", FC3_Lang.cls),
  (c!"langsupport", F7_LangSupport.cls),
  (c!"logging", FC6_Logging.cls),
  (c!"logvol", FC4_LogVol.cls FC4_LogVolData.cls),
  (c!"mediacheck", FC4_MediaCheck.cls),
  (c!"method", FC6_Method.cls),
  (c!"monitor", FC6_Monitor.cls),
  (c!"mouse", F7_Mouse.cls),
  (c!"multipath", FC6_MultiPath.cls FC6_MultiPathData.cls),
  (c!"network", FC6_Network.cls FC6_NetworkData.cls),
  (c!"nfs", FC6_NFS.cls),
  (c!"part", FC4_Partition.cls FC4_PartData.cls),
  (c!"partition", FC4_Partition.cls FC4_PartData.cls),
  (c!"poweroff", FC6_Reboot.cls),
  (c!"raid", F7_Raid.cls F7_RaidData.cls),
  (c!"reboot", FC6_Reboot.cls),
  (c!"repo", FC6_Repo.cls FC6_RepoData.cls),
  (c!"rootpw", FC3_RootPw.cls),
  (c!"selinux", FC3_SELinux.cls),
  (c!"services", FC6_Services.cls),
  (c!"shutdown", FC6_Reboot.cls),
  (c!"skipx", FC3_SkipX.cls),
  (c!"text", FC3_DisplayMode.cls),
  (c!"timezone", FC6_Timezone.cls),
  (c!"updates", F7_Updates.cls),
  (c!"upgrade", FC3_Upgrade.cls),
  (c!"url", FC3_Url.cls),
  (c!"user", FC6_User.cls FC6_UserData.cls),
  (c!"vnc", FC6_Vnc.cls),
  (c!"volgroup", FC3_VolGroup.cls FC3_VolGroupData.cls),
  (c!"xconfig", FC6_XConfig.cls),
  (c!"zerombr", FC3_ZeroMbr.cls),
  (c!"zfcp", FC3_ZFCP.cls FC3_ZFCPData.cls)]

/-- `handlers/f8.py:29-84` -/
def commandMapF8 : List (Str × Command) := [
  (c!"auth", FC3_Authconfig.cls),
  (c!"authconfig", FC3_Authconfig.cls),
  (c!"autopart", FC3_AutoPart.cls),
  (c!"autostep", FC3_AutoStep.cls),
  (c!"bootloader", F8_Bootloader.cls),
  (c!"cdrom", FC3_Cdrom.cls),
  (c!"clearpart", FC3_ClearPart.cls),
  (c!"cmdline", FC3_DisplayMode.cls),
  (c!"device", F8_Device.cls F8_DeviceData.cls),
  (c!"deviceprobe", FC3_DeviceProbe.cls),
  (c!"dmraid", FC6_DmRaid.cls FC6_DmRaidData.cls),
  (c!"driverdisk", FC4_DriverDisk.cls FC4_DriverDiskData.cls),
  (c!"firewall", FC3_Firewall.cls),
  (c!"firstboot", FC3_Firstboot.cls),
  (c!"graphical", FC3_DisplayMode.cls),
  (c!"halt", FC6_Reboot.cls),
  (c!"harddrive", FC3_HardDrive.cls),
  (c!"ignoredisk", F8_IgnoreDisk.cls),
  (c!"install", FC3_Upgrade.cls),
  (c!"interactive", FC3_Interactive.cls),
  (c!"iscsi", FC6_Iscsi.cls FC6_IscsiData.cls),
  (c!"iscsiname", FC6_IscsiName.cls),
  (c!"keyboard", FC3_Keyboard.cls),
  (c!"lang", FC3_Lang.cls),
  (c!"logging", FC6_Logging.cls),
  (c!"logvol", FC4_LogVol.cls FC4_LogVolData.cls),
  (c!"mediacheck", FC4_MediaCheck.cls),
  (c!"method", FC6_Method.cls),
  (c!"monitor", FC6_Monitor.cls),
  (c!"multipath", FC6_MultiPath.cls FC6_MultiPathData.cls),
  (c!"network", F8_Network.cls F8_NetworkData.cls),
  (c!"nfs", FC6_NFS.cls),
  (c!"part", FC4_Partition.cls FC4_PartData.cls),
  (c!"partition", FC4_Partition.cls FC4_PartData.cls),
  (c!"poweroff", FC6_Reboot.cls),
  (c!"raid", F7_Raid.cls F7_RaidData.cls),
  (c!"reboot", FC6_Reboot.cls),
  (c!"repo", F8_Repo.cls F8_RepoData.cls),
  (c!"rootpw", F8_RootPw.cls),
  (c!"selinux", FC3_SELinux.cls),
  (c!"services", FC6_Services.cls),
  (c!"shutdown", FC6_Reboot.cls),
  (c!"skipx", FC3_SkipX.cls),
  (c!"text", FC3_DisplayMode.cls),
  (c!"timezone", FC6_Timezone.cls),
  (c!"updates", F7_Updates.cls),
  (c!"upgrade", FC3_Upgrade.cls),
  (c!"url", FC3_Url.cls),
  (c!"user", F8_User.cls F8_UserData.cls),
  (c!"vnc", FC6_Vnc.cls),
  (c!"volgroup", FC3_VolGroup.cls FC3_VolGroupData.cls),
  (c!"xconfig", FC6_XConfig.cls),
  (c!"zerombr", FC3_ZeroMbr.cls),
  (c!"zfcp", FC3_ZFCP.cls FC3_ZFCPData.cls)]

/-- `handlers/f9.py:29-84` -/
def commandMapF9 : List (Str × Command) := [
  (c!"auth", FC3_Authconfig.cls),
  (c!"authconfig", FC3_Authconfig.cls),
  (c!"autopart", F9_AutoPart.cls),
  (c!"autostep", FC3_AutoStep.cls),
  (c!"bootloader", F8_Bootloader.cls),
  (c!"cdrom", FC3_Cdrom.cls),
  (c!"clearpart", FC3_ClearPart.cls),
  (c!"cmdline", FC3_DisplayMode.cls),
  (c!"device", F8_Device.cls F8_DeviceData.cls),
  (c!"deviceprobe", FC3_DeviceProbe.cls),
  (c!"dmraid", FC6_DmRaid.cls FC6_DmRaidData.cls),
  (c!"driverdisk", FC4_DriverDisk.cls FC4_DriverDiskData.cls),
  (c!"firewall", F9_Firewall.cls),
  (c!"firstboot", FC3_Firstboot.cls),
  (c!"graphical", FC3_DisplayMode.cls),
  (c!"halt", FC6_Reboot.cls),
  (c!"harddrive", FC3_HardDrive.cls),
  (c!"ignoredisk", F8_IgnoreDisk.cls),
  (c!"install", FC3_Upgrade.cls),
  (c!"interactive", FC3_Interactive.cls),
  (c!"iscsi", FC6_Iscsi.cls FC6_IscsiData.cls),
  (c!"iscsiname", FC6_IscsiName.cls),
  (c!"keyboard", FC3_Keyboard.cls),
  (c!"lang", FC3_Lang.cls),
  (c!"logging", FC6_Logging.cls),
  (c!"logvol", F9_LogVol.cls F9_LogVolData.cls),
  (c!"mediacheck", FC4_MediaCheck.cls),
  (c!"method", FC6_Method.cls),
  (c!"monitor", FC6_Monitor.cls),
  (c!"multipath", FC6_MultiPath.cls FC6_MultiPathData.cls),
  (c!"network", F9_Network.cls F8_NetworkData.cls),
  (c!"nfs", FC6_NFS.cls),
  (c!"part", F9_Partition.cls F9_PartData.cls),
  (c!"partition", F9_Partition.cls F9_PartData.cls),
  (c!"poweroff", FC6_Reboot.cls),
  (c!"raid", F9_Raid.cls F9_RaidData.cls),
  (c!"reboot", FC6_Reboot.cls),
  (c!"repo", F8_Repo.cls F8_RepoData.cls),
  (c!"rootpw", F8_RootPw.cls),
  (c!"selinux", FC3_SELinux.cls),
  (c!"services", FC6_Services.cls),
  (c!"shutdown", FC6_Reboot.cls),
  (c!"skipx", FC3_SkipX.cls),
  (c!"text", FC3_DisplayMode.cls),
  (c!"timezone", FC6_Timezone.cls),
  (c!"updates", F7_Updates.cls),
  (c!"upgrade", FC3_Upgrade.cls),
  (c!"url", FC3_Url.cls),
  (c!"user", F8_User.cls F8_UserData.cls),
  (c!"vnc", F9_Vnc.cls),
  (c!"volgroup", FC3_VolGroup.cls FC3_VolGroupData.cls),
  (c!"xconfig", F9_XConfig.cls),
  (c!"zerombr", F9_ZeroMbr.cls),
  (c!"zfcp", FC3_ZFCP.cls FC3_ZFCPData.cls)]

/-- `handlers/fc3.py:29-78` -/
def commandMapFC3 : List (Str × Command) := [
  (c!"auth", FC3_Authconfig.cls),
  (c!"authconfig", FC3_Authconfig.cls),
  (c!"autopart", FC3_AutoPart.cls),
  (c!"autostep", FC3_AutoStep.cls),
  (c!"bootloader", FC3_Bootloader.cls),
  (c!"cdrom", FC3_Cdrom.cls),
  (c!"clearpart", FC3_ClearPart.cls),
  (c!"cmdline", FC3_DisplayMode.cls),
  (c!"device", FC3_Device.cls),
  (c!"deviceprobe", FC3_DeviceProbe.cls),
  (c!"driverdisk", FC3_DriverDisk.cls FC3_DriverDiskData.cls),
  (c!"firewall", FC3_Firewall.cls),
  (c!"firstboot", FC3_Firstboot.cls),
  (c!"graphical", FC3_DisplayMode.cls),
  (c!"halt", FC3_Reboot.cls),
  (c!"harddrive", FC3_HardDrive.cls),
  (c!"ignoredisk", FC3_IgnoreDisk.cls),
  (c!"install", FC3_Upgrade.cls),
  (c!"interactive", FC3_Interactive.cls),
  (c!"keyboard", FC3_Keyboard.cls),
  (c!"lang", FC3_Lang.cls),
  (c!"langsupport", FC3_LangSupport.cls),
  (c!"lilo", FC3_Lilo.cls),
  (c!"lilocheck", FC3_LiloCheck.cls),
  (c!"logvol", FC3_LogVol.cls FC3_LogVolData.cls),
  (c!"method", FC3_Method.cls),
  (c!"monitor", FC3_Monitor.cls),
  (c!"mouse", FC3_Mouse.cls),
  (c!"network", FC3_Network.cls FC3_NetworkData.cls),
  (c!"nfs", FC3_NFS.cls),
  (c!"part", FC3_Partition.cls FC3_PartData.cls),
  (c!"partition", FC3_Partition.cls FC3_PartData.cls),
  (c!"poweroff", FC3_Reboot.cls),
  (c!"raid", FC3_Raid.cls FC3_RaidData.cls),
  (c!"reboot", FC3_Reboot.cls),
  (c!"rootpw", FC3_RootPw.cls),
  (c!"selinux", FC3_SELinux.cls),
  (c!"shutdown", FC3_Reboot.cls),
  (c!"skipx", FC3_SkipX.cls),
  (c!"text", FC3_DisplayMode.cls),
  (c!"timezone", FC3_Timezone.cls),
  (c!"upgrade", FC3_Upgrade.cls),
  (c!"url", FC3_Url.cls),
  (c!"vnc", FC3_Vnc.cls),
  (c!"volgroup", FC3_VolGroup.cls FC3_VolGroupData.cls),
  (c!"xconfig", FC3_XConfig.cls),
  (c!"zerombr", FC3_ZeroMbr.cls),
  (c!"zfcp", FC3_ZFCP.cls FC3_ZFCPData.cls)]

/-- `handlers/fc4.py:29-79` -/
def commandMapFC4 : List (Str × Command) := [
  (c!"auth", FC3_Authconfig.cls),
  (c!"authconfig", FC3_Authconfig.cls),
  (c!"autopart", FC3_AutoPart.cls),
  (c!"autostep", FC3_AutoStep.cls),
  (c!"bootloader", FC4_Bootloader.cls),
  (c!"cdrom", FC3_Cdrom.cls),
  (c!"clearpart", FC3_ClearPart.cls),
  (c!"cmdline", FC3_DisplayMode.cls),
  (c!"device", FC3_Device.cls),
  (c!"deviceprobe", FC3_DeviceProbe.cls),
  (c!"driverdisk", FC4_DriverDisk.cls FC4_DriverDiskData.cls),
  (c!"firewall", FC3_Firewall.cls),
  (c!"firstboot", FC3_Firstboot.cls),
  (c!"graphical", FC3_DisplayMode.cls),
  (c!"halt", FC3_Reboot.cls),
  (c!"harddrive", FC3_HardDrive.cls),
  (c!"ignoredisk", FC3_IgnoreDisk.cls),
  (c!"install", FC3_Upgrade.cls),
  (c!"interactive", FC3_Interactive.cls),
  (c!"keyboard", FC3_Keyboard.cls),
  (c!"lang", FC3_Lang.cls),
  (c!"langsupport", FC3_LangSupport.cls),
  (c!"lilo", FC4_Lilo.cls),
  (c!"lilocheck", FC4_LiloCheck.cls),
  (c!"logvol", FC4_LogVol.cls FC4_LogVolData.cls),
  (c!"mediacheck", FC4_MediaCheck.cls),
  (c!"method", FC3_Method.cls),
  (c!"monitor", FC3_Monitor.cls),
  (c!"mouse", FC3_Mouse.cls),
  (c!"network", FC4_Network.cls FC4_NetworkData.cls),
  (c!"nfs", FC3_NFS.cls),
  (c!"part", FC4_Partition.cls FC4_PartData.cls),
  (c!"partition", FC4_Partition.cls FC4_PartData.cls),
  (c!"poweroff", FC3_Reboot.cls),
  (c!"raid", FC4_Raid.cls FC4_RaidData.cls),
  (c!"reboot", FC3_Reboot.cls),
  (c!"rootpw", FC3_RootPw.cls),
  (c!"selinux", FC3_SELinux.cls),
  (c!"shutdown", FC3_Reboot.cls),
  (c!"skipx", FC3_SkipX.cls),
  (c!"text", FC3_DisplayMode.cls),
  (c!"timezone", FC3_Timezone.cls),
  (c!"upgrade", FC3_Upgrade.cls),
  (c!"url", FC3_Url.cls),
  (c!"vnc", FC3_Vnc.cls),
  (c!"volgroup", FC3_VolGroup.cls FC3_VolGroupData.cls),
  (c!"xconfig", FC3_XConfig.cls),
  (c!"zerombr", FC3_ZeroMbr.cls),
  (c!"zfcp", FC3_ZFCP.cls FC3_ZFCPData.cls)]

/-- `handlers/fc5.py:29-77` -/
def commandMapFC5 : List (Str × Command) := [
  (c!"auth", FC3_Authconfig.cls),
  (c!"authconfig", FC3_Authconfig.cls),
  (c!"autopart", FC3_AutoPart.cls),
  (c!"autostep", FC3_AutoStep.cls),
  (c!"bootloader", FC4_Bootloader.cls),
  (c!"cdrom", FC3_Cdrom.cls),
  (c!"clearpart", FC3_ClearPart.cls),
  (c!"cmdline", FC3_DisplayMode.cls),
  (c!"device", FC3_Device.cls),
  (c!"deviceprobe", FC3_DeviceProbe.cls),
  (c!"driverdisk", FC4_DriverDisk.cls FC4_DriverDiskData.cls),
  (c!"firewall", FC3_Firewall.cls),
  (c!"firstboot", FC3_Firstboot.cls),
  (c!"graphical", FC3_DisplayMode.cls),
  (c!"halt", FC3_Reboot.cls),
  (c!"harddrive", FC3_HardDrive.cls),
  (c!"ignoredisk", FC3_IgnoreDisk.cls),
  (c!"install", FC3_Upgrade.cls),
  (c!"interactive", FC3_Interactive.cls),
  (c!"keyboard", FC3_Keyboard.cls),
  (c!"lang", FC3_Lang.cls),
  (c!"langsupport", FC5_LangSupport.cls),
  (c!"logvol", FC4_LogVol.cls FC4_LogVolData.cls),
  (c!"mediacheck", FC4_MediaCheck.cls),
  (c!"method", FC3_Method.cls),
  (c!"monitor", FC3_Monitor.cls),
  (c!"mouse", FC3_Mouse.cls),
  (c!"network", FC4_Network.cls FC4_NetworkData.cls),
  (c!"nfs", FC3_NFS.cls),
  (c!"part", FC4_Partition.cls FC4_PartData.cls),
  (c!"partition", FC4_Partition.cls FC4_PartData.cls),
  (c!"poweroff", FC3_Reboot.cls),
  (c!"raid", FC5_Raid.cls FC5_RaidData.cls),
  (c!"reboot", FC3_Reboot.cls),
  (c!"rootpw", FC3_RootPw.cls),
  (c!"selinux", FC3_SELinux.cls),
  (c!"shutdown", FC3_Reboot.cls),
  (c!"skipx", FC3_SkipX.cls),
  (c!"text", FC3_DisplayMode.cls),
  (c!"timezone", FC3_Timezone.cls),
  (c!"upgrade", FC3_Upgrade.cls),
  (c!"url", FC3_Url.cls),
  (c!"vnc", FC3_Vnc.cls),
  (c!"volgroup", FC3_VolGroup.cls FC3_VolGroupData.cls),
  (c!"xconfig", FC3_XConfig.cls),
  (c!"zerombr", FC3_ZeroMbr.cls),
  (c!"zfcp", FC3_ZFCP.cls FC3_ZFCPData.cls)]

/-- `handlers/fc6.py:29-85` -/
def commandMapFC6 : List (Str × Command) := [
  (c!"auth", FC3_Authconfig.cls),
  (c!"authconfig", FC3_Authconfig.cls),
  (c!"autopart", FC3_AutoPart.cls),
  (c!"autostep", FC3_AutoStep.cls),
  (c!"bootloader", FC4_Bootloader.cls),
  (c!"cdrom", FC3_Cdrom.cls),
  (c!"clearpart", FC3_ClearPart.cls),
  (c!"cmdline", FC3_DisplayMode.cls),
  (c!"device", FC3_Device.cls),
  (c!"deviceprobe", FC3_DeviceProbe.cls),
  (c!"dmraid", FC6_DmRaid.cls FC6_DmRaidData.cls),
  (c!"driverdisk", FC4_DriverDisk.cls FC4_DriverDiskData.cls),
  (c!"firewall", FC3_Firewall.cls),
  (c!"firstboot", FC3_Firstboot.cls),
  (c!"graphical", FC3_DisplayMode.cls),
  (c!"halt", FC6_Reboot.cls),
  (c!"harddrive", FC3_HardDrive.cls),
  (c!"ignoredisk", FC3_IgnoreDisk.cls),
  (c!"install", FC3_Upgrade.cls),
  (c!"interactive", FC3_Interactive.cls),
  (c!"iscsi", FC6_Iscsi.cls FC6_IscsiData.cls),
  (c!"iscsiname", FC6_IscsiName.cls),
  (c!"keyboard", FC3_Keyboard.cls),
  (c!"lang", FC3_Lang.cls),
  (c!"langsupport", FC5_LangSupport.cls),
  (c!"logging", FC6_Logging.cls),
  (c!"logvol", FC4_LogVol.cls FC4_LogVolData.cls),
  (c!"mediacheck", FC4_MediaCheck.cls),
  (c!"method", FC6_Method.cls),
  (c!"monitor", FC6_Monitor.cls),
  (c!"mouse", FC3_Mouse.cls),
  (c!"multipath", FC6_MultiPath.cls FC6_MultiPathData.cls),
  (c!"network", FC6_Network.cls FC6_NetworkData.cls),
  (c!"nfs", FC6_NFS.cls),
  (c!"part", FC4_Partition.cls FC4_PartData.cls),
  (c!"partition", FC4_Partition.cls FC4_PartData.cls),
  (c!"poweroff", FC6_Reboot.cls),
  (c!"raid", FC5_Raid.cls FC5_RaidData.cls),
  (c!"reboot", FC6_Reboot.cls),
  (c!"repo", FC6_Repo.cls FC6_RepoData.cls),
  (c!"rootpw", FC3_RootPw.cls),
  (c!"selinux", FC3_SELinux.cls),
  (c!"services", FC6_Services.cls),
  (c!"shutdown", FC6_Reboot.cls),
  (c!"skipx", FC3_SkipX.cls),
  (c!"text", FC3_DisplayMode.cls),
  (c!"timezone", FC6_Timezone.cls),
  (c!"upgrade", FC3_Upgrade.cls),
  (c!"user", FC6_User.cls FC6_UserData.cls),
  (c!"url", FC3_Url.cls),
  (c!"vnc", FC6_Vnc.cls),
  (c!"volgroup", FC3_VolGroup.cls FC3_VolGroupData.cls),
  (c!"xconfig", FC6_XConfig.cls),
  (c!"zerombr", FC3_ZeroMbr.cls),
  (c!"zfcp", FC3_ZFCP.cls FC3_ZFCPData.cls)]

/-- `handlers/rhel3.py:29-76` -/
def commandMapRHEL3 : List (Str × Command) := [
  (c!"auth", FC3_Authconfig.cls),
  (c!"authconfig", FC3_Authconfig.cls),
  (c!"autopart", FC3_AutoPart.cls),
  (c!"autostep", FC3_AutoStep.cls),
  (c!"bootloader", FC3_Bootloader.cls),
  (c!"cdrom", FC3_Cdrom.cls),
  (c!"clearpart", FC3_ClearPart.cls),
  (c!"cmdline", FC3_DisplayMode.cls),
  (c!"device", FC3_Device.cls),
  (c!"deviceprobe", FC3_DeviceProbe.cls),
  (c!"driverdisk", FC3_DriverDisk.cls FC3_DriverDiskData.cls),
  (c!"firewall", FC3_Firewall.cls),
  (c!"firstboot", FC3_Firstboot.cls),
  (c!"graphical", FC3_DisplayMode.cls),
  (c!"halt", FC3_Reboot.cls),
  (c!"harddrive", FC3_HardDrive.cls),
  (c!"ignoredisk", FC3_IgnoreDisk.cls),
  (c!"install", FC3_Upgrade.cls),
  (c!"interactive", FC3_Interactive.cls),
  (c!"keyboard", FC3_Keyboard.cls),
  (c!"lang", FC3_Lang.cls),
  (c!"langsupport", FC3_LangSupport.cls),
  (c!"lilo", FC3_Lilo.cls),
  (c!"lilocheck", FC3_LiloCheck.cls),
  (c!"logvol", FC3_LogVol.cls FC3_LogVolData.cls),
  (c!"method", FC3_Method.cls),
  (c!"monitor", FC3_Monitor.cls),
  (c!"mouse", RHEL3_Mouse.cls),
  (c!"network", FC3_Network.cls RHEL4_NetworkData.cls),
  (c!"nfs", FC3_NFS.cls),
  (c!"part", FC3_Partition.cls FC3_PartData.cls),
  (c!"partition", FC3_Partition.cls FC3_PartData.cls),
  (c!"poweroff", FC3_Reboot.cls),
  (c!"raid", FC3_Raid.cls FC3_RaidData.cls),
  (c!"reboot", FC3_Reboot.cls),
  (c!"rootpw", FC3_RootPw.cls),
  (c!"shutdown", FC3_Reboot.cls),
  (c!"skipx", FC3_SkipX.cls),
  (c!"text", FC3_DisplayMode.cls),
  (c!"timezone", FC3_Timezone.cls),
  (c!"upgrade", FC3_Upgrade.cls),
  (c!"url", FC3_Url.cls),
  (c!"vnc", FC3_Vnc.cls),
  (c!"volgroup", FC3_VolGroup.cls FC3_VolGroupData.cls),
  (c!"xconfig", FC3_XConfig.cls),
  (c!"zerombr", FC3_ZeroMbr.cls)]

/-- `handlers/rhel4.py:29-78` -/
def commandMapRHEL4 : List (Str × Command) := [
  (c!"auth", FC3_Authconfig.cls),
  (c!"authconfig", FC3_Authconfig.cls),
  (c!"autopart", FC3_AutoPart.cls),
  (c!"autostep", FC3_AutoStep.cls),
  (c!"bootloader", FC3_Bootloader.cls),
  (c!"cdrom", FC3_Cdrom.cls),
  (c!"clearpart", FC3_ClearPart.cls),
  (c!"cmdline", FC3_DisplayMode.cls),
  (c!"device", FC3_Device.cls),
  (c!"deviceprobe", FC3_DeviceProbe.cls),
  (c!"driverdisk", FC4_DriverDisk.cls FC4_DriverDiskData.cls),
  (c!"firewall", FC3_Firewall.cls),
  (c!"firstboot", FC3_Firstboot.cls),
  (c!"graphical", FC3_DisplayMode.cls),
  (c!"halt", FC3_Reboot.cls),
  (c!"harddrive", FC3_HardDrive.cls),
  (c!"ignoredisk", F8_IgnoreDisk.cls),
  (c!"install", FC3_Upgrade.cls),
  (c!"interactive", FC3_Interactive.cls),
  (c!"keyboard", FC3_Keyboard.cls),
  (c!"lang", FC3_Lang.cls),
  (c!"langsupport", FC3_LangSupport.cls),
  (c!"lilo", FC3_Lilo.cls),
  (c!"lilocheck", FC3_LiloCheck.cls),
  (c!"logvol", FC3_LogVol.cls FC3_LogVolData.cls),
  (c!"method", FC3_Method.cls),
  (c!"monitor", FC3_Monitor.cls),
  (c!"mouse", FC3_Mouse.cls),
  (c!"network", RHEL4_Network.cls RHEL4_NetworkData.cls),
  (c!"nfs", FC3_NFS.cls),
  (c!"part", FC3_Partition.cls FC3_PartData.cls),
  (c!"partition", FC3_Partition.cls FC3_PartData.cls),
  (c!"poweroff", FC3_Reboot.cls),
  (c!"raid", FC3_Raid.cls FC3_RaidData.cls),
  (c!"reboot", FC3_Reboot.cls),
  (c!"rootpw", FC3_RootPw.cls),
  (c!"selinux", FC3_SELinux.cls),
  (c!"shutdown", FC3_Reboot.cls),
  (c!"skipx", FC3_SkipX.cls),
  (c!"text", FC3_DisplayMode.cls),
  (c!"timezone", FC3_Timezone.cls),
  (c!"upgrade", FC3_Upgrade.cls),
  (c!"url", FC3_Url.cls),
  (c!"vnc", FC3_Vnc.cls),
  (c!"volgroup", FC3_VolGroup.cls FC3_VolGroupData.cls),
  (c!"xconfig", FC3_XConfig.cls),
  (c!"zerombr", FC3_ZeroMbr.cls),
  (c!"zfcp", FC3_ZFCP.cls FC3_ZFCPData.cls)]

/-- `handlers/rhel5.py:29-86` -/
def commandMapRHEL5 : List (Str × Command) := [
  (c!"auth", FC3_Authconfig.cls),
  (c!"authconfig", FC3_Authconfig.cls),
  (c!"autopart", F9_AutoPart.cls),
  (c!"autostep", FC3_AutoStep.cls),
  (c!"bootloader", RHEL5_Bootloader.cls),
  (c!"cdrom", FC3_Cdrom.cls),
  (c!"clearpart", FC3_ClearPart.cls),
  (c!"cmdline", FC3_DisplayMode.cls),
  (c!"device", FC3_Device.cls),
  (c!"deviceprobe", FC3_DeviceProbe.cls),
  (c!"dmraid", FC6_DmRaid.cls FC6_DmRaidData.cls),
  (c!"driverdisk", F12_DriverDisk.cls F12_DriverDiskData.cls),
  (c!"firewall", FC3_Firewall.cls),
  (c!"firstboot", FC3_Firstboot.cls),
  (c!"graphical", FC3_DisplayMode.cls),
  (c!"halt", FC6_Reboot.cls),
  (c!"harddrive", FC3_HardDrive.cls),
  (c!"ignoredisk", F8_IgnoreDisk.cls),
  (c!"install", FC3_Upgrade.cls),
  (c!"interactive", FC3_Interactive.cls),
  (c!"iscsi", FC6_Iscsi.cls FC6_IscsiData.cls),
  (c!"iscsiname", FC6_IscsiName.cls),
  (c!"key", RHEL5_Key.cls),
  (c!"keyboard", FC3_Keyboard.cls),
  (c!"lang", FC3_Lang.cls),
  (c!"langsupport", FC5_LangSupport.cls),
  (c!"logging", FC6_Logging.cls),
  (c!"logvol", RHEL5_LogVol.cls RHEL5_LogVolData.cls),
  (c!"mediacheck", FC4_MediaCheck.cls),
  (c!"method", FC6_Method.cls),
  (c!"monitor", FC6_Monitor.cls),
  (c!"mouse", FC3_Mouse.cls),
  (c!"multipath", FC6_MultiPath.cls FC6_MultiPathData.cls),
  (c!"network", RHEL5_Network.cls FC6_NetworkData.cls),
  (c!"nfs", FC6_NFS.cls),
  (c!"part", RHEL5_Partition.cls RHEL5_PartData.cls),
  (c!"partition", RHEL5_Partition.cls RHEL5_PartData.cls),
  (c!"poweroff", FC6_Reboot.cls),
  (c!"raid", RHEL5_Raid.cls RHEL5_RaidData.cls),
  (c!"reboot", FC6_Reboot.cls),
  (c!"repo", FC6_Repo.cls FC6_RepoData.cls),
  (c!"rootpw", FC3_RootPw.cls),
  (c!"services", FC6_Services.cls),
  (c!"selinux", FC3_SELinux.cls),
  (c!"shutdown", FC6_Reboot.cls),
  (c!"skipx", FC3_SkipX.cls),
  (c!"text", FC3_DisplayMode.cls),
  (c!"timezone", FC6_Timezone.cls),
  (c!"upgrade", FC3_Upgrade.cls),
  (c!"user", FC6_User.cls FC6_UserData.cls),
  (c!"url", FC3_Url.cls),
  (c!"vnc", FC6_Vnc.cls),
  (c!"volgroup", FC3_VolGroup.cls FC3_VolGroupData.cls),
  (c!"xconfig", FC6_XConfig.cls),
  (c!"zerombr", FC3_ZeroMbr.cls),
  (c!"zfcp", FC3_ZFCP.cls FC3_ZFCPData.cls)]

/-- `handlers/rhel6.py:29-90` -/
def commandMapRHEL6 : List (Str × Command) := [
  (c!"auth", FC3_Authconfig.cls),
  (c!"authconfig", FC3_Authconfig.cls),
  (c!"autopart", RHEL6_AutoPart.cls),
  (c!"autostep", FC3_AutoStep.cls),
  (c!"bootloader", RHEL6_Bootloader.cls),
  (c!"cdrom", FC3_Cdrom.cls),
  (c!"clearpart", FC3_ClearPart.cls),
  (c!"cmdline", FC3_DisplayMode.cls),
  (c!"device", F8_Device.cls F8_DeviceData.cls),
  (c!"deviceprobe", FC3_DeviceProbe.cls),
  (c!"dmraid", FC6_DmRaid.cls FC6_DmRaidData.cls),
  (c!"driverdisk", F12_DriverDisk.cls F12_DriverDiskData.cls),
  (c!"fcoe", F13_Fcoe.cls F13_FcoeData.cls),
  (c!"firewall", F10_Firewall.cls),
  (c!"firstboot", FC3_Firstboot.cls),
  (c!"graphical", FC3_DisplayMode.cls),
  (c!"group", F12_Group.cls F12_GroupData.cls),
  (c!"halt", FC6_Reboot.cls),
  (c!"harddrive", FC3_HardDrive.cls),
  (c!"ignoredisk", RHEL6_IgnoreDisk.cls),
  (c!"install", F11_Upgrade.cls),
  (c!"interactive", FC3_Interactive.cls),
  (c!"iscsi", RHEL6_Iscsi.cls RHEL6_IscsiData.cls),
  (c!"iscsiname", FC6_IscsiName.cls),
  (c!"key", RHEL5_Key.cls),
  (c!"keyboard", FC3_Keyboard.cls),
  (c!"lang", FC3_Lang.cls),
  (c!"logging", FC6_Logging.cls),
  (c!"logvol", RHEL6_LogVol.cls RHEL6_LogVolData.cls),
  (c!"mediacheck", FC4_MediaCheck.cls),
  (c!"method", RHEL6_Method.cls),
  (c!"monitor", F10_Monitor.cls),
  (c!"multipath", FC6_MultiPath.cls FC6_MultiPathData.cls),
  (c!"network", RHEL6_Network.cls RHEL6_NetworkData.cls),
  (c!"nfs", FC6_NFS.cls),
  (c!"part", RHEL6_Partition.cls RHEL6_PartData.cls),
  (c!"partition", RHEL6_Partition.cls RHEL6_PartData.cls),
  (c!"poweroff", FC6_Reboot.cls),
  (c!"raid", RHEL6_Raid.cls RHEL6_RaidData.cls),
  (c!"reboot", FC6_Reboot.cls),
  (c!"repo", RHEL6_Repo.cls RHEL6_RepoData.cls),
  (c!"rescue", F10_Rescue.cls),
  (c!"rootpw", F8_RootPw.cls),
  (c!"selinux", FC3_SELinux.cls),
  (c!"services", FC6_Services.cls),
  (c!"shutdown", FC6_Reboot.cls),
  (c!"skipx", FC3_SkipX.cls),
  (c!"sshpw", F13_SshPw.cls F13_SshPwData.cls),
  (c!"text", FC3_DisplayMode.cls),
  (c!"timezone", FC6_Timezone.cls),
  (c!"unsupported_hardware", RHEL6_UnsupportedHardware.cls),
  (c!"updates", F7_Updates.cls),
  (c!"upgrade", F11_Upgrade.cls),
  (c!"url", RHEL6_Url.cls),
  (c!"user", F12_User.cls F12_UserData.cls),
  (c!"vnc", F9_Vnc.cls),
  (c!"volgroup", F16_VolGroup.cls F16_VolGroupData.cls),
  (c!"xconfig", F10_XConfig.cls),
  (c!"zerombr", F9_ZeroMbr.cls),
  (c!"zfcp", F12_ZFCP.cls F12_ZFCPData.cls)]

/-- `handlers/rhel7.py:29-96` -/
def commandMapRHEL7 : List (Str × Command) := [
  (c!"auth", FC3_Authconfig.cls),
  (c!"authconfig", FC3_Authconfig.cls),
  (c!"autopart", RHEL7_AutoPart.cls),
  (c!"autostep", FC3_AutoStep.cls),
  (c!"bootloader", RHEL7_Bootloader.cls),
  (c!"btrfs", RHEL7_BTRFS.cls RHEL7_BTRFSData.cls),
  (c!"cdrom", FC3_Cdrom.cls),
  (c!"clearpart", RHEL7_ClearPart.cls),
  (c!"cmdline", FC3_DisplayMode.cls),
  (c!"device", F8_Device.cls F8_DeviceData.cls),
  (c!"deviceprobe", FC3_DeviceProbe.cls),
  (c!"dmraid", FC6_DmRaid.cls FC6_DmRaidData.cls),
  (c!"driverdisk", F14_DriverDisk.cls F14_DriverDiskData.cls),
  (c!"eula", F20_Eula.cls),
  (c!"fcoe", RHEL7_Fcoe.cls RHEL7_FcoeData.cls),
  (c!"firewall", F20_Firewall.cls),
  (c!"firstboot", FC3_Firstboot.cls),
  (c!"graphical", FC3_DisplayMode.cls),
  (c!"group", F12_Group.cls F12_GroupData.cls),
  (c!"halt", F18_Reboot.cls),
  (c!"harddrive", FC3_HardDrive.cls),
  (c!"hmc", RHEL7_Hmc.cls),
  (c!"ignoredisk", F14_IgnoreDisk.cls),
  (c!"install", F11_Upgrade.cls),
  (c!"iscsi", F17_Iscsi.cls F17_IscsiData.cls),
  (c!"iscsiname", FC6_IscsiName.cls),
  (c!"keyboard", F18_Keyboard.cls),
  (c!"lang", F19_Lang.cls),
  (c!"liveimg", F19_Liveimg.cls),
  (c!"logging", FC6_Logging.cls),
  (c!"logvol", RHEL7_LogVol.cls RHEL7_LogVolData.cls),
  (c!"mediacheck", FC4_MediaCheck.cls),
  (c!"method", RHEL7_Method.cls),
  (c!"multipath", FC6_MultiPath.cls FC6_MultiPathData.cls),
  (c!"network", RHEL7_Network.cls RHEL7_NetworkData.cls),
  (c!"nfs", FC6_NFS.cls),
  (c!"nvdimm", F28_Nvdimm.cls F28_NvdimmData.cls),
  (c!"ostreesetup", RHEL7_OSTreeSetup.cls),
  (c!"part", RHEL7_Partition.cls RHEL7_PartData.cls),
  (c!"partition", RHEL7_Partition.cls RHEL7_PartData.cls),
  (c!"poweroff", F18_Reboot.cls),
  (c!"raid", RHEL7_Raid.cls RHEL7_RaidData.cls),
  (c!"realm", F19_Realm.cls),
  (c!"reboot", F18_Reboot.cls),
  (c!"repo", RHEL7_Repo.cls RHEL7_RepoData.cls),
  (c!"reqpart", RHEL7_ReqPart.cls),
  (c!"rescue", F10_Rescue.cls),
  (c!"rootpw", F18_RootPw.cls),
  (c!"selinux", FC3_SELinux.cls),
  (c!"services", FC6_Services.cls),
  (c!"shutdown", F18_Reboot.cls),
  (c!"skipx", FC3_SkipX.cls),
  (c!"snapshot", F26_Snapshot.cls F26_SnapshotData.cls),
  (c!"sshpw", F13_SshPw.cls F13_SshPwData.cls),
  (c!"text", FC3_DisplayMode.cls),
  (c!"timezone", RHEL7_Timezone.cls),
  (c!"unsupported_hardware", RHEL6_UnsupportedHardware.cls),
  (c!"updates", F7_Updates.cls),
  (c!"upgrade", F20_Upgrade.cls),
  (c!"url", F18_Url.cls),
  (c!"user", F19_User.cls F19_UserData.cls),
  (c!"vnc", F9_Vnc.cls),
  (c!"volgroup", RHEL7_VolGroup.cls RHEL7_VolGroupData.cls),
  (c!"xconfig", F14_XConfig.cls),
  (c!"zerombr", F9_ZeroMbr.cls),
  (c!"zfcp", F14_ZFCP.cls F14_ZFCPData.cls)]

/-- `handlers/rhel8.py:29-101` -/
def commandMapRHEL8 : List (Str × Command) := [
  (c!"auth", F28_Authconfig.cls),
  (c!"authconfig", F28_Authconfig.cls),
  (c!"authselect", F28_Authselect.cls),
  (c!"autopart", RHEL8_AutoPart.cls),
  (c!"autostep", FC3_AutoStep.cls),
  (c!"bootloader", RHEL8_Bootloader.cls),
  (c!"btrfs", RHEL8_BTRFS.cls),
  (c!"cdrom", FC3_Cdrom.cls),
  (c!"clearpart", F28_ClearPart.cls),
  (c!"cmdline", F26_DisplayMode.cls),
  (c!"device", F24_Device.cls),
  (c!"deviceprobe", F29_DeviceProbe.cls),
  (c!"dmraid", F24_DmRaid.cls),
  (c!"driverdisk", F14_DriverDisk.cls F14_DriverDiskData.cls),
  (c!"module", RHEL8_Module.cls RHEL8_ModuleData.cls),
  (c!"eula", F20_Eula.cls),
  (c!"fcoe", RHEL8_Fcoe.cls RHEL8_FcoeData.cls),
  (c!"firewall", F28_Firewall.cls),
  (c!"firstboot", FC3_Firstboot.cls),
  (c!"graphical", F26_DisplayMode.cls),
  (c!"group", F12_Group.cls F12_GroupData.cls),
  (c!"halt", F23_Reboot.cls),
  (c!"harddrive", FC3_HardDrive.cls),
  (c!"hmc", F28_Hmc.cls),
  (c!"ignoredisk", F29_IgnoreDisk.cls),
  (c!"install", F29_Install.cls),
  (c!"iscsi", F17_Iscsi.cls F17_IscsiData.cls),
  (c!"iscsiname", FC6_IscsiName.cls),
  (c!"keyboard", F18_Keyboard.cls),
  (c!"lang", F19_Lang.cls),
  (c!"liveimg", F19_Liveimg.cls),
  (c!"logging", FC6_Logging.cls),
  (c!"logvol", RHEL8_LogVol.cls RHEL8_LogVolData.cls),
  (c!"mediacheck", FC4_MediaCheck.cls),
  (c!"method", F28_Method.cls),
  (c!"mount", F27_Mount.cls F27_MountData.cls),
  (c!"multipath", F24_MultiPath.cls),
  (c!"network", F27_Network.cls F27_NetworkData.cls),
  (c!"nfs", FC6_NFS.cls),
  (c!"nvdimm", F28_Nvdimm.cls F28_NvdimmData.cls),
  (c!"ostreesetup", RHEL8_OSTreeSetup.cls),
  (c!"part", RHEL8_Partition.cls RHEL8_PartData.cls),
  (c!"partition", RHEL8_Partition.cls RHEL8_PartData.cls),
  (c!"poweroff", F23_Reboot.cls),
  (c!"raid", RHEL8_Raid.cls RHEL8_RaidData.cls),
  (c!"realm", F19_Realm.cls),
  (c!"reboot", F23_Reboot.cls),
  (c!"repo", RHEL8_Repo.cls RHEL8_RepoData.cls),
  (c!"reqpart", F23_ReqPart.cls),
  (c!"rescue", F10_Rescue.cls),
  (c!"rhsm", RHEL8_RHSM.cls),
  (c!"rootpw", F18_RootPw.cls),
  (c!"selinux", FC3_SELinux.cls),
  (c!"services", FC6_Services.cls),
  (c!"shutdown", F23_Reboot.cls),
  (c!"skipx", FC3_SkipX.cls),
  (c!"snapshot", F26_Snapshot.cls F26_SnapshotData.cls),
  (c!"sshpw", F24_SshPw.cls F24_SshPwData.cls),
  (c!"sshkey", F22_SshKey.cls F22_SshKeyData.cls),
  (c!"syspurpose", RHEL8_Syspurpose.cls),
  (c!"text", F26_DisplayMode.cls),
  (c!"timezone", F25_Timezone.cls),
  (c!"updates", F7_Updates.cls),
  (c!"url", RHEL8_Url.cls),
  (c!"user", F24_User.cls F19_UserData.cls),
  (c!"vnc", F9_Vnc.cls),
  (c!"volgroup", RHEL8_VolGroup.cls RHEL8_VolGroupData.cls),
  (c!"xconfig", F14_XConfig.cls),
  (c!"zerombr", F9_ZeroMbr.cls),
  (c!"zfcp", F14_ZFCP.cls F14_ZFCPData.cls),
  (c!"zipl", RHEL8_Zipl.cls)]

/-- `handlers/control.py:26-50`: the command map of every version. -/
def commandMaps : List (Nat × List (Str × Command)) := [
  (Version.F10, commandMapF10),
  (Version.F11, commandMapF11),
  (Version.F12, commandMapF12),
  (Version.F13, commandMapF13),
  (Version.F14, commandMapF14),
  (Version.F15, commandMapF15),
  (Version.F16, commandMapF16),
  (Version.F17, commandMapF17),
  (Version.F18, commandMapF18),
  (Version.F19, commandMapF19),
  (Version.F20, commandMapF20),
  (Version.F21, commandMapF21),
  (Version.F22, commandMapF22),
  (Version.F23, commandMapF23),
  (Version.F24, commandMapF24),
  (Version.F25, commandMapF25),
  (Version.F26, commandMapF26),
  (Version.F27, commandMapF27),
  (Version.F28, commandMapF28),
  (Version.F29, commandMapF29),
  (Version.F30, commandMapF30),
  (Version.F31, commandMapF31),
  (Version.F32, commandMapF32),
  (Version.F33, commandMapF33),
  (Version.F34, commandMapF34),
  (Version.F7, commandMapF7),
  (Version.F8, commandMapF8),
  (Version.F9, commandMapF9),
  (Version.FC3, commandMapFC3),
  (Version.FC4, commandMapFC4),
  (Version.FC5, commandMapFC5),
  (Version.FC6, commandMapFC6),
  (Version.RHEL3, commandMapRHEL3),
  (Version.RHEL4, commandMapRHEL4),
  (Version.RHEL5, commandMapRHEL5),
  (Version.RHEL6, commandMapRHEL6),
  (Version.RHEL7, commandMapRHEL7),
  (Version.RHEL8, commandMapRHEL8)]

/-- `handlers/control.py:26-50` `commandMap[version]`; empty when there is none. -/
def commandMap (v : Nat) : List (Str × Command) := (commandMaps.lookup v).getD []

end Ks.Cmd
