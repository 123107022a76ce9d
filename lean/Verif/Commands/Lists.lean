import Verif.Commands.ListLogic
import Verif.Commands.Maps
/-!
# The data lists of the command classes

Written by `scripts/gen_lists.py`.
-/
namespace Ks.Cmd

theorem F17_BTRFS.parse_lineno (k : Info) (args : List Str)  (n : Nat) :
    M.Post n (F17_BTRFS.parse k args) (Numbered n) := by
  unfold F17_BTRFS.parse
  repeat' (first | numbered | post_step | (intro _) | extract_lets | split)

theorem F23_BTRFS.parse_lineno (k : Info) (args : List Str)  (n : Nat) :
    M.Post n (F23_BTRFS.parse k args) (Numbered n) := by
  unfold F23_BTRFS.parse
  repeat' (first | numbered | (with_reducible apply F17_BTRFS.parse_lineno) | post_step | (intro _) | extract_lets | split)

theorem F8_Device.parse_lineno (k : Info) (args : List Str)  (n : Nat) :
    M.Post n (F8_Device.parse k args) (Numbered n) := by
  unfold F8_Device.parse
  repeat' (first | numbered | post_step | (intro _) | extract_lets | split)

theorem FC6_DmRaid.parse_lineno (k : Info) (args : List Str)  (n : Nat) :
    M.Post n (FC6_DmRaid.parse k args) (Numbered n) := by
  unfold FC6_DmRaid.parse
  repeat' (first | numbered | post_step | (intro _) | extract_lets | split)

theorem FC3_DriverDisk.parse_lineno (k : Info) (args : List Str)  (n : Nat) :
    M.Post n (FC3_DriverDisk.parse k args) (Numbered n) := by
  unfold FC3_DriverDisk.parse
  repeat' (first | numbered | post_step | (intro _) | extract_lets | split)

theorem FC4_DriverDisk.parse_lineno (k : Info) (args : List Str)  (n : Nat) :
    M.Post n (FC4_DriverDisk.parse k args) (Numbered n) := by
  unfold FC4_DriverDisk.parse
  repeat' (first | numbered | post_step | (intro _) | extract_lets | split)

theorem F12_Fcoe.parse_lineno (k : Info) (args : List Str)  (n : Nat) :
    M.Post n (F12_Fcoe.parse k args) (Numbered n) := by
  unfold F12_Fcoe.parse
  repeat' (first | numbered | post_step | (intro _) | extract_lets | split)

theorem F12_Group.parse_lineno (k : Info) (args : List Str)  (n : Nat) :
    M.Post n (F12_Group.parse k args) (Numbered n) := by
  unfold F12_Group.parse
  repeat' (first | numbered | post_step | (intro _) | extract_lets | split)

theorem FC6_Iscsi.parse_lineno (k : Info) (args : List Str)  (n : Nat) :
    M.Post n (FC6_Iscsi.parse k args) (Numbered n) := by
  unfold FC6_Iscsi.parse
  repeat' (first | numbered | post_step | (intro _) | extract_lets | split)

theorem FC3_LogVol.parse_lineno (k : Info) (args : List Str)  (n : Nat) :
    M.Post n (FC3_LogVol.parse k args) (Numbered n) := by
  unfold FC3_LogVol.parse
  repeat' (first | numbered | post_step | (intro _) | extract_lets | split)

theorem RHEL6_LogVol.parse_lineno (k : Info) (args : List Str)  (n : Nat) :
    M.Post n (RHEL6_LogVol.parse k args) (Numbered n) := by
  unfold RHEL6_LogVol.parse
  repeat' (first | numbered | (with_reducible apply FC3_LogVol.parse_lineno) | post_step | (intro _) | extract_lets | split)

theorem F17_LogVol.parse_lineno (k : Info) (args : List Str)  (n : Nat) :
    M.Post n (F17_LogVol.parse k args) (Numbered n) := by
  unfold F17_LogVol.parse
  repeat' (first | numbered | (with_reducible apply FC3_LogVol.parse_lineno) | post_step | (intro _) | extract_lets | split)

theorem F20_LogVol.parse_lineno (k : Info) (args : List Str)  (n : Nat) :
    M.Post n (F20_LogVol.parse k args) (Numbered n) := by
  unfold F20_LogVol.parse
  repeat' (first | numbered | (with_reducible apply F17_LogVol.parse_lineno) | post_step | (intro _) | extract_lets | split)

theorem F21_LogVol.parse_lineno (k : Info) (args : List Str)  (n : Nat) :
    M.Post n (F21_LogVol.parse k args) (Numbered n) := by
  unfold F21_LogVol.parse
  repeat' (first | numbered | (with_reducible apply F20_LogVol.parse_lineno) | post_step | (intro _) | extract_lets | split)

theorem RHEL7_LogVol.parse_lineno (k : Info) (args : List Str)  (n : Nat) :
    M.Post n (RHEL7_LogVol.parse k args) (Numbered n) := by
  unfold RHEL7_LogVol.parse
  repeat' (first | numbered | (with_reducible apply F21_LogVol.parse_lineno) | post_step | (intro _) | extract_lets | split)

theorem F23_LogVol.parse_lineno (k : Info) (args : List Str)  (n : Nat) :
    M.Post n (F23_LogVol.parse k args) (Numbered n) := by
  unfold F23_LogVol.parse
  repeat' (first | numbered | (with_reducible apply F21_LogVol.parse_lineno) | post_step | (intro _) | extract_lets | split)

theorem F29_LogVol.parse_lineno (k : Info) (args : List Str)  (n : Nat) :
    M.Post n (F29_LogVol.parse k args) (Numbered n) := by
  unfold F29_LogVol.parse
  repeat' (first | numbered | (with_reducible apply F23_LogVol.parse_lineno) | post_step | (intro _) | extract_lets | split)

theorem RHEL8_LogVol.parse_lineno (k : Info) (args : List Str)  (n : Nat) :
    M.Post n (RHEL8_LogVol.parse k args) (Numbered n) := by
  unfold RHEL8_LogVol.parse
  repeat' (first | numbered | (with_reducible apply F29_LogVol.parse_lineno) | post_step | (intro _) | extract_lets | split)

theorem F29_Module.parse_lineno (k : Info) (args : List Str)  (n : Nat) :
    M.Post n (F29_Module.parse k args) (Numbered n) := by
  unfold F29_Module.parse
  repeat' (first | numbered | post_step | (intro _) | extract_lets | split)

theorem F27_Mount.parse_lineno (k : Info) (args : List Str)  (n : Nat) :
    M.Post n (F27_Mount.parse k args) (Numbered n) := by
  unfold F27_Mount.parse
  repeat' (first | numbered | post_step | (intro _) | extract_lets | split)

theorem FC3_Network.parse_lineno (k : Info) (args : List Str)  (n : Nat) :
    M.Post n (FC3_Network.parse k args) (Numbered n) := by
  unfold FC3_Network.parse
  repeat' (first | numbered | post_step | (intro _) | extract_lets | split)

theorem F22_Network.parse_lineno (k : Info) (args : List Str)  (n : Nat) :
    M.Post n (F22_Network.parse k args) (Numbered n) := by
  unfold F22_Network.parse
  repeat' (first | numbered | (with_reducible apply FC3_Network.parse_lineno) | post_step | (intro _) | extract_lets | split)

theorem F24_Network.parse_lineno (k : Info) (args : List Str)  (n : Nat) :
    M.Post n (F24_Network.parse k args) (Numbered n) := by
  unfold F24_Network.parse
  repeat' (first | numbered | (with_reducible apply F22_Network.parse_lineno) | post_step | (intro _) | extract_lets | split)

theorem F27_Network.parse_lineno (k : Info) (args : List Str)  (n : Nat) :
    M.Post n (F27_Network.parse k args) (Numbered n) := by
  unfold F27_Network.parse
  repeat' (first | numbered | (with_reducible apply F24_Network.parse_lineno) | post_step | (intro _) | extract_lets | split)

theorem RHEL7_Network.parse_lineno (k : Info) (args : List Str)  (n : Nat) :
    M.Post n (RHEL7_Network.parse k args) (Numbered n) := by
  unfold RHEL7_Network.parse
  repeat' (first | numbered | (with_reducible apply FC3_Network.parse_lineno) | post_step | (intro _) | extract_lets | split)

theorem F28_Nvdimm.parse_lineno (k : Info) (args : List Str)  (n : Nat) :
    M.Post n (F28_Nvdimm.parse k args) (Numbered n) := by
  unfold F28_Nvdimm.parse
  repeat' (first | numbered | post_step | (intro _) | extract_lets | split)

theorem FC3_Partition.parse_lineno (k : Info) (args : List Str)  (n : Nat) :
    M.Post n (FC3_Partition.parse k args) (Numbered n) := by
  unfold FC3_Partition.parse
  repeat' (first | numbered | post_step | (intro _) | extract_lets | split)

theorem RHEL6_Partition.parse_lineno (k : Info) (args : List Str)  (n : Nat) :
    M.Post n (RHEL6_Partition.parse k args) (Numbered n) := by
  unfold RHEL6_Partition.parse
  repeat' (first | numbered | (with_reducible apply FC3_Partition.parse_lineno) | post_step | (intro _) | extract_lets | split)

theorem F17_Partition.parse_lineno (k : Info) (args : List Str)  (n : Nat) :
    M.Post n (F17_Partition.parse k args) (Numbered n) := by
  unfold F17_Partition.parse
  repeat' (first | numbered | (with_reducible apply FC3_Partition.parse_lineno) | post_step | (intro _) | extract_lets | split)

theorem F20_Partition.parse_lineno (k : Info) (args : List Str)  (n : Nat) :
    M.Post n (F20_Partition.parse k args) (Numbered n) := by
  unfold F20_Partition.parse
  repeat' (first | numbered | (with_reducible apply F17_Partition.parse_lineno) | post_step | (intro _) | extract_lets | split)

theorem F23_Partition.parse_lineno (k : Info) (args : List Str)  (n : Nat) :
    M.Post n (F23_Partition.parse k args) (Numbered n) := by
  unfold F23_Partition.parse
  repeat' (first | numbered | (with_reducible apply F20_Partition.parse_lineno) | post_step | (intro _) | extract_lets | split)

theorem F29_Partition.parse_lineno (k : Info) (args : List Str)  (n : Nat) :
    M.Post n (F29_Partition.parse k args) (Numbered n) := by
  unfold F29_Partition.parse
  repeat' (first | numbered | (with_reducible apply F23_Partition.parse_lineno) | post_step | (intro _) | extract_lets | split)

theorem RHEL8_Partition.parse_lineno (k : Info) (args : List Str)  (n : Nat) :
    M.Post n (RHEL8_Partition.parse k args) (Numbered n) := by
  unfold RHEL8_Partition.parse
  repeat' (first | numbered | (with_reducible apply F29_Partition.parse_lineno) | post_step | (intro _) | extract_lets | split)

theorem FC3_Raid.parse_lineno (k : Info) (args : List Str)  (n : Nat) :
    M.Post n (FC3_Raid.parse k args) (Numbered n) := by
  unfold FC3_Raid.parse
  repeat' (first | numbered | post_step | (intro _) | extract_lets | split)

theorem RHEL6_Raid.parse_lineno (k : Info) (args : List Str)  (n : Nat) :
    M.Post n (RHEL6_Raid.parse k args) (Numbered n) := by
  unfold RHEL6_Raid.parse
  repeat' (first | numbered | (with_reducible apply FC3_Raid.parse_lineno) | post_step | (intro _) | extract_lets | split)

theorem F20_Raid.parse_lineno (k : Info) (args : List Str)  (n : Nat) :
    M.Post n (F20_Raid.parse k args) (Numbered n) := by
  unfold F20_Raid.parse
  repeat' (first | numbered | (with_reducible apply FC3_Raid.parse_lineno) | post_step | (intro _) | extract_lets | split)

theorem F23_Raid.parse_lineno (k : Info) (args : List Str)  (n : Nat) :
    M.Post n (F23_Raid.parse k args) (Numbered n) := by
  unfold F23_Raid.parse
  repeat' (first | numbered | (with_reducible apply F20_Raid.parse_lineno) | post_step | (intro _) | extract_lets | split)

theorem F29_Raid.parse_lineno (k : Info) (args : List Str)  (n : Nat) :
    M.Post n (F29_Raid.parse k args) (Numbered n) := by
  unfold F29_Raid.parse
  repeat' (first | numbered | (with_reducible apply F23_Raid.parse_lineno) | post_step | (intro _) | extract_lets | split)

theorem RHEL8_Raid.parse_lineno (k : Info) (args : List Str)  (n : Nat) :
    M.Post n (RHEL8_Raid.parse k args) (Numbered n) := by
  unfold RHEL8_Raid.parse
  repeat' (first | numbered | (with_reducible apply F29_Raid.parse_lineno) | post_step | (intro _) | extract_lets | split)

theorem FC6_Repo.parse_lineno (k : Info) (args : List Str)  (n : Nat) :
    M.Post n (FC6_Repo.parse k args) (Numbered n) := by
  unfold FC6_Repo.parse
  repeat' (first | numbered | post_step | (intro _) | extract_lets | split)

theorem F26_Snapshot.parse_lineno (k : Info) (args : List Str)  (n : Nat) :
    M.Post n (F26_Snapshot.parse k args) (Numbered n) := by
  unfold F26_Snapshot.parse
  repeat' (first | numbered | post_step | (intro _) | extract_lets | split)

theorem F22_SshKey.parse_lineno (k : Info) (args : List Str)  (n : Nat) :
    M.Post n (F22_SshKey.parse k args) (Numbered n) := by
  unfold F22_SshKey.parse
  repeat' (first | numbered | post_step | (intro _) | extract_lets | split)

theorem F13_SshPw.parse_lineno (k : Info) (args : List Str)  (n : Nat) :
    M.Post n (F13_SshPw.parse k args) (Numbered n) := by
  unfold F13_SshPw.parse
  repeat' (first | numbered | post_step | (intro _) | extract_lets | split)

theorem F33_Timesource.parse_lineno (k : Info) (args : List Str)  (n : Nat) :
    M.Post n (F33_Timesource.parse k args) (Numbered n) := by
  unfold F33_Timesource.parse
  repeat' (first | numbered | post_step | (intro _) | extract_lets | split)

theorem FC6_User.parse_lineno (k : Info) (args : List Str)  (n : Nat) :
    M.Post n (FC6_User.parse k args) (Numbered n) := by
  unfold FC6_User.parse
  repeat' (first | numbered | post_step | (intro _) | extract_lets | split)

theorem FC3_VolGroup.parse_lineno (k : Info) (args : List Str)  (n : Nat) :
    M.Post n (FC3_VolGroup.parse k args) (Numbered n) := by
  unfold FC3_VolGroup.parse
  repeat' (first | numbered | post_step | (intro _) | extract_lets | split)

theorem F16_VolGroup.parse_lineno (k : Info) (args : List Str)  (n : Nat) :
    M.Post n (F16_VolGroup.parse k args) (Numbered n) := by
  unfold F16_VolGroup.parse
  repeat' (first | numbered | (with_reducible apply FC3_VolGroup.parse_lineno) | post_step | (intro _) | extract_lets | split)

theorem FC3_ZFCP.parse_lineno (k : Info) (args : List Str)  (n : Nat) :
    M.Post n (FC3_ZFCP.parse k args) (Numbered n) := by
  unfold FC3_ZFCP.parse
  repeat' (first | numbered | post_step | (intro _) | extract_lets | split)

theorem lists_FC3_Authconfig : Command.Lists (FC3_Authconfig.cls) :=
  plain_lists

theorem lists_F9_AutoPart : Command.Lists (F9_AutoPart.cls) :=
  plain_lists

theorem lists_FC3_AutoStep : Command.Lists (FC3_AutoStep.cls) :=
  plain_lists

theorem lists_F8_Bootloader : Command.Lists (F8_Bootloader.cls) :=
  plain_lists

theorem lists_FC3_Cdrom : Command.Lists (FC3_Cdrom.cls) :=
  plain_lists

theorem lists_FC3_ClearPart : Command.Lists (FC3_ClearPart.cls) :=
  plain_lists

theorem lists_FC3_DisplayMode : Command.Lists (FC3_DisplayMode.cls) :=
  plain_lists

theorem lists_F8_Device_F8_DeviceData : Command.Lists (F8_Device.cls F8_DeviceData.cls) :=
  list_lists fun args n => F8_Device.parse_lineno _ args n

theorem lists_FC3_DeviceProbe : Command.Lists (FC3_DeviceProbe.cls) :=
  plain_lists

theorem lists_FC6_DmRaid_FC6_DmRaidData : Command.Lists (FC6_DmRaid.cls FC6_DmRaidData.cls) :=
  list_lists fun args n => FC6_DmRaid.parse_lineno _ args n

theorem lists_FC4_DriverDisk_FC4_DriverDiskData : Command.Lists (FC4_DriverDisk.cls FC4_DriverDiskData.cls) :=
  list_lists fun args n => FC4_DriverDisk.parse_lineno _ args n

theorem lists_F10_Firewall : Command.Lists (F10_Firewall.cls) :=
  plain_lists

theorem lists_FC3_Firstboot : Command.Lists (FC3_Firstboot.cls) :=
  plain_lists

theorem lists_FC6_Reboot : Command.Lists (FC6_Reboot.cls) :=
  plain_lists

theorem lists_FC3_HardDrive : Command.Lists (FC3_HardDrive.cls) :=
  plain_lists

theorem lists_F8_IgnoreDisk : Command.Lists (F8_IgnoreDisk.cls) :=
  plain_lists

theorem lists_FC3_Upgrade : Command.Lists (FC3_Upgrade.cls) :=
  plain_lists

theorem lists_FC3_Interactive : Command.Lists (FC3_Interactive.cls) :=
  plain_lists

theorem lists_F10_Iscsi_F10_IscsiData : Command.Lists (F10_Iscsi.cls F10_IscsiData.cls) :=
  list_lists fun args n => FC6_Iscsi.parse_lineno _ args n

theorem lists_FC6_IscsiName : Command.Lists (FC6_IscsiName.cls) :=
  plain_lists

theorem lists_FC3_Keyboard : Command.Lists (FC3_Keyboard.cls) :=
  plain_lists

theorem lists_FC3_Lang : Command.Lists (FC3_Lang.cls) :=
  plain_lists

theorem lists_FC6_Logging : Command.Lists (FC6_Logging.cls) :=
  plain_lists

theorem lists_F9_LogVol_F9_LogVolData : Command.Lists (F9_LogVol.cls F9_LogVolData.cls) :=
  list_lists fun args n => FC3_LogVol.parse_lineno _ args n

theorem lists_FC4_MediaCheck : Command.Lists (FC4_MediaCheck.cls) :=
  plain_lists

theorem lists_FC6_Method : Command.Lists (FC6_Method.cls) :=
  plain_lists

theorem lists_F10_Monitor : Command.Lists (F10_Monitor.cls) :=
  deprecated_lists

theorem lists_FC6_MultiPath_FC6_MultiPathData : Command.Lists (FC6_MultiPath.cls FC6_MultiPathData.cls) :=
  multipath_lists

theorem lists_F9_Network_F8_NetworkData : Command.Lists (F9_Network.cls F8_NetworkData.cls) :=
  list_lists fun args n => FC3_Network.parse_lineno _ args n

theorem lists_FC6_NFS : Command.Lists (FC6_NFS.cls) :=
  plain_lists

theorem lists_F9_Partition_F9_PartData : Command.Lists (F9_Partition.cls F9_PartData.cls) :=
  list_lists fun args n => FC3_Partition.parse_lineno _ args n

theorem lists_F9_Raid_F9_RaidData : Command.Lists (F9_Raid.cls F9_RaidData.cls) :=
  list_lists fun args n => FC3_Raid.parse_lineno _ args n

theorem lists_F8_Repo_F8_RepoData : Command.Lists (F8_Repo.cls F8_RepoData.cls) :=
  list_lists fun args n => FC6_Repo.parse_lineno _ args n

theorem lists_F10_Rescue : Command.Lists (F10_Rescue.cls) :=
  plain_lists

theorem lists_F8_RootPw : Command.Lists (F8_RootPw.cls) :=
  plain_lists

theorem lists_FC3_SELinux : Command.Lists (FC3_SELinux.cls) :=
  plain_lists

theorem lists_FC6_Services : Command.Lists (FC6_Services.cls) :=
  plain_lists

theorem lists_FC3_SkipX : Command.Lists (FC3_SkipX.cls) :=
  plain_lists

theorem lists_FC6_Timezone : Command.Lists (FC6_Timezone.cls) :=
  plain_lists

theorem lists_F7_Updates : Command.Lists (F7_Updates.cls) :=
  plain_lists

theorem lists_FC3_Url : Command.Lists (FC3_Url.cls) :=
  plain_lists

theorem lists_F8_User_F8_UserData : Command.Lists (F8_User.cls F8_UserData.cls) :=
  list_lists fun args n => FC6_User.parse_lineno _ args n

theorem lists_F9_Vnc : Command.Lists (F9_Vnc.cls) :=
  plain_lists

theorem lists_FC3_VolGroup_FC3_VolGroupData : Command.Lists (FC3_VolGroup.cls FC3_VolGroupData.cls) :=
  list_lists fun args n => FC3_VolGroup.parse_lineno _ args n

theorem lists_F10_XConfig : Command.Lists (F10_XConfig.cls) :=
  plain_lists

theorem lists_F9_ZeroMbr : Command.Lists (F9_ZeroMbr.cls) :=
  plain_lists

theorem lists_FC3_ZFCP_FC3_ZFCPData : Command.Lists (FC3_ZFCP.cls FC3_ZFCPData.cls) :=
  list_lists fun args n => FC3_ZFCP.parse_lineno _ args n

theorem lists_F11_Upgrade : Command.Lists (F11_Upgrade.cls) :=
  plain_lists

theorem lists_F11_Partition_F11_PartData : Command.Lists (F11_Partition.cls F11_PartData.cls) :=
  list_lists fun args n => FC3_Partition.parse_lineno _ args n

theorem lists_F11_Repo_F11_RepoData : Command.Lists (F11_Repo.cls F11_RepoData.cls) :=
  list_lists fun args n => FC6_Repo.parse_lineno _ args n

theorem lists_F12_AutoPart : Command.Lists (F12_AutoPart.cls) :=
  plain_lists

theorem lists_F12_Bootloader : Command.Lists (F12_Bootloader.cls) :=
  plain_lists

theorem lists_F12_DriverDisk_F12_DriverDiskData : Command.Lists (F12_DriverDisk.cls F12_DriverDiskData.cls) :=
  list_lists fun args n => FC4_DriverDisk.parse_lineno _ args n

theorem lists_F12_Fcoe_F12_FcoeData : Command.Lists (F12_Fcoe.cls F12_FcoeData.cls) :=
  list_lists fun args n => F12_Fcoe.parse_lineno _ args n

theorem lists_F12_Group_F12_GroupData : Command.Lists (F12_Group.cls F12_GroupData.cls) :=
  list_lists fun args n => F12_Group.parse_lineno _ args n

theorem lists_F12_LogVol_F12_LogVolData : Command.Lists (F12_LogVol.cls F12_LogVolData.cls) :=
  list_lists fun args n => FC3_LogVol.parse_lineno _ args n

theorem lists_F12_Partition_F12_PartData : Command.Lists (F12_Partition.cls F12_PartData.cls) :=
  list_lists fun args n => FC3_Partition.parse_lineno _ args n

theorem lists_F12_Raid_F12_RaidData : Command.Lists (F12_Raid.cls F12_RaidData.cls) :=
  list_lists fun args n => FC3_Raid.parse_lineno _ args n

theorem lists_F12_User_F12_UserData : Command.Lists (F12_User.cls F12_UserData.cls) :=
  list_lists fun args n => FC6_User.parse_lineno _ args n

theorem lists_F12_ZFCP_F12_ZFCPData : Command.Lists (F12_ZFCP.cls F12_ZFCPData.cls) :=
  list_lists fun args n => FC3_ZFCP.parse_lineno _ args n

theorem lists_F13_Fcoe_F13_FcoeData : Command.Lists (F13_Fcoe.cls F13_FcoeData.cls) :=
  list_lists fun args n => F12_Fcoe.parse_lineno _ args n

theorem lists_F13_Method : Command.Lists (F13_Method.cls) :=
  plain_lists

theorem lists_F13_Raid_F13_RaidData : Command.Lists (F13_Raid.cls F13_RaidData.cls) :=
  list_lists fun args n => FC3_Raid.parse_lineno _ args n

theorem lists_F13_Repo_F13_RepoData : Command.Lists (F13_Repo.cls F13_RepoData.cls) :=
  list_lists fun args n => FC6_Repo.parse_lineno _ args n

theorem lists_F13_SshPw_F13_SshPwData : Command.Lists (F13_SshPw.cls F13_SshPwData.cls) :=
  list_lists fun args n => F13_SshPw.parse_lineno _ args n

theorem lists_F13_Url : Command.Lists (F13_Url.cls) :=
  plain_lists

theorem lists_F14_Bootloader : Command.Lists (F14_Bootloader.cls) :=
  plain_lists

theorem lists_F14_DriverDisk_F14_DriverDiskData : Command.Lists (F14_DriverDisk.cls F14_DriverDiskData.cls) :=
  list_lists fun args n => FC4_DriverDisk.parse_lineno _ args n

theorem lists_F14_Firewall : Command.Lists (F14_Firewall.cls) :=
  plain_lists

theorem lists_F14_IgnoreDisk : Command.Lists (F14_IgnoreDisk.cls) :=
  plain_lists

theorem lists_F14_Interactive : Command.Lists (F14_Interactive.cls) :=
  deprecated_lists

theorem lists_F14_LogVol_F14_LogVolData : Command.Lists (F14_LogVol.cls F14_LogVolData.cls) :=
  list_lists fun args n => FC3_LogVol.parse_lineno _ args n

theorem lists_F14_Method : Command.Lists (F14_Method.cls) :=
  plain_lists

theorem lists_F14_Partition_F14_PartData : Command.Lists (F14_Partition.cls F14_PartData.cls) :=
  list_lists fun args n => FC3_Partition.parse_lineno _ args n

theorem lists_F14_Raid_F14_RaidData : Command.Lists (F14_Raid.cls F14_RaidData.cls) :=
  list_lists fun args n => FC3_Raid.parse_lineno _ args n

theorem lists_F14_Repo_F14_RepoData : Command.Lists (F14_Repo.cls F14_RepoData.cls) :=
  list_lists fun args n => FC6_Repo.parse_lineno _ args n

theorem lists_F14_Url : Command.Lists (F14_Url.cls) :=
  plain_lists

theorem lists_F14_XConfig : Command.Lists (F14_XConfig.cls) :=
  plain_lists

theorem lists_F14_ZFCP_F14_ZFCPData : Command.Lists (F14_ZFCP.cls F14_ZFCPData.cls) :=
  list_lists fun args n => FC3_ZFCP.parse_lineno _ args n

theorem lists_F15_Bootloader : Command.Lists (F15_Bootloader.cls) :=
  plain_lists

theorem lists_F15_Interactive : Command.Lists (F15_Interactive.cls) :=
  removed_lists

theorem lists_F15_LogVol_F15_LogVolData : Command.Lists (F15_LogVol.cls F15_LogVolData.cls) :=
  list_lists fun args n => FC3_LogVol.parse_lineno _ args n

theorem lists_F15_Raid_F15_RaidData : Command.Lists (F15_Raid.cls F15_RaidData.cls) :=
  list_lists fun args n => FC3_Raid.parse_lineno _ args n

theorem lists_F15_Repo_F15_RepoData : Command.Lists (F15_Repo.cls F15_RepoData.cls) :=
  list_lists fun args n => FC6_Repo.parse_lineno _ args n

theorem lists_F16_AutoPart : Command.Lists (F16_AutoPart.cls) :=
  plain_lists

theorem lists_F15_LogVol_F17_LogVolData : Command.Lists (F15_LogVol.cls F17_LogVolData.cls) :=
  list_lists fun args n => FC3_LogVol.parse_lineno _ args n

theorem lists_F16_Network_F16_NetworkData : Command.Lists (F16_Network.cls F16_NetworkData.cls) :=
  list_lists fun args n => FC3_Network.parse_lineno _ args n

theorem lists_F14_Partition_F17_PartData : Command.Lists (F14_Partition.cls F17_PartData.cls) :=
  list_lists fun args n => FC3_Partition.parse_lineno _ args n

theorem lists_F16_VolGroup_F16_VolGroupData : Command.Lists (F16_VolGroup.cls F16_VolGroupData.cls) :=
  list_lists fun args n => F16_VolGroup.parse_lineno _ args n

theorem lists_F17_AutoPart : Command.Lists (F17_AutoPart.cls) :=
  plain_lists

theorem lists_F17_Bootloader : Command.Lists (F17_Bootloader.cls) :=
  plain_lists

theorem lists_F17_BTRFS_F17_BTRFSData : Command.Lists (F17_BTRFS.cls F17_BTRFSData.cls) :=
  list_lists fun args n => F17_BTRFS.parse_lineno _ args n

theorem lists_F17_ClearPart : Command.Lists (F17_ClearPart.cls) :=
  plain_lists

theorem lists_F17_Iscsi_F17_IscsiData : Command.Lists (F17_Iscsi.cls F17_IscsiData.cls) :=
  list_lists fun args n => FC6_Iscsi.parse_lineno _ args n

theorem lists_F17_LogVol_F17_LogVolData : Command.Lists (F17_LogVol.cls F17_LogVolData.cls) :=
  list_lists fun args n => F17_LogVol.parse_lineno _ args n

theorem lists_F17_Partition_F17_PartData : Command.Lists (F17_Partition.cls F17_PartData.cls) :=
  list_lists fun args n => F17_Partition.parse_lineno _ args n

theorem lists_F18_AutoPart : Command.Lists (F18_AutoPart.cls) :=
  plain_lists

theorem lists_F18_Bootloader : Command.Lists (F18_Bootloader.cls) :=
  plain_lists

theorem lists_F13_Fcoe_RHEL7_FcoeData : Command.Lists (F13_Fcoe.cls RHEL7_FcoeData.cls) :=
  list_lists fun args n => F12_Fcoe.parse_lineno _ args n

theorem lists_F18_Reboot : Command.Lists (F18_Reboot.cls) :=
  plain_lists

theorem lists_F18_Keyboard : Command.Lists (F18_Keyboard.cls) :=
  plain_lists

theorem lists_F18_LogVol_F18_LogVolData : Command.Lists (F18_LogVol.cls F18_LogVolData.cls) :=
  list_lists fun args n => F17_LogVol.parse_lineno _ args n

theorem lists_F18_Method : Command.Lists (F18_Method.cls) :=
  plain_lists

theorem lists_F18_Monitor : Command.Lists (F18_Monitor.cls) :=
  removed_lists

theorem lists_F18_Network_F16_NetworkData : Command.Lists (F18_Network.cls F16_NetworkData.cls) :=
  list_lists fun args n => FC3_Network.parse_lineno _ args n

theorem lists_F18_Partition_F18_PartData : Command.Lists (F18_Partition.cls F18_PartData.cls) :=
  list_lists fun args n => F17_Partition.parse_lineno _ args n

theorem lists_F18_Raid_F18_RaidData : Command.Lists (F18_Raid.cls F18_RaidData.cls) :=
  list_lists fun args n => FC3_Raid.parse_lineno _ args n

theorem lists_F18_RootPw : Command.Lists (F18_RootPw.cls) :=
  plain_lists

theorem lists_F18_Timezone : Command.Lists (F18_Timezone.cls) :=
  plain_lists

theorem lists_F18_Url : Command.Lists (F18_Url.cls) :=
  plain_lists

theorem lists_F19_Bootloader : Command.Lists (F19_Bootloader.cls) :=
  plain_lists

theorem lists_F19_Lang : Command.Lists (F19_Lang.cls) :=
  plain_lists

theorem lists_F19_Liveimg : Command.Lists (F19_Liveimg.cls) :=
  plain_lists

theorem lists_F18_LogVol_F20_LogVolData : Command.Lists (F18_LogVol.cls F20_LogVolData.cls) :=
  list_lists fun args n => F17_LogVol.parse_lineno _ args n

theorem lists_F19_Method : Command.Lists (F19_Method.cls) :=
  plain_lists

theorem lists_F19_Network_F19_NetworkData : Command.Lists (F19_Network.cls F19_NetworkData.cls) :=
  list_lists fun args n => FC3_Network.parse_lineno _ args n

theorem lists_F19_Raid_F18_RaidData : Command.Lists (F19_Raid.cls F18_RaidData.cls) :=
  list_lists fun args n => FC3_Raid.parse_lineno _ args n

theorem lists_F19_Realm : Command.Lists (F19_Realm.cls) :=
  plain_lists

theorem lists_F19_User_F19_UserData : Command.Lists (F19_User.cls F19_UserData.cls) :=
  list_lists fun args n => FC6_User.parse_lineno _ args n

theorem lists_F20_AutoPart : Command.Lists (F20_AutoPart.cls) :=
  plain_lists

theorem lists_F20_Eula : Command.Lists (F20_Eula.cls) :=
  plain_lists

theorem lists_F20_Firewall : Command.Lists (F20_Firewall.cls) :=
  plain_lists

theorem lists_F20_Install : Command.Lists (F20_Install.cls) :=
  plain_lists

theorem lists_F20_LogVol_F20_LogVolData : Command.Lists (F20_LogVol.cls F20_LogVolData.cls) :=
  list_lists fun args n => F20_LogVol.parse_lineno _ args n

theorem lists_F20_Network_F20_NetworkData : Command.Lists (F20_Network.cls F20_NetworkData.cls) :=
  list_lists fun args n => FC3_Network.parse_lineno _ args n

theorem lists_F20_Partition_F18_PartData : Command.Lists (F20_Partition.cls F18_PartData.cls) :=
  list_lists fun args n => F20_Partition.parse_lineno _ args n

theorem lists_F20_Raid_F18_RaidData : Command.Lists (F20_Raid.cls F18_RaidData.cls) :=
  list_lists fun args n => F20_Raid.parse_lineno _ args n

theorem lists_F20_Upgrade : Command.Lists (F20_Upgrade.cls) :=
  deprecated_lists

theorem lists_F21_AutoPart : Command.Lists (F21_AutoPart.cls) :=
  plain_lists

theorem lists_F21_Bootloader : Command.Lists (F21_Bootloader.cls) :=
  plain_lists

theorem lists_F21_ClearPart : Command.Lists (F21_ClearPart.cls) :=
  plain_lists

theorem lists_F21_LogVol_F21_LogVolData : Command.Lists (F21_LogVol.cls F21_LogVolData.cls) :=
  list_lists fun args n => F21_LogVol.parse_lineno _ args n

theorem lists_F21_Network_F21_NetworkData : Command.Lists (F21_Network.cls F21_NetworkData.cls) :=
  list_lists fun args n => FC3_Network.parse_lineno _ args n

theorem lists_F21_OSTreeSetup : Command.Lists (F21_OSTreeSetup.cls) :=
  plain_lists

theorem lists_F21_Repo_F21_RepoData : Command.Lists (F21_Repo.cls F21_RepoData.cls) :=
  list_lists fun args n => FC6_Repo.parse_lineno _ args n

theorem lists_F21_VolGroup_F21_VolGroupData : Command.Lists (F21_VolGroup.cls F21_VolGroupData.cls) :=
  list_lists fun args n => F16_VolGroup.parse_lineno _ args n

theorem lists_F22_Network_F22_NetworkData : Command.Lists (F22_Network.cls F22_NetworkData.cls) :=
  list_lists fun args n => F22_Network.parse_lineno _ args n

theorem lists_F22_SshKey_F22_SshKeyData : Command.Lists (F22_SshKey.cls F22_SshKeyData.cls) :=
  list_lists fun args n => F22_SshKey.parse_lineno _ args n

theorem lists_F23_AutoPart : Command.Lists (F23_AutoPart.cls) :=
  plain_lists

theorem lists_F23_BTRFS_F23_BTRFSData : Command.Lists (F23_BTRFS.cls F23_BTRFSData.cls) :=
  list_lists fun args n => F23_BTRFS.parse_lineno _ args n

theorem lists_F23_Reboot : Command.Lists (F23_Reboot.cls) :=
  plain_lists

theorem lists_F23_LogVol_F23_LogVolData : Command.Lists (F23_LogVol.cls F23_LogVolData.cls) :=
  list_lists fun args n => F23_LogVol.parse_lineno _ args n

theorem lists_F23_Partition_F23_PartData : Command.Lists (F23_Partition.cls F23_PartData.cls) :=
  list_lists fun args n => F23_Partition.parse_lineno _ args n

theorem lists_F23_Raid_F23_RaidData : Command.Lists (F23_Raid.cls F23_RaidData.cls) :=
  list_lists fun args n => F23_Raid.parse_lineno _ args n

theorem lists_F23_ReqPart : Command.Lists (F23_ReqPart.cls) :=
  plain_lists

theorem lists_F23_Timezone : Command.Lists (F23_Timezone.cls) :=
  plain_lists

theorem lists_F24_Device : Command.Lists (F24_Device.cls) :=
  deprecated_lists

theorem lists_F24_DmRaid : Command.Lists (F24_DmRaid.cls) :=
  deprecated_lists

theorem lists_F24_MultiPath : Command.Lists (F24_MultiPath.cls) :=
  deprecated_lists

theorem lists_F24_Network_F22_NetworkData : Command.Lists (F24_Network.cls F22_NetworkData.cls) :=
  list_lists fun args n => F24_Network.parse_lineno _ args n

theorem lists_F24_SshPw_F24_SshPwData : Command.Lists (F24_SshPw.cls F24_SshPwData.cls) :=
  list_lists fun args n => F13_SshPw.parse_lineno _ args n

theorem lists_F24_User_F19_UserData : Command.Lists (F24_User.cls F19_UserData.cls) :=
  list_lists fun args n => FC6_User.parse_lineno _ args n

theorem lists_F25_Network_F25_NetworkData : Command.Lists (F25_Network.cls F25_NetworkData.cls) :=
  list_lists fun args n => F24_Network.parse_lineno _ args n

theorem lists_F25_Raid_F25_RaidData : Command.Lists (F25_Raid.cls F25_RaidData.cls) :=
  list_lists fun args n => F23_Raid.parse_lineno _ args n

theorem lists_F25_Timezone : Command.Lists (F25_Timezone.cls) :=
  plain_lists

theorem lists_F26_AutoPart : Command.Lists (F26_AutoPart.cls) :=
  plain_lists

theorem lists_F26_DisplayMode : Command.Lists (F26_DisplayMode.cls) :=
  plain_lists

theorem lists_F26_Snapshot_F26_SnapshotData : Command.Lists (F26_Snapshot.cls F26_SnapshotData.cls) :=
  list_lists fun args n => F26_Snapshot.parse_lineno _ args n

theorem lists_F27_Mount_F27_MountData : Command.Lists (F27_Mount.cls F27_MountData.cls) :=
  list_lists fun args n => F27_Mount.parse_lineno _ args n

theorem lists_F27_Network_F27_NetworkData : Command.Lists (F27_Network.cls F27_NetworkData.cls) :=
  list_lists fun args n => F27_Network.parse_lineno _ args n

theorem lists_F27_Repo_F27_RepoData : Command.Lists (F27_Repo.cls F27_RepoData.cls) :=
  list_lists fun args n => FC6_Repo.parse_lineno _ args n

theorem lists_F27_Url : Command.Lists (F27_Url.cls) :=
  plain_lists

theorem lists_F28_Authconfig : Command.Lists (F28_Authconfig.cls) :=
  plain_lists

theorem lists_F28_Authselect : Command.Lists (F28_Authselect.cls) :=
  plain_lists

theorem lists_F28_ClearPart : Command.Lists (F28_ClearPart.cls) :=
  plain_lists

theorem lists_F28_Fcoe_F28_FcoeData : Command.Lists (F28_Fcoe.cls F28_FcoeData.cls) :=
  list_lists fun args n => F12_Fcoe.parse_lineno _ args n

theorem lists_F28_Firewall : Command.Lists (F28_Firewall.cls) :=
  plain_lists

theorem lists_F28_Hmc : Command.Lists (F28_Hmc.cls) :=
  plain_lists

theorem lists_F28_Method : Command.Lists (F28_Method.cls) :=
  plain_lists

theorem lists_F28_Nvdimm_F28_NvdimmData : Command.Lists (F28_Nvdimm.cls F28_NvdimmData.cls) :=
  list_lists fun args n => F28_Nvdimm.parse_lineno _ args n

theorem lists_F29_AutoPart : Command.Lists (F29_AutoPart.cls) :=
  plain_lists

theorem lists_F29_Bootloader : Command.Lists (F29_Bootloader.cls) :=
  plain_lists

theorem lists_F29_DeviceProbe : Command.Lists (F29_DeviceProbe.cls) :=
  deprecated_lists

theorem lists_F29_Module_F29_ModuleData : Command.Lists (F29_Module.cls F29_ModuleData.cls) :=
  list_lists fun args n => F29_Module.parse_lineno _ args n

theorem lists_F29_IgnoreDisk : Command.Lists (F29_IgnoreDisk.cls) :=
  plain_lists

theorem lists_F29_Install : Command.Lists (F29_Install.cls) :=
  deprecated_lists

theorem lists_F29_LogVol_F29_LogVolData : Command.Lists (F29_LogVol.cls F29_LogVolData.cls) :=
  list_lists fun args n => F29_LogVol.parse_lineno _ args n

theorem lists_F29_Partition_F29_PartData : Command.Lists (F29_Partition.cls F29_PartData.cls) :=
  list_lists fun args n => F29_Partition.parse_lineno _ args n

theorem lists_F29_Raid_F29_RaidData : Command.Lists (F29_Raid.cls F29_RaidData.cls) :=
  list_lists fun args n => F29_Raid.parse_lineno _ args n

theorem lists_F29_Upgrade : Command.Lists (F29_Upgrade.cls) :=
  removed_lists

theorem lists_F30_Repo_F30_RepoData : Command.Lists (F30_Repo.cls F30_RepoData.cls) :=
  list_lists fun args n => FC6_Repo.parse_lineno _ args n

theorem lists_F30_Url : Command.Lists (F30_Url.cls) :=
  plain_lists

theorem lists_F31_Module_F31_ModuleData : Command.Lists (F31_Module.cls F31_ModuleData.cls) :=
  list_lists fun args n => F29_Module.parse_lineno _ args n

theorem lists_F32_Timezone : Command.Lists (F32_Timezone.cls) :=
  plain_lists

theorem lists_F32_Zipl : Command.Lists (F32_Zipl.cls) :=
  plain_lists

theorem lists_F33_HardDrive : Command.Lists (F33_HardDrive.cls) :=
  plain_lists

theorem lists_F33_Timesource_F33_TimesourceData : Command.Lists (F33_Timesource.cls F33_TimesourceData.cls) :=
  list_lists fun args n => F33_Timesource.parse_lineno _ args n

theorem lists_F33_Repo_F30_RepoData : Command.Lists (F33_Repo.cls F30_RepoData.cls) :=
  list_lists fun args n => FC6_Repo.parse_lineno _ args n

theorem lists_F33_Timezone : Command.Lists (F33_Timezone.cls) :=
  plain_lists

theorem lists_F34_AutoStep : Command.Lists (F34_AutoStep.cls) :=
  deprecated_lists

theorem lists_F34_Bootloader : Command.Lists (F34_Bootloader.cls) :=
  plain_lists

theorem lists_F34_Device : Command.Lists (F34_Device.cls) :=
  removed_lists

theorem lists_F34_DeviceProbe : Command.Lists (F34_DeviceProbe.cls) :=
  removed_lists

theorem lists_F34_DmRaid : Command.Lists (F34_DmRaid.cls) :=
  removed_lists

theorem lists_F34_IgnoreDisk : Command.Lists (F34_IgnoreDisk.cls) :=
  plain_lists

theorem lists_F34_Install : Command.Lists (F34_Install.cls) :=
  removed_lists

theorem lists_F34_Logging : Command.Lists (F34_Logging.cls) :=
  plain_lists

theorem lists_F34_Method : Command.Lists (F34_Method.cls) :=
  deprecated_lists

theorem lists_F34_MultiPath : Command.Lists (F34_MultiPath.cls) :=
  removed_lists

theorem lists_F34_Partition_F29_PartData : Command.Lists (F34_Partition.cls F29_PartData.cls) :=
  list_lists fun args n => F29_Partition.parse_lineno _ args n

theorem lists_F34_Updates : Command.Lists (F34_Updates.cls) :=
  plain_lists

theorem lists_FC3_AutoPart : Command.Lists (FC3_AutoPart.cls) :=
  plain_lists

theorem lists_FC4_Bootloader : Command.Lists (FC4_Bootloader.cls) :=
  plain_lists

theorem lists_FC3_Device : Command.Lists (FC3_Device.cls) :=
  plain_lists

theorem lists_FC3_Firewall : Command.Lists (FC3_Firewall.cls) :=
  plain_lists

theorem lists_FC3_IgnoreDisk : Command.Lists (FC3_IgnoreDisk.cls) :=
  plain_lists

theorem lists_FC6_Iscsi_FC6_IscsiData : Command.Lists (FC6_Iscsi.cls FC6_IscsiData.cls) :=
  list_lists fun args n => FC6_Iscsi.parse_lineno _ args n

theorem lists_F7_LangSupport : Command.Lists (F7_LangSupport.cls) :=
  removed_lists

theorem lists_FC4_LogVol_FC4_LogVolData : Command.Lists (FC4_LogVol.cls FC4_LogVolData.cls) :=
  list_lists fun args n => FC3_LogVol.parse_lineno _ args n

theorem lists_FC6_Monitor : Command.Lists (FC6_Monitor.cls) :=
  plain_lists

theorem lists_F7_Mouse : Command.Lists (F7_Mouse.cls) :=
  removed_lists

theorem lists_FC6_Network_FC6_NetworkData : Command.Lists (FC6_Network.cls FC6_NetworkData.cls) :=
  list_lists fun args n => FC3_Network.parse_lineno _ args n

theorem lists_FC4_Partition_FC4_PartData : Command.Lists (FC4_Partition.cls FC4_PartData.cls) :=
  list_lists fun args n => FC3_Partition.parse_lineno _ args n

theorem lists_F7_Raid_F7_RaidData : Command.Lists (F7_Raid.cls F7_RaidData.cls) :=
  list_lists fun args n => FC3_Raid.parse_lineno _ args n

theorem lists_FC6_Repo_FC6_RepoData : Command.Lists (FC6_Repo.cls FC6_RepoData.cls) :=
  list_lists fun args n => FC6_Repo.parse_lineno _ args n

theorem lists_FC3_RootPw : Command.Lists (FC3_RootPw.cls) :=
  plain_lists

theorem lists_FC6_User_FC6_UserData : Command.Lists (FC6_User.cls FC6_UserData.cls) :=
  list_lists fun args n => FC6_User.parse_lineno _ args n

theorem lists_FC6_Vnc : Command.Lists (FC6_Vnc.cls) :=
  plain_lists

theorem lists_FC6_XConfig : Command.Lists (FC6_XConfig.cls) :=
  plain_lists

theorem lists_FC3_ZeroMbr : Command.Lists (FC3_ZeroMbr.cls) :=
  plain_lists

theorem lists_F8_Network_F8_NetworkData : Command.Lists (F8_Network.cls F8_NetworkData.cls) :=
  list_lists fun args n => FC3_Network.parse_lineno _ args n

theorem lists_F9_Firewall : Command.Lists (F9_Firewall.cls) :=
  plain_lists

theorem lists_F9_XConfig : Command.Lists (F9_XConfig.cls) :=
  plain_lists

theorem lists_FC3_Bootloader : Command.Lists (FC3_Bootloader.cls) :=
  plain_lists

theorem lists_FC3_DriverDisk_FC3_DriverDiskData : Command.Lists (FC3_DriverDisk.cls FC3_DriverDiskData.cls) :=
  list_lists fun args n => FC3_DriverDisk.parse_lineno _ args n

theorem lists_FC3_Reboot : Command.Lists (FC3_Reboot.cls) :=
  plain_lists

theorem lists_FC3_LangSupport : Command.Lists (FC3_LangSupport.cls) :=
  plain_lists

theorem lists_FC3_Lilo : Command.Lists (FC3_Lilo.cls) :=
  plain_lists

theorem lists_FC3_LiloCheck : Command.Lists (FC3_LiloCheck.cls) :=
  plain_lists

theorem lists_FC3_LogVol_FC3_LogVolData : Command.Lists (FC3_LogVol.cls FC3_LogVolData.cls) :=
  list_lists fun args n => FC3_LogVol.parse_lineno _ args n

theorem lists_FC3_Method : Command.Lists (FC3_Method.cls) :=
  plain_lists

theorem lists_FC3_Monitor : Command.Lists (FC3_Monitor.cls) :=
  plain_lists

theorem lists_FC3_Mouse : Command.Lists (FC3_Mouse.cls) :=
  deprecated_lists

theorem lists_FC3_Network_FC3_NetworkData : Command.Lists (FC3_Network.cls FC3_NetworkData.cls) :=
  list_lists fun args n => FC3_Network.parse_lineno _ args n

theorem lists_FC3_NFS : Command.Lists (FC3_NFS.cls) :=
  plain_lists

theorem lists_FC3_Partition_FC3_PartData : Command.Lists (FC3_Partition.cls FC3_PartData.cls) :=
  list_lists fun args n => FC3_Partition.parse_lineno _ args n

theorem lists_FC3_Raid_FC3_RaidData : Command.Lists (FC3_Raid.cls FC3_RaidData.cls) :=
  list_lists fun args n => FC3_Raid.parse_lineno _ args n

theorem lists_FC3_Timezone : Command.Lists (FC3_Timezone.cls) :=
  plain_lists

theorem lists_FC3_Vnc : Command.Lists (FC3_Vnc.cls) :=
  plain_lists

theorem lists_FC3_XConfig : Command.Lists (FC3_XConfig.cls) :=
  plain_lists

theorem lists_FC4_Lilo : Command.Lists (FC4_Lilo.cls) :=
  removed_lists

theorem lists_FC4_LiloCheck : Command.Lists (FC4_LiloCheck.cls) :=
  removed_lists

theorem lists_FC4_Network_FC4_NetworkData : Command.Lists (FC4_Network.cls FC4_NetworkData.cls) :=
  list_lists fun args n => FC3_Network.parse_lineno _ args n

theorem lists_FC4_Raid_FC4_RaidData : Command.Lists (FC4_Raid.cls FC4_RaidData.cls) :=
  list_lists fun args n => FC3_Raid.parse_lineno _ args n

theorem lists_FC5_LangSupport : Command.Lists (FC5_LangSupport.cls) :=
  deprecated_lists

theorem lists_FC5_Raid_FC5_RaidData : Command.Lists (FC5_Raid.cls FC5_RaidData.cls) :=
  list_lists fun args n => FC3_Raid.parse_lineno _ args n

theorem lists_RHEL3_Mouse : Command.Lists (RHEL3_Mouse.cls) :=
  plain_lists

theorem lists_FC3_Network_RHEL4_NetworkData : Command.Lists (FC3_Network.cls RHEL4_NetworkData.cls) :=
  list_lists fun args n => FC3_Network.parse_lineno _ args n

theorem lists_RHEL4_Network_RHEL4_NetworkData : Command.Lists (RHEL4_Network.cls RHEL4_NetworkData.cls) :=
  list_lists fun args n => FC3_Network.parse_lineno _ args n

theorem lists_RHEL5_Bootloader : Command.Lists (RHEL5_Bootloader.cls) :=
  plain_lists

theorem lists_RHEL5_Key : Command.Lists (RHEL5_Key.cls) :=
  plain_lists

theorem lists_RHEL5_LogVol_RHEL5_LogVolData : Command.Lists (RHEL5_LogVol.cls RHEL5_LogVolData.cls) :=
  list_lists fun args n => FC3_LogVol.parse_lineno _ args n

theorem lists_RHEL5_Network_FC6_NetworkData : Command.Lists (RHEL5_Network.cls FC6_NetworkData.cls) :=
  list_lists fun args n => FC3_Network.parse_lineno _ args n

theorem lists_RHEL5_Partition_RHEL5_PartData : Command.Lists (RHEL5_Partition.cls RHEL5_PartData.cls) :=
  list_lists fun args n => FC3_Partition.parse_lineno _ args n

theorem lists_RHEL5_Raid_RHEL5_RaidData : Command.Lists (RHEL5_Raid.cls RHEL5_RaidData.cls) :=
  list_lists fun args n => FC3_Raid.parse_lineno _ args n

theorem lists_RHEL6_AutoPart : Command.Lists (RHEL6_AutoPart.cls) :=
  plain_lists

theorem lists_RHEL6_Bootloader : Command.Lists (RHEL6_Bootloader.cls) :=
  plain_lists

theorem lists_RHEL6_IgnoreDisk : Command.Lists (RHEL6_IgnoreDisk.cls) :=
  plain_lists

theorem lists_RHEL6_Iscsi_RHEL6_IscsiData : Command.Lists (RHEL6_Iscsi.cls RHEL6_IscsiData.cls) :=
  list_lists fun args n => FC6_Iscsi.parse_lineno _ args n

theorem lists_RHEL6_LogVol_RHEL6_LogVolData : Command.Lists (RHEL6_LogVol.cls RHEL6_LogVolData.cls) :=
  list_lists fun args n => RHEL6_LogVol.parse_lineno _ args n

theorem lists_RHEL6_Method : Command.Lists (RHEL6_Method.cls) :=
  plain_lists

theorem lists_RHEL6_Network_RHEL6_NetworkData : Command.Lists (RHEL6_Network.cls RHEL6_NetworkData.cls) :=
  list_lists fun args n => FC3_Network.parse_lineno _ args n

theorem lists_RHEL6_Partition_RHEL6_PartData : Command.Lists (RHEL6_Partition.cls RHEL6_PartData.cls) :=
  list_lists fun args n => RHEL6_Partition.parse_lineno _ args n

theorem lists_RHEL6_Raid_RHEL6_RaidData : Command.Lists (RHEL6_Raid.cls RHEL6_RaidData.cls) :=
  list_lists fun args n => RHEL6_Raid.parse_lineno _ args n

theorem lists_RHEL6_Repo_RHEL6_RepoData : Command.Lists (RHEL6_Repo.cls RHEL6_RepoData.cls) :=
  list_lists fun args n => FC6_Repo.parse_lineno _ args n

theorem lists_RHEL6_UnsupportedHardware : Command.Lists (RHEL6_UnsupportedHardware.cls) :=
  plain_lists

theorem lists_RHEL6_Url : Command.Lists (RHEL6_Url.cls) :=
  plain_lists

theorem lists_RHEL7_AutoPart : Command.Lists (RHEL7_AutoPart.cls) :=
  plain_lists

theorem lists_RHEL7_Bootloader : Command.Lists (RHEL7_Bootloader.cls) :=
  plain_lists

theorem lists_RHEL7_BTRFS_RHEL7_BTRFSData : Command.Lists (RHEL7_BTRFS.cls RHEL7_BTRFSData.cls) :=
  list_lists fun args n => F23_BTRFS.parse_lineno _ args n

theorem lists_RHEL7_ClearPart : Command.Lists (RHEL7_ClearPart.cls) :=
  plain_lists

theorem lists_RHEL7_Fcoe_RHEL7_FcoeData : Command.Lists (RHEL7_Fcoe.cls RHEL7_FcoeData.cls) :=
  list_lists fun args n => F12_Fcoe.parse_lineno _ args n

theorem lists_RHEL7_Hmc : Command.Lists (RHEL7_Hmc.cls) :=
  plain_lists

theorem lists_RHEL7_LogVol_RHEL7_LogVolData : Command.Lists (RHEL7_LogVol.cls RHEL7_LogVolData.cls) :=
  list_lists fun args n => RHEL7_LogVol.parse_lineno _ args n

theorem lists_RHEL7_Method : Command.Lists (RHEL7_Method.cls) :=
  plain_lists

theorem lists_RHEL7_Network_RHEL7_NetworkData : Command.Lists (RHEL7_Network.cls RHEL7_NetworkData.cls) :=
  list_lists fun args n => RHEL7_Network.parse_lineno _ args n

theorem lists_RHEL7_OSTreeSetup : Command.Lists (RHEL7_OSTreeSetup.cls) :=
  plain_lists

theorem lists_RHEL7_Partition_RHEL7_PartData : Command.Lists (RHEL7_Partition.cls RHEL7_PartData.cls) :=
  list_lists fun args n => F23_Partition.parse_lineno _ args n

theorem lists_RHEL7_Raid_RHEL7_RaidData : Command.Lists (RHEL7_Raid.cls RHEL7_RaidData.cls) :=
  list_lists fun args n => F23_Raid.parse_lineno _ args n

theorem lists_RHEL7_Repo_RHEL7_RepoData : Command.Lists (RHEL7_Repo.cls RHEL7_RepoData.cls) :=
  list_lists fun args n => FC6_Repo.parse_lineno _ args n

theorem lists_RHEL7_ReqPart : Command.Lists (RHEL7_ReqPart.cls) :=
  plain_lists

theorem lists_RHEL7_Timezone : Command.Lists (RHEL7_Timezone.cls) :=
  plain_lists

theorem lists_RHEL7_VolGroup_RHEL7_VolGroupData : Command.Lists (RHEL7_VolGroup.cls RHEL7_VolGroupData.cls) :=
  list_lists fun args n => F16_VolGroup.parse_lineno _ args n

theorem lists_RHEL8_AutoPart : Command.Lists (RHEL8_AutoPart.cls) :=
  plain_lists

theorem lists_RHEL8_Bootloader : Command.Lists (RHEL8_Bootloader.cls) :=
  plain_lists

theorem lists_RHEL8_BTRFS : Command.Lists (RHEL8_BTRFS.cls) :=
  deprecated_lists

theorem lists_RHEL8_Module_RHEL8_ModuleData : Command.Lists (RHEL8_Module.cls RHEL8_ModuleData.cls) :=
  list_lists fun args n => F29_Module.parse_lineno _ args n

theorem lists_RHEL8_Fcoe_RHEL8_FcoeData : Command.Lists (RHEL8_Fcoe.cls RHEL8_FcoeData.cls) :=
  list_lists fun args n => F12_Fcoe.parse_lineno _ args n

theorem lists_RHEL8_LogVol_RHEL8_LogVolData : Command.Lists (RHEL8_LogVol.cls RHEL8_LogVolData.cls) :=
  list_lists fun args n => RHEL8_LogVol.parse_lineno _ args n

theorem lists_RHEL8_OSTreeSetup : Command.Lists (RHEL8_OSTreeSetup.cls) :=
  plain_lists

theorem lists_RHEL8_Partition_RHEL8_PartData : Command.Lists (RHEL8_Partition.cls RHEL8_PartData.cls) :=
  list_lists fun args n => RHEL8_Partition.parse_lineno _ args n

theorem lists_RHEL8_Raid_RHEL8_RaidData : Command.Lists (RHEL8_Raid.cls RHEL8_RaidData.cls) :=
  list_lists fun args n => RHEL8_Raid.parse_lineno _ args n

theorem lists_RHEL8_Repo_RHEL8_RepoData : Command.Lists (RHEL8_Repo.cls RHEL8_RepoData.cls) :=
  list_lists fun args n => FC6_Repo.parse_lineno _ args n

theorem lists_RHEL8_RHSM : Command.Lists (RHEL8_RHSM.cls) :=
  plain_lists

theorem lists_RHEL8_Syspurpose : Command.Lists (RHEL8_Syspurpose.cls) :=
  plain_lists

theorem lists_RHEL8_Url : Command.Lists (RHEL8_Url.cls) :=
  plain_lists

theorem lists_RHEL8_VolGroup_RHEL8_VolGroupData : Command.Lists (RHEL8_VolGroup.cls RHEL8_VolGroupData.cls) :=
  list_lists fun args n => F16_VolGroup.parse_lineno _ args n

theorem lists_RHEL8_Zipl : Command.Lists (RHEL8_Zipl.cls) :=
  plain_lists

theorem commandMapF10_lists : ∀ x ∈ commandMapF10, Command.Lists x.2 := by
  unfold commandMapF10
  exact (all_cons lists_FC3_Authconfig
    (all_cons lists_FC3_Authconfig
    (all_cons lists_F9_AutoPart
    (all_cons lists_FC3_AutoStep
    (all_cons lists_F8_Bootloader
    (all_cons lists_FC3_Cdrom
    (all_cons lists_FC3_ClearPart
    (all_cons lists_FC3_DisplayMode
    (all_cons lists_F8_Device_F8_DeviceData
    (all_cons lists_FC3_DeviceProbe
    (all_cons lists_FC6_DmRaid_FC6_DmRaidData
    (all_cons lists_FC4_DriverDisk_FC4_DriverDiskData
    (all_cons lists_F10_Firewall
    (all_cons lists_FC3_Firstboot
    (all_cons lists_FC3_DisplayMode
    (all_cons lists_FC6_Reboot
    (all_cons lists_FC3_HardDrive
    (all_cons lists_F8_IgnoreDisk
    (all_cons lists_FC3_Upgrade
    (all_cons lists_FC3_Interactive
    (all_cons lists_F10_Iscsi_F10_IscsiData
    (all_cons lists_FC6_IscsiName
    (all_cons lists_FC3_Keyboard
    (all_cons lists_FC3_Lang
    (all_cons lists_FC6_Logging
    (all_cons lists_F9_LogVol_F9_LogVolData
    (all_cons lists_FC4_MediaCheck
    (all_cons lists_FC6_Method
    (all_cons lists_F10_Monitor
    (all_cons lists_FC6_MultiPath_FC6_MultiPathData
    (all_cons lists_F9_Network_F8_NetworkData
    (all_cons lists_FC6_NFS
    (all_cons lists_F9_Partition_F9_PartData
    (all_cons lists_F9_Partition_F9_PartData
    (all_cons lists_FC6_Reboot
    (all_cons lists_F9_Raid_F9_RaidData
    (all_cons lists_FC6_Reboot
    (all_cons lists_F8_Repo_F8_RepoData
    (all_cons lists_F10_Rescue
    (all_cons lists_F8_RootPw
    (all_cons lists_FC3_SELinux
    (all_cons lists_FC6_Services
    (all_cons lists_FC6_Reboot
    (all_cons lists_FC3_SkipX
    (all_cons lists_FC3_DisplayMode
    (all_cons lists_FC6_Timezone
    (all_cons lists_F7_Updates
    (all_cons lists_FC3_Upgrade
    (all_cons lists_FC3_Url
    (all_cons lists_F8_User_F8_UserData
    (all_cons lists_F9_Vnc
    (all_cons lists_FC3_VolGroup_FC3_VolGroupData
    (all_cons lists_F10_XConfig
    (all_cons lists_F9_ZeroMbr
    (all_cons lists_FC3_ZFCP_FC3_ZFCPData (List.forall_mem_nil _))))))))))))))))))))))))))))))))))))))))))))))))))))))))

theorem commandMapF11_lists : ∀ x ∈ commandMapF11, Command.Lists x.2 := by
  unfold commandMapF11
  exact (all_cons lists_FC3_Authconfig
    (all_cons lists_FC3_Authconfig
    (all_cons lists_F9_AutoPart
    (all_cons lists_FC3_AutoStep
    (all_cons lists_F8_Bootloader
    (all_cons lists_FC3_Cdrom
    (all_cons lists_FC3_ClearPart
    (all_cons lists_FC3_DisplayMode
    (all_cons lists_F8_Device_F8_DeviceData
    (all_cons lists_FC3_DeviceProbe
    (all_cons lists_FC6_DmRaid_FC6_DmRaidData
    (all_cons lists_FC4_DriverDisk_FC4_DriverDiskData
    (all_cons lists_F10_Firewall
    (all_cons lists_FC3_Firstboot
    (all_cons lists_FC3_DisplayMode
    (all_cons lists_FC6_Reboot
    (all_cons lists_FC3_HardDrive
    (all_cons lists_F8_IgnoreDisk
    (all_cons lists_F11_Upgrade
    (all_cons lists_FC3_Interactive
    (all_cons lists_F10_Iscsi_F10_IscsiData
    (all_cons lists_FC6_IscsiName
    (all_cons lists_FC3_Keyboard
    (all_cons lists_FC3_Lang
    (all_cons lists_FC6_Logging
    (all_cons lists_F9_LogVol_F9_LogVolData
    (all_cons lists_FC4_MediaCheck
    (all_cons lists_FC6_Method
    (all_cons lists_F10_Monitor
    (all_cons lists_FC6_MultiPath_FC6_MultiPathData
    (all_cons lists_F9_Network_F8_NetworkData
    (all_cons lists_FC6_NFS
    (all_cons lists_F11_Partition_F11_PartData
    (all_cons lists_F11_Partition_F11_PartData
    (all_cons lists_FC6_Reboot
    (all_cons lists_F9_Raid_F9_RaidData
    (all_cons lists_FC6_Reboot
    (all_cons lists_F11_Repo_F11_RepoData
    (all_cons lists_F10_Rescue
    (all_cons lists_F8_RootPw
    (all_cons lists_FC3_SELinux
    (all_cons lists_FC6_Services
    (all_cons lists_FC6_Reboot
    (all_cons lists_FC3_SkipX
    (all_cons lists_FC3_DisplayMode
    (all_cons lists_FC6_Timezone
    (all_cons lists_F7_Updates
    (all_cons lists_F11_Upgrade
    (all_cons lists_FC3_Url
    (all_cons lists_F8_User_F8_UserData
    (all_cons lists_F9_Vnc
    (all_cons lists_FC3_VolGroup_FC3_VolGroupData
    (all_cons lists_F10_XConfig
    (all_cons lists_F9_ZeroMbr
    (all_cons lists_FC3_ZFCP_FC3_ZFCPData (List.forall_mem_nil _))))))))))))))))))))))))))))))))))))))))))))))))))))))))

theorem commandMapF12_lists : ∀ x ∈ commandMapF12, Command.Lists x.2 := by
  unfold commandMapF12
  exact (all_cons lists_FC3_Authconfig
    (all_cons lists_FC3_Authconfig
    (all_cons lists_F12_AutoPart
    (all_cons lists_FC3_AutoStep
    (all_cons lists_F12_Bootloader
    (all_cons lists_FC3_Cdrom
    (all_cons lists_FC3_ClearPart
    (all_cons lists_FC3_DisplayMode
    (all_cons lists_F8_Device_F8_DeviceData
    (all_cons lists_FC3_DeviceProbe
    (all_cons lists_FC6_DmRaid_FC6_DmRaidData
    (all_cons lists_F12_DriverDisk_F12_DriverDiskData
    (all_cons lists_F12_Fcoe_F12_FcoeData
    (all_cons lists_F10_Firewall
    (all_cons lists_FC3_Firstboot
    (all_cons lists_FC3_DisplayMode
    (all_cons lists_F12_Group_F12_GroupData
    (all_cons lists_FC6_Reboot
    (all_cons lists_FC3_HardDrive
    (all_cons lists_F8_IgnoreDisk
    (all_cons lists_F11_Upgrade
    (all_cons lists_FC3_Interactive
    (all_cons lists_F10_Iscsi_F10_IscsiData
    (all_cons lists_FC6_IscsiName
    (all_cons lists_FC3_Keyboard
    (all_cons lists_FC3_Lang
    (all_cons lists_FC6_Logging
    (all_cons lists_F12_LogVol_F12_LogVolData
    (all_cons lists_FC4_MediaCheck
    (all_cons lists_FC6_Method
    (all_cons lists_F10_Monitor
    (all_cons lists_FC6_MultiPath_FC6_MultiPathData
    (all_cons lists_F9_Network_F8_NetworkData
    (all_cons lists_FC6_NFS
    (all_cons lists_F12_Partition_F12_PartData
    (all_cons lists_F12_Partition_F12_PartData
    (all_cons lists_FC6_Reboot
    (all_cons lists_F12_Raid_F12_RaidData
    (all_cons lists_FC6_Reboot
    (all_cons lists_F11_Repo_F11_RepoData
    (all_cons lists_F10_Rescue
    (all_cons lists_F8_RootPw
    (all_cons lists_FC3_SELinux
    (all_cons lists_FC6_Services
    (all_cons lists_FC6_Reboot
    (all_cons lists_FC3_SkipX
    (all_cons lists_FC3_DisplayMode
    (all_cons lists_FC6_Timezone
    (all_cons lists_F7_Updates
    (all_cons lists_F11_Upgrade
    (all_cons lists_FC3_Url
    (all_cons lists_F12_User_F12_UserData
    (all_cons lists_F9_Vnc
    (all_cons lists_FC3_VolGroup_FC3_VolGroupData
    (all_cons lists_F10_XConfig
    (all_cons lists_F9_ZeroMbr
    (all_cons lists_F12_ZFCP_F12_ZFCPData (List.forall_mem_nil _))))))))))))))))))))))))))))))))))))))))))))))))))))))))))

theorem commandMapF13_lists : ∀ x ∈ commandMapF13, Command.Lists x.2 := by
  unfold commandMapF13
  exact (all_cons lists_FC3_Authconfig
    (all_cons lists_FC3_Authconfig
    (all_cons lists_F12_AutoPart
    (all_cons lists_FC3_AutoStep
    (all_cons lists_F12_Bootloader
    (all_cons lists_FC3_Cdrom
    (all_cons lists_FC3_ClearPart
    (all_cons lists_FC3_DisplayMode
    (all_cons lists_F8_Device_F8_DeviceData
    (all_cons lists_FC3_DeviceProbe
    (all_cons lists_FC6_DmRaid_FC6_DmRaidData
    (all_cons lists_F12_DriverDisk_F12_DriverDiskData
    (all_cons lists_F13_Fcoe_F13_FcoeData
    (all_cons lists_F10_Firewall
    (all_cons lists_FC3_Firstboot
    (all_cons lists_FC3_DisplayMode
    (all_cons lists_F12_Group_F12_GroupData
    (all_cons lists_FC6_Reboot
    (all_cons lists_FC3_HardDrive
    (all_cons lists_F8_IgnoreDisk
    (all_cons lists_F11_Upgrade
    (all_cons lists_FC3_Interactive
    (all_cons lists_F10_Iscsi_F10_IscsiData
    (all_cons lists_FC6_IscsiName
    (all_cons lists_FC3_Keyboard
    (all_cons lists_FC3_Lang
    (all_cons lists_FC6_Logging
    (all_cons lists_F12_LogVol_F12_LogVolData
    (all_cons lists_FC4_MediaCheck
    (all_cons lists_F13_Method
    (all_cons lists_F10_Monitor
    (all_cons lists_FC6_MultiPath_FC6_MultiPathData
    (all_cons lists_F9_Network_F8_NetworkData
    (all_cons lists_FC6_NFS
    (all_cons lists_F12_Partition_F12_PartData
    (all_cons lists_F12_Partition_F12_PartData
    (all_cons lists_FC6_Reboot
    (all_cons lists_F13_Raid_F13_RaidData
    (all_cons lists_FC6_Reboot
    (all_cons lists_F13_Repo_F13_RepoData
    (all_cons lists_F10_Rescue
    (all_cons lists_F8_RootPw
    (all_cons lists_FC3_SELinux
    (all_cons lists_FC6_Services
    (all_cons lists_FC6_Reboot
    (all_cons lists_FC3_SkipX
    (all_cons lists_F13_SshPw_F13_SshPwData
    (all_cons lists_FC3_DisplayMode
    (all_cons lists_FC6_Timezone
    (all_cons lists_F7_Updates
    (all_cons lists_F11_Upgrade
    (all_cons lists_F13_Url
    (all_cons lists_F12_User_F12_UserData
    (all_cons lists_F9_Vnc
    (all_cons lists_FC3_VolGroup_FC3_VolGroupData
    (all_cons lists_F10_XConfig
    (all_cons lists_F9_ZeroMbr
    (all_cons lists_F12_ZFCP_F12_ZFCPData (List.forall_mem_nil _)))))))))))))))))))))))))))))))))))))))))))))))))))))))))))

theorem commandMapF14_lists : ∀ x ∈ commandMapF14, Command.Lists x.2 := by
  unfold commandMapF14
  exact (all_cons lists_FC3_Authconfig
    (all_cons lists_FC3_Authconfig
    (all_cons lists_F12_AutoPart
    (all_cons lists_FC3_AutoStep
    (all_cons lists_F14_Bootloader
    (all_cons lists_FC3_Cdrom
    (all_cons lists_FC3_ClearPart
    (all_cons lists_FC3_DisplayMode
    (all_cons lists_F8_Device_F8_DeviceData
    (all_cons lists_FC3_DeviceProbe
    (all_cons lists_FC6_DmRaid_FC6_DmRaidData
    (all_cons lists_F14_DriverDisk_F14_DriverDiskData
    (all_cons lists_F13_Fcoe_F13_FcoeData
    (all_cons lists_F14_Firewall
    (all_cons lists_FC3_Firstboot
    (all_cons lists_FC3_DisplayMode
    (all_cons lists_F12_Group_F12_GroupData
    (all_cons lists_FC6_Reboot
    (all_cons lists_FC3_HardDrive
    (all_cons lists_F14_IgnoreDisk
    (all_cons lists_F11_Upgrade
    (all_cons lists_F14_Interactive
    (all_cons lists_F10_Iscsi_F10_IscsiData
    (all_cons lists_FC6_IscsiName
    (all_cons lists_FC3_Keyboard
    (all_cons lists_FC3_Lang
    (all_cons lists_FC6_Logging
    (all_cons lists_F14_LogVol_F14_LogVolData
    (all_cons lists_FC4_MediaCheck
    (all_cons lists_F14_Method
    (all_cons lists_F10_Monitor
    (all_cons lists_FC6_MultiPath_FC6_MultiPathData
    (all_cons lists_F9_Network_F8_NetworkData
    (all_cons lists_FC6_NFS
    (all_cons lists_F14_Partition_F14_PartData
    (all_cons lists_F14_Partition_F14_PartData
    (all_cons lists_FC6_Reboot
    (all_cons lists_F14_Raid_F14_RaidData
    (all_cons lists_FC6_Reboot
    (all_cons lists_F14_Repo_F14_RepoData
    (all_cons lists_F10_Rescue
    (all_cons lists_F8_RootPw
    (all_cons lists_FC3_SELinux
    (all_cons lists_FC6_Services
    (all_cons lists_FC6_Reboot
    (all_cons lists_FC3_SkipX
    (all_cons lists_F13_SshPw_F13_SshPwData
    (all_cons lists_FC3_DisplayMode
    (all_cons lists_FC6_Timezone
    (all_cons lists_F7_Updates
    (all_cons lists_F11_Upgrade
    (all_cons lists_F14_Url
    (all_cons lists_F12_User_F12_UserData
    (all_cons lists_F9_Vnc
    (all_cons lists_FC3_VolGroup_FC3_VolGroupData
    (all_cons lists_F14_XConfig
    (all_cons lists_F9_ZeroMbr
    (all_cons lists_F14_ZFCP_F14_ZFCPData (List.forall_mem_nil _)))))))))))))))))))))))))))))))))))))))))))))))))))))))))))

theorem commandMapF15_lists : ∀ x ∈ commandMapF15, Command.Lists x.2 := by
  unfold commandMapF15
  exact (all_cons lists_FC3_Authconfig
    (all_cons lists_FC3_Authconfig
    (all_cons lists_F12_AutoPart
    (all_cons lists_FC3_AutoStep
    (all_cons lists_F15_Bootloader
    (all_cons lists_FC3_Cdrom
    (all_cons lists_FC3_ClearPart
    (all_cons lists_FC3_DisplayMode
    (all_cons lists_F8_Device_F8_DeviceData
    (all_cons lists_FC3_DeviceProbe
    (all_cons lists_FC6_DmRaid_FC6_DmRaidData
    (all_cons lists_F14_DriverDisk_F14_DriverDiskData
    (all_cons lists_F13_Fcoe_F13_FcoeData
    (all_cons lists_F14_Firewall
    (all_cons lists_FC3_Firstboot
    (all_cons lists_FC3_DisplayMode
    (all_cons lists_F12_Group_F12_GroupData
    (all_cons lists_FC6_Reboot
    (all_cons lists_FC3_HardDrive
    (all_cons lists_F14_IgnoreDisk
    (all_cons lists_F11_Upgrade
    (all_cons lists_F15_Interactive
    (all_cons lists_F10_Iscsi_F10_IscsiData
    (all_cons lists_FC6_IscsiName
    (all_cons lists_FC3_Keyboard
    (all_cons lists_FC3_Lang
    (all_cons lists_FC6_Logging
    (all_cons lists_F15_LogVol_F15_LogVolData
    (all_cons lists_FC4_MediaCheck
    (all_cons lists_F14_Method
    (all_cons lists_F10_Monitor
    (all_cons lists_FC6_MultiPath_FC6_MultiPathData
    (all_cons lists_F9_Network_F8_NetworkData
    (all_cons lists_FC6_NFS
    (all_cons lists_F14_Partition_F14_PartData
    (all_cons lists_F14_Partition_F14_PartData
    (all_cons lists_FC6_Reboot
    (all_cons lists_F15_Raid_F15_RaidData
    (all_cons lists_FC6_Reboot
    (all_cons lists_F15_Repo_F15_RepoData
    (all_cons lists_F10_Rescue
    (all_cons lists_F8_RootPw
    (all_cons lists_FC3_SELinux
    (all_cons lists_FC6_Services
    (all_cons lists_FC6_Reboot
    (all_cons lists_FC3_SkipX
    (all_cons lists_F13_SshPw_F13_SshPwData
    (all_cons lists_FC3_DisplayMode
    (all_cons lists_FC6_Timezone
    (all_cons lists_F7_Updates
    (all_cons lists_F11_Upgrade
    (all_cons lists_F14_Url
    (all_cons lists_F12_User_F12_UserData
    (all_cons lists_F9_Vnc
    (all_cons lists_FC3_VolGroup_FC3_VolGroupData
    (all_cons lists_F14_XConfig
    (all_cons lists_F9_ZeroMbr
    (all_cons lists_F14_ZFCP_F14_ZFCPData (List.forall_mem_nil _)))))))))))))))))))))))))))))))))))))))))))))))))))))))))))

theorem commandMapF16_lists : ∀ x ∈ commandMapF16, Command.Lists x.2 := by
  unfold commandMapF16
  exact (all_cons lists_FC3_Authconfig
    (all_cons lists_FC3_Authconfig
    (all_cons lists_F16_AutoPart
    (all_cons lists_FC3_AutoStep
    (all_cons lists_F15_Bootloader
    (all_cons lists_FC3_Cdrom
    (all_cons lists_FC3_ClearPart
    (all_cons lists_FC3_DisplayMode
    (all_cons lists_F8_Device_F8_DeviceData
    (all_cons lists_FC3_DeviceProbe
    (all_cons lists_FC6_DmRaid_FC6_DmRaidData
    (all_cons lists_F14_DriverDisk_F14_DriverDiskData
    (all_cons lists_F13_Fcoe_F13_FcoeData
    (all_cons lists_F14_Firewall
    (all_cons lists_FC3_Firstboot
    (all_cons lists_FC3_DisplayMode
    (all_cons lists_F12_Group_F12_GroupData
    (all_cons lists_FC6_Reboot
    (all_cons lists_FC3_HardDrive
    (all_cons lists_F14_IgnoreDisk
    (all_cons lists_F11_Upgrade
    (all_cons lists_F10_Iscsi_F10_IscsiData
    (all_cons lists_FC6_IscsiName
    (all_cons lists_FC3_Keyboard
    (all_cons lists_FC3_Lang
    (all_cons lists_FC6_Logging
    (all_cons lists_F15_LogVol_F17_LogVolData
    (all_cons lists_FC4_MediaCheck
    (all_cons lists_F14_Method
    (all_cons lists_F10_Monitor
    (all_cons lists_FC6_MultiPath_FC6_MultiPathData
    (all_cons lists_F16_Network_F16_NetworkData
    (all_cons lists_FC6_NFS
    (all_cons lists_F14_Partition_F17_PartData
    (all_cons lists_F14_Partition_F17_PartData
    (all_cons lists_FC6_Reboot
    (all_cons lists_F15_Raid_F15_RaidData
    (all_cons lists_FC6_Reboot
    (all_cons lists_F15_Repo_F15_RepoData
    (all_cons lists_F10_Rescue
    (all_cons lists_F8_RootPw
    (all_cons lists_FC3_SELinux
    (all_cons lists_FC6_Services
    (all_cons lists_FC6_Reboot
    (all_cons lists_FC3_SkipX
    (all_cons lists_F13_SshPw_F13_SshPwData
    (all_cons lists_FC3_DisplayMode
    (all_cons lists_FC6_Timezone
    (all_cons lists_F7_Updates
    (all_cons lists_F11_Upgrade
    (all_cons lists_F14_Url
    (all_cons lists_F12_User_F12_UserData
    (all_cons lists_F9_Vnc
    (all_cons lists_F16_VolGroup_F16_VolGroupData
    (all_cons lists_F14_XConfig
    (all_cons lists_F9_ZeroMbr
    (all_cons lists_F14_ZFCP_F14_ZFCPData (List.forall_mem_nil _))))))))))))))))))))))))))))))))))))))))))))))))))))))))))

theorem commandMapF17_lists : ∀ x ∈ commandMapF17, Command.Lists x.2 := by
  unfold commandMapF17
  exact (all_cons lists_FC3_Authconfig
    (all_cons lists_FC3_Authconfig
    (all_cons lists_F17_AutoPart
    (all_cons lists_FC3_AutoStep
    (all_cons lists_F17_Bootloader
    (all_cons lists_F17_BTRFS_F17_BTRFSData
    (all_cons lists_FC3_Cdrom
    (all_cons lists_F17_ClearPart
    (all_cons lists_FC3_DisplayMode
    (all_cons lists_F8_Device_F8_DeviceData
    (all_cons lists_FC3_DeviceProbe
    (all_cons lists_FC6_DmRaid_FC6_DmRaidData
    (all_cons lists_F14_DriverDisk_F14_DriverDiskData
    (all_cons lists_F13_Fcoe_F13_FcoeData
    (all_cons lists_F14_Firewall
    (all_cons lists_FC3_Firstboot
    (all_cons lists_FC3_DisplayMode
    (all_cons lists_F12_Group_F12_GroupData
    (all_cons lists_FC6_Reboot
    (all_cons lists_FC3_HardDrive
    (all_cons lists_F14_IgnoreDisk
    (all_cons lists_F11_Upgrade
    (all_cons lists_F17_Iscsi_F17_IscsiData
    (all_cons lists_FC6_IscsiName
    (all_cons lists_FC3_Keyboard
    (all_cons lists_FC3_Lang
    (all_cons lists_FC6_Logging
    (all_cons lists_F17_LogVol_F17_LogVolData
    (all_cons lists_FC4_MediaCheck
    (all_cons lists_F14_Method
    (all_cons lists_F10_Monitor
    (all_cons lists_FC6_MultiPath_FC6_MultiPathData
    (all_cons lists_F16_Network_F16_NetworkData
    (all_cons lists_FC6_NFS
    (all_cons lists_F17_Partition_F17_PartData
    (all_cons lists_F17_Partition_F17_PartData
    (all_cons lists_FC6_Reboot
    (all_cons lists_F15_Raid_F15_RaidData
    (all_cons lists_FC6_Reboot
    (all_cons lists_F15_Repo_F15_RepoData
    (all_cons lists_F10_Rescue
    (all_cons lists_F8_RootPw
    (all_cons lists_FC3_SELinux
    (all_cons lists_FC6_Services
    (all_cons lists_FC6_Reboot
    (all_cons lists_FC3_SkipX
    (all_cons lists_F13_SshPw_F13_SshPwData
    (all_cons lists_FC3_DisplayMode
    (all_cons lists_FC6_Timezone
    (all_cons lists_F7_Updates
    (all_cons lists_F11_Upgrade
    (all_cons lists_F14_Url
    (all_cons lists_F12_User_F12_UserData
    (all_cons lists_F9_Vnc
    (all_cons lists_F16_VolGroup_F16_VolGroupData
    (all_cons lists_F14_XConfig
    (all_cons lists_F9_ZeroMbr
    (all_cons lists_F14_ZFCP_F14_ZFCPData (List.forall_mem_nil _)))))))))))))))))))))))))))))))))))))))))))))))))))))))))))

theorem commandMapF18_lists : ∀ x ∈ commandMapF18, Command.Lists x.2 := by
  unfold commandMapF18
  exact (all_cons lists_FC3_Authconfig
    (all_cons lists_FC3_Authconfig
    (all_cons lists_F18_AutoPart
    (all_cons lists_FC3_AutoStep
    (all_cons lists_F18_Bootloader
    (all_cons lists_F17_BTRFS_F17_BTRFSData
    (all_cons lists_FC3_Cdrom
    (all_cons lists_F17_ClearPart
    (all_cons lists_FC3_DisplayMode
    (all_cons lists_F8_Device_F8_DeviceData
    (all_cons lists_FC3_DeviceProbe
    (all_cons lists_FC6_DmRaid_FC6_DmRaidData
    (all_cons lists_F14_DriverDisk_F14_DriverDiskData
    (all_cons lists_F13_Fcoe_RHEL7_FcoeData
    (all_cons lists_F14_Firewall
    (all_cons lists_FC3_Firstboot
    (all_cons lists_FC3_DisplayMode
    (all_cons lists_F12_Group_F12_GroupData
    (all_cons lists_F18_Reboot
    (all_cons lists_FC3_HardDrive
    (all_cons lists_F14_IgnoreDisk
    (all_cons lists_F11_Upgrade
    (all_cons lists_F17_Iscsi_F17_IscsiData
    (all_cons lists_FC6_IscsiName
    (all_cons lists_F18_Keyboard
    (all_cons lists_FC3_Lang
    (all_cons lists_FC6_Logging
    (all_cons lists_F18_LogVol_F18_LogVolData
    (all_cons lists_FC4_MediaCheck
    (all_cons lists_F18_Method
    (all_cons lists_F18_Monitor
    (all_cons lists_FC6_MultiPath_FC6_MultiPathData
    (all_cons lists_F18_Network_F16_NetworkData
    (all_cons lists_FC6_NFS
    (all_cons lists_F18_Partition_F18_PartData
    (all_cons lists_F18_Partition_F18_PartData
    (all_cons lists_F18_Reboot
    (all_cons lists_F18_Raid_F18_RaidData
    (all_cons lists_F18_Reboot
    (all_cons lists_F15_Repo_F15_RepoData
    (all_cons lists_F10_Rescue
    (all_cons lists_F18_RootPw
    (all_cons lists_FC3_SELinux
    (all_cons lists_FC6_Services
    (all_cons lists_F18_Reboot
    (all_cons lists_FC3_SkipX
    (all_cons lists_F13_SshPw_F13_SshPwData
    (all_cons lists_FC3_DisplayMode
    (all_cons lists_F18_Timezone
    (all_cons lists_F7_Updates
    (all_cons lists_F11_Upgrade
    (all_cons lists_F18_Url
    (all_cons lists_F12_User_F12_UserData
    (all_cons lists_F9_Vnc
    (all_cons lists_F16_VolGroup_F16_VolGroupData
    (all_cons lists_F14_XConfig
    (all_cons lists_F9_ZeroMbr
    (all_cons lists_F14_ZFCP_F14_ZFCPData (List.forall_mem_nil _)))))))))))))))))))))))))))))))))))))))))))))))))))))))))))

theorem commandMapF19_lists : ∀ x ∈ commandMapF19, Command.Lists x.2 := by
  unfold commandMapF19
  exact (all_cons lists_FC3_Authconfig
    (all_cons lists_FC3_Authconfig
    (all_cons lists_F18_AutoPart
    (all_cons lists_FC3_AutoStep
    (all_cons lists_F19_Bootloader
    (all_cons lists_F17_BTRFS_F17_BTRFSData
    (all_cons lists_FC3_Cdrom
    (all_cons lists_F17_ClearPart
    (all_cons lists_FC3_DisplayMode
    (all_cons lists_F8_Device_F8_DeviceData
    (all_cons lists_FC3_DeviceProbe
    (all_cons lists_FC6_DmRaid_FC6_DmRaidData
    (all_cons lists_F14_DriverDisk_F14_DriverDiskData
    (all_cons lists_F13_Fcoe_F13_FcoeData
    (all_cons lists_F14_Firewall
    (all_cons lists_FC3_Firstboot
    (all_cons lists_FC3_DisplayMode
    (all_cons lists_F12_Group_F12_GroupData
    (all_cons lists_F18_Reboot
    (all_cons lists_FC3_HardDrive
    (all_cons lists_F14_IgnoreDisk
    (all_cons lists_F11_Upgrade
    (all_cons lists_F17_Iscsi_F17_IscsiData
    (all_cons lists_FC6_IscsiName
    (all_cons lists_F18_Keyboard
    (all_cons lists_F19_Lang
    (all_cons lists_F19_Liveimg
    (all_cons lists_FC6_Logging
    (all_cons lists_F18_LogVol_F20_LogVolData
    (all_cons lists_FC4_MediaCheck
    (all_cons lists_F19_Method
    (all_cons lists_FC6_MultiPath_FC6_MultiPathData
    (all_cons lists_F19_Network_F19_NetworkData
    (all_cons lists_FC6_NFS
    (all_cons lists_F18_Partition_F18_PartData
    (all_cons lists_F18_Partition_F18_PartData
    (all_cons lists_F18_Reboot
    (all_cons lists_F19_Raid_F18_RaidData
    (all_cons lists_F19_Realm
    (all_cons lists_F18_Reboot
    (all_cons lists_F15_Repo_F15_RepoData
    (all_cons lists_F10_Rescue
    (all_cons lists_F18_RootPw
    (all_cons lists_FC3_SELinux
    (all_cons lists_FC6_Services
    (all_cons lists_F18_Reboot
    (all_cons lists_FC3_SkipX
    (all_cons lists_F13_SshPw_F13_SshPwData
    (all_cons lists_FC3_DisplayMode
    (all_cons lists_F18_Timezone
    (all_cons lists_F7_Updates
    (all_cons lists_F11_Upgrade
    (all_cons lists_F18_Url
    (all_cons lists_F19_User_F19_UserData
    (all_cons lists_F9_Vnc
    (all_cons lists_F16_VolGroup_F16_VolGroupData
    (all_cons lists_F14_XConfig
    (all_cons lists_F9_ZeroMbr
    (all_cons lists_F14_ZFCP_F14_ZFCPData (List.forall_mem_nil _))))))))))))))))))))))))))))))))))))))))))))))))))))))))))))

theorem commandMapF20_lists : ∀ x ∈ commandMapF20, Command.Lists x.2 := by
  unfold commandMapF20
  exact (all_cons lists_FC3_Authconfig
    (all_cons lists_FC3_Authconfig
    (all_cons lists_F20_AutoPart
    (all_cons lists_FC3_AutoStep
    (all_cons lists_F19_Bootloader
    (all_cons lists_F17_BTRFS_F17_BTRFSData
    (all_cons lists_FC3_Cdrom
    (all_cons lists_F17_ClearPart
    (all_cons lists_FC3_DisplayMode
    (all_cons lists_F8_Device_F8_DeviceData
    (all_cons lists_FC3_DeviceProbe
    (all_cons lists_FC6_DmRaid_FC6_DmRaidData
    (all_cons lists_F14_DriverDisk_F14_DriverDiskData
    (all_cons lists_F20_Eula
    (all_cons lists_F13_Fcoe_F13_FcoeData
    (all_cons lists_F20_Firewall
    (all_cons lists_FC3_Firstboot
    (all_cons lists_FC3_DisplayMode
    (all_cons lists_F12_Group_F12_GroupData
    (all_cons lists_F18_Reboot
    (all_cons lists_FC3_HardDrive
    (all_cons lists_F14_IgnoreDisk
    (all_cons lists_F20_Install
    (all_cons lists_F17_Iscsi_F17_IscsiData
    (all_cons lists_FC6_IscsiName
    (all_cons lists_F18_Keyboard
    (all_cons lists_F19_Lang
    (all_cons lists_F19_Liveimg
    (all_cons lists_FC6_Logging
    (all_cons lists_F20_LogVol_F20_LogVolData
    (all_cons lists_FC4_MediaCheck
    (all_cons lists_F19_Method
    (all_cons lists_FC6_MultiPath_FC6_MultiPathData
    (all_cons lists_F20_Network_F20_NetworkData
    (all_cons lists_FC6_NFS
    (all_cons lists_F20_Partition_F18_PartData
    (all_cons lists_F20_Partition_F18_PartData
    (all_cons lists_F18_Reboot
    (all_cons lists_F20_Raid_F18_RaidData
    (all_cons lists_F19_Realm
    (all_cons lists_F18_Reboot
    (all_cons lists_F15_Repo_F15_RepoData
    (all_cons lists_F10_Rescue
    (all_cons lists_F18_RootPw
    (all_cons lists_FC3_SELinux
    (all_cons lists_FC6_Services
    (all_cons lists_F18_Reboot
    (all_cons lists_FC3_SkipX
    (all_cons lists_F13_SshPw_F13_SshPwData
    (all_cons lists_FC3_DisplayMode
    (all_cons lists_F18_Timezone
    (all_cons lists_F7_Updates
    (all_cons lists_F20_Upgrade
    (all_cons lists_F18_Url
    (all_cons lists_F19_User_F19_UserData
    (all_cons lists_F9_Vnc
    (all_cons lists_F16_VolGroup_F16_VolGroupData
    (all_cons lists_F14_XConfig
    (all_cons lists_F9_ZeroMbr
    (all_cons lists_F14_ZFCP_F14_ZFCPData (List.forall_mem_nil _)))))))))))))))))))))))))))))))))))))))))))))))))))))))))))))

theorem commandMapF21_lists : ∀ x ∈ commandMapF21, Command.Lists x.2 := by
  unfold commandMapF21
  exact (all_cons lists_FC3_Authconfig
    (all_cons lists_FC3_Authconfig
    (all_cons lists_F21_AutoPart
    (all_cons lists_FC3_AutoStep
    (all_cons lists_F21_Bootloader
    (all_cons lists_F17_BTRFS_F17_BTRFSData
    (all_cons lists_FC3_Cdrom
    (all_cons lists_F21_ClearPart
    (all_cons lists_FC3_DisplayMode
    (all_cons lists_F8_Device_F8_DeviceData
    (all_cons lists_FC3_DeviceProbe
    (all_cons lists_FC6_DmRaid_FC6_DmRaidData
    (all_cons lists_F14_DriverDisk_F14_DriverDiskData
    (all_cons lists_F20_Eula
    (all_cons lists_F13_Fcoe_F13_FcoeData
    (all_cons lists_F20_Firewall
    (all_cons lists_FC3_Firstboot
    (all_cons lists_FC3_DisplayMode
    (all_cons lists_F12_Group_F12_GroupData
    (all_cons lists_F18_Reboot
    (all_cons lists_FC3_HardDrive
    (all_cons lists_F14_IgnoreDisk
    (all_cons lists_F20_Install
    (all_cons lists_F17_Iscsi_F17_IscsiData
    (all_cons lists_FC6_IscsiName
    (all_cons lists_F18_Keyboard
    (all_cons lists_F19_Lang
    (all_cons lists_F19_Liveimg
    (all_cons lists_FC6_Logging
    (all_cons lists_F21_LogVol_F21_LogVolData
    (all_cons lists_FC4_MediaCheck
    (all_cons lists_F19_Method
    (all_cons lists_FC6_MultiPath_FC6_MultiPathData
    (all_cons lists_F21_Network_F21_NetworkData
    (all_cons lists_FC6_NFS
    (all_cons lists_F21_OSTreeSetup
    (all_cons lists_F20_Partition_F18_PartData
    (all_cons lists_F20_Partition_F18_PartData
    (all_cons lists_F18_Reboot
    (all_cons lists_F20_Raid_F18_RaidData
    (all_cons lists_F19_Realm
    (all_cons lists_F18_Reboot
    (all_cons lists_F21_Repo_F21_RepoData
    (all_cons lists_F10_Rescue
    (all_cons lists_F18_RootPw
    (all_cons lists_FC3_SELinux
    (all_cons lists_FC6_Services
    (all_cons lists_F18_Reboot
    (all_cons lists_FC3_SkipX
    (all_cons lists_F13_SshPw_F13_SshPwData
    (all_cons lists_FC3_DisplayMode
    (all_cons lists_F18_Timezone
    (all_cons lists_F7_Updates
    (all_cons lists_F20_Upgrade
    (all_cons lists_F18_Url
    (all_cons lists_F19_User_F19_UserData
    (all_cons lists_F9_Vnc
    (all_cons lists_F21_VolGroup_F21_VolGroupData
    (all_cons lists_F14_XConfig
    (all_cons lists_F9_ZeroMbr
    (all_cons lists_F14_ZFCP_F14_ZFCPData (List.forall_mem_nil _))))))))))))))))))))))))))))))))))))))))))))))))))))))))))))))

theorem commandMapF22_lists : ∀ x ∈ commandMapF22, Command.Lists x.2 := by
  unfold commandMapF22
  exact (all_cons lists_FC3_Authconfig
    (all_cons lists_FC3_Authconfig
    (all_cons lists_F21_AutoPart
    (all_cons lists_FC3_AutoStep
    (all_cons lists_F21_Bootloader
    (all_cons lists_F17_BTRFS_F17_BTRFSData
    (all_cons lists_FC3_Cdrom
    (all_cons lists_F21_ClearPart
    (all_cons lists_FC3_DisplayMode
    (all_cons lists_F8_Device_F8_DeviceData
    (all_cons lists_FC3_DeviceProbe
    (all_cons lists_FC6_DmRaid_FC6_DmRaidData
    (all_cons lists_F14_DriverDisk_F14_DriverDiskData
    (all_cons lists_F20_Eula
    (all_cons lists_F13_Fcoe_F13_FcoeData
    (all_cons lists_F20_Firewall
    (all_cons lists_FC3_Firstboot
    (all_cons lists_FC3_DisplayMode
    (all_cons lists_F12_Group_F12_GroupData
    (all_cons lists_F18_Reboot
    (all_cons lists_FC3_HardDrive
    (all_cons lists_F14_IgnoreDisk
    (all_cons lists_F20_Install
    (all_cons lists_F17_Iscsi_F17_IscsiData
    (all_cons lists_FC6_IscsiName
    (all_cons lists_F18_Keyboard
    (all_cons lists_F19_Lang
    (all_cons lists_F19_Liveimg
    (all_cons lists_FC6_Logging
    (all_cons lists_F21_LogVol_F21_LogVolData
    (all_cons lists_FC4_MediaCheck
    (all_cons lists_F19_Method
    (all_cons lists_FC6_MultiPath_FC6_MultiPathData
    (all_cons lists_F22_Network_F22_NetworkData
    (all_cons lists_FC6_NFS
    (all_cons lists_F21_OSTreeSetup
    (all_cons lists_F20_Partition_F18_PartData
    (all_cons lists_F20_Partition_F18_PartData
    (all_cons lists_F18_Reboot
    (all_cons lists_F20_Raid_F18_RaidData
    (all_cons lists_F19_Realm
    (all_cons lists_F18_Reboot
    (all_cons lists_F21_Repo_F21_RepoData
    (all_cons lists_F10_Rescue
    (all_cons lists_F18_RootPw
    (all_cons lists_FC3_SELinux
    (all_cons lists_FC6_Services
    (all_cons lists_F18_Reboot
    (all_cons lists_FC3_SkipX
    (all_cons lists_F13_SshPw_F13_SshPwData
    (all_cons lists_F22_SshKey_F22_SshKeyData
    (all_cons lists_FC3_DisplayMode
    (all_cons lists_F18_Timezone
    (all_cons lists_F7_Updates
    (all_cons lists_F20_Upgrade
    (all_cons lists_F18_Url
    (all_cons lists_F19_User_F19_UserData
    (all_cons lists_F9_Vnc
    (all_cons lists_F21_VolGroup_F21_VolGroupData
    (all_cons lists_F14_XConfig
    (all_cons lists_F9_ZeroMbr
    (all_cons lists_F14_ZFCP_F14_ZFCPData (List.forall_mem_nil _)))))))))))))))))))))))))))))))))))))))))))))))))))))))))))))))

theorem commandMapF23_lists : ∀ x ∈ commandMapF23, Command.Lists x.2 := by
  unfold commandMapF23
  exact (all_cons lists_FC3_Authconfig
    (all_cons lists_FC3_Authconfig
    (all_cons lists_F23_AutoPart
    (all_cons lists_FC3_AutoStep
    (all_cons lists_F21_Bootloader
    (all_cons lists_F23_BTRFS_F23_BTRFSData
    (all_cons lists_FC3_Cdrom
    (all_cons lists_F21_ClearPart
    (all_cons lists_FC3_DisplayMode
    (all_cons lists_F8_Device_F8_DeviceData
    (all_cons lists_FC3_DeviceProbe
    (all_cons lists_FC6_DmRaid_FC6_DmRaidData
    (all_cons lists_F14_DriverDisk_F14_DriverDiskData
    (all_cons lists_F20_Eula
    (all_cons lists_F13_Fcoe_F13_FcoeData
    (all_cons lists_F20_Firewall
    (all_cons lists_FC3_Firstboot
    (all_cons lists_FC3_DisplayMode
    (all_cons lists_F12_Group_F12_GroupData
    (all_cons lists_F23_Reboot
    (all_cons lists_FC3_HardDrive
    (all_cons lists_F14_IgnoreDisk
    (all_cons lists_F20_Install
    (all_cons lists_F17_Iscsi_F17_IscsiData
    (all_cons lists_FC6_IscsiName
    (all_cons lists_F18_Keyboard
    (all_cons lists_F19_Lang
    (all_cons lists_F19_Liveimg
    (all_cons lists_FC6_Logging
    (all_cons lists_F23_LogVol_F23_LogVolData
    (all_cons lists_FC4_MediaCheck
    (all_cons lists_F19_Method
    (all_cons lists_FC6_MultiPath_FC6_MultiPathData
    (all_cons lists_F22_Network_F22_NetworkData
    (all_cons lists_FC6_NFS
    (all_cons lists_F21_OSTreeSetup
    (all_cons lists_F23_Partition_F23_PartData
    (all_cons lists_F23_Partition_F23_PartData
    (all_cons lists_F23_Reboot
    (all_cons lists_F23_Raid_F23_RaidData
    (all_cons lists_F19_Realm
    (all_cons lists_F23_Reboot
    (all_cons lists_F21_Repo_F21_RepoData
    (all_cons lists_F23_ReqPart
    (all_cons lists_F10_Rescue
    (all_cons lists_F18_RootPw
    (all_cons lists_FC3_SELinux
    (all_cons lists_FC6_Services
    (all_cons lists_F23_Reboot
    (all_cons lists_FC3_SkipX
    (all_cons lists_F13_SshPw_F13_SshPwData
    (all_cons lists_F22_SshKey_F22_SshKeyData
    (all_cons lists_FC3_DisplayMode
    (all_cons lists_F23_Timezone
    (all_cons lists_F7_Updates
    (all_cons lists_F20_Upgrade
    (all_cons lists_F18_Url
    (all_cons lists_F19_User_F19_UserData
    (all_cons lists_F9_Vnc
    (all_cons lists_F21_VolGroup_F21_VolGroupData
    (all_cons lists_F14_XConfig
    (all_cons lists_F9_ZeroMbr
    (all_cons lists_F14_ZFCP_F14_ZFCPData (List.forall_mem_nil _))))))))))))))))))))))))))))))))))))))))))))))))))))))))))))))))

theorem commandMapF24_lists : ∀ x ∈ commandMapF24, Command.Lists x.2 := by
  unfold commandMapF24
  exact (all_cons lists_FC3_Authconfig
    (all_cons lists_FC3_Authconfig
    (all_cons lists_F23_AutoPart
    (all_cons lists_FC3_AutoStep
    (all_cons lists_F21_Bootloader
    (all_cons lists_F23_BTRFS_F23_BTRFSData
    (all_cons lists_FC3_Cdrom
    (all_cons lists_F21_ClearPart
    (all_cons lists_FC3_DisplayMode
    (all_cons lists_F24_Device
    (all_cons lists_FC3_DeviceProbe
    (all_cons lists_F24_DmRaid
    (all_cons lists_F14_DriverDisk_F14_DriverDiskData
    (all_cons lists_F20_Eula
    (all_cons lists_F13_Fcoe_F13_FcoeData
    (all_cons lists_F20_Firewall
    (all_cons lists_FC3_Firstboot
    (all_cons lists_FC3_DisplayMode
    (all_cons lists_F12_Group_F12_GroupData
    (all_cons lists_F23_Reboot
    (all_cons lists_FC3_HardDrive
    (all_cons lists_F14_IgnoreDisk
    (all_cons lists_F20_Install
    (all_cons lists_F17_Iscsi_F17_IscsiData
    (all_cons lists_FC6_IscsiName
    (all_cons lists_F18_Keyboard
    (all_cons lists_F19_Lang
    (all_cons lists_F19_Liveimg
    (all_cons lists_FC6_Logging
    (all_cons lists_F23_LogVol_F23_LogVolData
    (all_cons lists_FC4_MediaCheck
    (all_cons lists_F19_Method
    (all_cons lists_F24_MultiPath
    (all_cons lists_F24_Network_F22_NetworkData
    (all_cons lists_FC6_NFS
    (all_cons lists_F21_OSTreeSetup
    (all_cons lists_F23_Partition_F23_PartData
    (all_cons lists_F23_Partition_F23_PartData
    (all_cons lists_F23_Reboot
    (all_cons lists_F23_Raid_F23_RaidData
    (all_cons lists_F19_Realm
    (all_cons lists_F23_Reboot
    (all_cons lists_F21_Repo_F21_RepoData
    (all_cons lists_F23_ReqPart
    (all_cons lists_F10_Rescue
    (all_cons lists_F18_RootPw
    (all_cons lists_FC3_SELinux
    (all_cons lists_FC6_Services
    (all_cons lists_F23_Reboot
    (all_cons lists_FC3_SkipX
    (all_cons lists_F24_SshPw_F24_SshPwData
    (all_cons lists_F22_SshKey_F22_SshKeyData
    (all_cons lists_FC3_DisplayMode
    (all_cons lists_F23_Timezone
    (all_cons lists_F7_Updates
    (all_cons lists_F20_Upgrade
    (all_cons lists_F18_Url
    (all_cons lists_F24_User_F19_UserData
    (all_cons lists_F9_Vnc
    (all_cons lists_F21_VolGroup_F21_VolGroupData
    (all_cons lists_F14_XConfig
    (all_cons lists_F9_ZeroMbr
    (all_cons lists_F14_ZFCP_F14_ZFCPData (List.forall_mem_nil _))))))))))))))))))))))))))))))))))))))))))))))))))))))))))))))))

theorem commandMapF25_lists : ∀ x ∈ commandMapF25, Command.Lists x.2 := by
  unfold commandMapF25
  exact (all_cons lists_FC3_Authconfig
    (all_cons lists_FC3_Authconfig
    (all_cons lists_F23_AutoPart
    (all_cons lists_FC3_AutoStep
    (all_cons lists_F21_Bootloader
    (all_cons lists_F23_BTRFS_F23_BTRFSData
    (all_cons lists_FC3_Cdrom
    (all_cons lists_F21_ClearPart
    (all_cons lists_FC3_DisplayMode
    (all_cons lists_F24_Device
    (all_cons lists_FC3_DeviceProbe
    (all_cons lists_F24_DmRaid
    (all_cons lists_F14_DriverDisk_F14_DriverDiskData
    (all_cons lists_F20_Eula
    (all_cons lists_F13_Fcoe_F13_FcoeData
    (all_cons lists_F20_Firewall
    (all_cons lists_FC3_Firstboot
    (all_cons lists_FC3_DisplayMode
    (all_cons lists_F12_Group_F12_GroupData
    (all_cons lists_F23_Reboot
    (all_cons lists_FC3_HardDrive
    (all_cons lists_F14_IgnoreDisk
    (all_cons lists_F20_Install
    (all_cons lists_F17_Iscsi_F17_IscsiData
    (all_cons lists_FC6_IscsiName
    (all_cons lists_F18_Keyboard
    (all_cons lists_F19_Lang
    (all_cons lists_F19_Liveimg
    (all_cons lists_FC6_Logging
    (all_cons lists_F23_LogVol_F23_LogVolData
    (all_cons lists_FC4_MediaCheck
    (all_cons lists_F19_Method
    (all_cons lists_F24_MultiPath
    (all_cons lists_F25_Network_F25_NetworkData
    (all_cons lists_FC6_NFS
    (all_cons lists_F21_OSTreeSetup
    (all_cons lists_F23_Partition_F23_PartData
    (all_cons lists_F23_Partition_F23_PartData
    (all_cons lists_F23_Reboot
    (all_cons lists_F25_Raid_F25_RaidData
    (all_cons lists_F19_Realm
    (all_cons lists_F23_Reboot
    (all_cons lists_F21_Repo_F21_RepoData
    (all_cons lists_F23_ReqPart
    (all_cons lists_F10_Rescue
    (all_cons lists_F18_RootPw
    (all_cons lists_FC3_SELinux
    (all_cons lists_FC6_Services
    (all_cons lists_F23_Reboot
    (all_cons lists_FC3_SkipX
    (all_cons lists_F24_SshPw_F24_SshPwData
    (all_cons lists_F22_SshKey_F22_SshKeyData
    (all_cons lists_FC3_DisplayMode
    (all_cons lists_F25_Timezone
    (all_cons lists_F7_Updates
    (all_cons lists_F20_Upgrade
    (all_cons lists_F18_Url
    (all_cons lists_F24_User_F19_UserData
    (all_cons lists_F9_Vnc
    (all_cons lists_F21_VolGroup_F21_VolGroupData
    (all_cons lists_F14_XConfig
    (all_cons lists_F9_ZeroMbr
    (all_cons lists_F14_ZFCP_F14_ZFCPData (List.forall_mem_nil _))))))))))))))))))))))))))))))))))))))))))))))))))))))))))))))))

theorem commandMapF26_lists : ∀ x ∈ commandMapF26, Command.Lists x.2 := by
  unfold commandMapF26
  exact (all_cons lists_FC3_Authconfig
    (all_cons lists_FC3_Authconfig
    (all_cons lists_F26_AutoPart
    (all_cons lists_FC3_AutoStep
    (all_cons lists_F21_Bootloader
    (all_cons lists_F23_BTRFS_F23_BTRFSData
    (all_cons lists_FC3_Cdrom
    (all_cons lists_F21_ClearPart
    (all_cons lists_F26_DisplayMode
    (all_cons lists_F24_Device
    (all_cons lists_FC3_DeviceProbe
    (all_cons lists_F24_DmRaid
    (all_cons lists_F14_DriverDisk_F14_DriverDiskData
    (all_cons lists_F20_Eula
    (all_cons lists_F13_Fcoe_F13_FcoeData
    (all_cons lists_F20_Firewall
    (all_cons lists_FC3_Firstboot
    (all_cons lists_F26_DisplayMode
    (all_cons lists_F12_Group_F12_GroupData
    (all_cons lists_F23_Reboot
    (all_cons lists_FC3_HardDrive
    (all_cons lists_F14_IgnoreDisk
    (all_cons lists_F20_Install
    (all_cons lists_F17_Iscsi_F17_IscsiData
    (all_cons lists_FC6_IscsiName
    (all_cons lists_F18_Keyboard
    (all_cons lists_F19_Lang
    (all_cons lists_F19_Liveimg
    (all_cons lists_FC6_Logging
    (all_cons lists_F23_LogVol_F23_LogVolData
    (all_cons lists_FC4_MediaCheck
    (all_cons lists_F19_Method
    (all_cons lists_F24_MultiPath
    (all_cons lists_F25_Network_F25_NetworkData
    (all_cons lists_FC6_NFS
    (all_cons lists_F21_OSTreeSetup
    (all_cons lists_F23_Partition_F23_PartData
    (all_cons lists_F23_Partition_F23_PartData
    (all_cons lists_F23_Reboot
    (all_cons lists_F25_Raid_F25_RaidData
    (all_cons lists_F19_Realm
    (all_cons lists_F23_Reboot
    (all_cons lists_F21_Repo_F21_RepoData
    (all_cons lists_F23_ReqPart
    (all_cons lists_F10_Rescue
    (all_cons lists_F18_RootPw
    (all_cons lists_FC3_SELinux
    (all_cons lists_FC6_Services
    (all_cons lists_F23_Reboot
    (all_cons lists_FC3_SkipX
    (all_cons lists_F26_Snapshot_F26_SnapshotData
    (all_cons lists_F24_SshPw_F24_SshPwData
    (all_cons lists_F22_SshKey_F22_SshKeyData
    (all_cons lists_F26_DisplayMode
    (all_cons lists_F25_Timezone
    (all_cons lists_F7_Updates
    (all_cons lists_F20_Upgrade
    (all_cons lists_F18_Url
    (all_cons lists_F24_User_F19_UserData
    (all_cons lists_F9_Vnc
    (all_cons lists_F21_VolGroup_F21_VolGroupData
    (all_cons lists_F14_XConfig
    (all_cons lists_F9_ZeroMbr
    (all_cons lists_F14_ZFCP_F14_ZFCPData (List.forall_mem_nil _)))))))))))))))))))))))))))))))))))))))))))))))))))))))))))))))))

theorem commandMapF27_lists : ∀ x ∈ commandMapF27, Command.Lists x.2 := by
  unfold commandMapF27
  exact (all_cons lists_FC3_Authconfig
    (all_cons lists_FC3_Authconfig
    (all_cons lists_F26_AutoPart
    (all_cons lists_FC3_AutoStep
    (all_cons lists_F21_Bootloader
    (all_cons lists_F23_BTRFS_F23_BTRFSData
    (all_cons lists_FC3_Cdrom
    (all_cons lists_F21_ClearPart
    (all_cons lists_F26_DisplayMode
    (all_cons lists_F24_Device
    (all_cons lists_FC3_DeviceProbe
    (all_cons lists_F24_DmRaid
    (all_cons lists_F14_DriverDisk_F14_DriverDiskData
    (all_cons lists_F20_Eula
    (all_cons lists_F13_Fcoe_F13_FcoeData
    (all_cons lists_F20_Firewall
    (all_cons lists_FC3_Firstboot
    (all_cons lists_F26_DisplayMode
    (all_cons lists_F12_Group_F12_GroupData
    (all_cons lists_F23_Reboot
    (all_cons lists_FC3_HardDrive
    (all_cons lists_F14_IgnoreDisk
    (all_cons lists_F20_Install
    (all_cons lists_F17_Iscsi_F17_IscsiData
    (all_cons lists_FC6_IscsiName
    (all_cons lists_F18_Keyboard
    (all_cons lists_F19_Lang
    (all_cons lists_F19_Liveimg
    (all_cons lists_FC6_Logging
    (all_cons lists_F23_LogVol_F23_LogVolData
    (all_cons lists_FC4_MediaCheck
    (all_cons lists_F19_Method
    (all_cons lists_F27_Mount_F27_MountData
    (all_cons lists_F24_MultiPath
    (all_cons lists_F27_Network_F27_NetworkData
    (all_cons lists_FC6_NFS
    (all_cons lists_F21_OSTreeSetup
    (all_cons lists_F23_Partition_F23_PartData
    (all_cons lists_F23_Partition_F23_PartData
    (all_cons lists_F23_Reboot
    (all_cons lists_F25_Raid_F25_RaidData
    (all_cons lists_F19_Realm
    (all_cons lists_F23_Reboot
    (all_cons lists_F27_Repo_F27_RepoData
    (all_cons lists_F23_ReqPart
    (all_cons lists_F10_Rescue
    (all_cons lists_F18_RootPw
    (all_cons lists_FC3_SELinux
    (all_cons lists_FC6_Services
    (all_cons lists_F23_Reboot
    (all_cons lists_FC3_SkipX
    (all_cons lists_F26_Snapshot_F26_SnapshotData
    (all_cons lists_F24_SshPw_F24_SshPwData
    (all_cons lists_F22_SshKey_F22_SshKeyData
    (all_cons lists_F26_DisplayMode
    (all_cons lists_F25_Timezone
    (all_cons lists_F7_Updates
    (all_cons lists_F20_Upgrade
    (all_cons lists_F27_Url
    (all_cons lists_F24_User_F19_UserData
    (all_cons lists_F9_Vnc
    (all_cons lists_F21_VolGroup_F21_VolGroupData
    (all_cons lists_F14_XConfig
    (all_cons lists_F9_ZeroMbr
    (all_cons lists_F14_ZFCP_F14_ZFCPData (List.forall_mem_nil _))))))))))))))))))))))))))))))))))))))))))))))))))))))))))))))))))

theorem commandMapF28_lists : ∀ x ∈ commandMapF28, Command.Lists x.2 := by
  unfold commandMapF28
  exact (all_cons lists_F28_Authconfig
    (all_cons lists_F28_Authconfig
    (all_cons lists_F28_Authselect
    (all_cons lists_F26_AutoPart
    (all_cons lists_FC3_AutoStep
    (all_cons lists_F21_Bootloader
    (all_cons lists_F23_BTRFS_F23_BTRFSData
    (all_cons lists_FC3_Cdrom
    (all_cons lists_F28_ClearPart
    (all_cons lists_F26_DisplayMode
    (all_cons lists_F24_Device
    (all_cons lists_FC3_DeviceProbe
    (all_cons lists_F24_DmRaid
    (all_cons lists_F14_DriverDisk_F14_DriverDiskData
    (all_cons lists_F20_Eula
    (all_cons lists_F28_Fcoe_F28_FcoeData
    (all_cons lists_F28_Firewall
    (all_cons lists_FC3_Firstboot
    (all_cons lists_F26_DisplayMode
    (all_cons lists_F12_Group_F12_GroupData
    (all_cons lists_F23_Reboot
    (all_cons lists_FC3_HardDrive
    (all_cons lists_F28_Hmc
    (all_cons lists_F14_IgnoreDisk
    (all_cons lists_F20_Install
    (all_cons lists_F17_Iscsi_F17_IscsiData
    (all_cons lists_FC6_IscsiName
    (all_cons lists_F18_Keyboard
    (all_cons lists_F19_Lang
    (all_cons lists_F19_Liveimg
    (all_cons lists_FC6_Logging
    (all_cons lists_F23_LogVol_F23_LogVolData
    (all_cons lists_FC4_MediaCheck
    (all_cons lists_F28_Method
    (all_cons lists_F27_Mount_F27_MountData
    (all_cons lists_F24_MultiPath
    (all_cons lists_F27_Network_F27_NetworkData
    (all_cons lists_FC6_NFS
    (all_cons lists_F28_Nvdimm_F28_NvdimmData
    (all_cons lists_F21_OSTreeSetup
    (all_cons lists_F23_Partition_F23_PartData
    (all_cons lists_F23_Partition_F23_PartData
    (all_cons lists_F23_Reboot
    (all_cons lists_F25_Raid_F25_RaidData
    (all_cons lists_F19_Realm
    (all_cons lists_F23_Reboot
    (all_cons lists_F27_Repo_F27_RepoData
    (all_cons lists_F23_ReqPart
    (all_cons lists_F10_Rescue
    (all_cons lists_F18_RootPw
    (all_cons lists_FC3_SELinux
    (all_cons lists_FC6_Services
    (all_cons lists_F23_Reboot
    (all_cons lists_FC3_SkipX
    (all_cons lists_F26_Snapshot_F26_SnapshotData
    (all_cons lists_F24_SshPw_F24_SshPwData
    (all_cons lists_F22_SshKey_F22_SshKeyData
    (all_cons lists_F26_DisplayMode
    (all_cons lists_F25_Timezone
    (all_cons lists_F7_Updates
    (all_cons lists_F20_Upgrade
    (all_cons lists_F27_Url
    (all_cons lists_F24_User_F19_UserData
    (all_cons lists_F9_Vnc
    (all_cons lists_F21_VolGroup_F21_VolGroupData
    (all_cons lists_F14_XConfig
    (all_cons lists_F9_ZeroMbr
    (all_cons lists_F14_ZFCP_F14_ZFCPData (List.forall_mem_nil _)))))))))))))))))))))))))))))))))))))))))))))))))))))))))))))))))))))

theorem commandMapF29_lists : ∀ x ∈ commandMapF29, Command.Lists x.2 := by
  unfold commandMapF29
  exact (all_cons lists_F28_Authconfig
    (all_cons lists_F28_Authconfig
    (all_cons lists_F28_Authselect
    (all_cons lists_F29_AutoPart
    (all_cons lists_FC3_AutoStep
    (all_cons lists_F29_Bootloader
    (all_cons lists_F23_BTRFS_F23_BTRFSData
    (all_cons lists_FC3_Cdrom
    (all_cons lists_F28_ClearPart
    (all_cons lists_F26_DisplayMode
    (all_cons lists_F24_Device
    (all_cons lists_F29_DeviceProbe
    (all_cons lists_F24_DmRaid
    (all_cons lists_F14_DriverDisk_F14_DriverDiskData
    (all_cons lists_F29_Module_F29_ModuleData
    (all_cons lists_F20_Eula
    (all_cons lists_F28_Fcoe_F28_FcoeData
    (all_cons lists_F28_Firewall
    (all_cons lists_FC3_Firstboot
    (all_cons lists_F26_DisplayMode
    (all_cons lists_F12_Group_F12_GroupData
    (all_cons lists_F23_Reboot
    (all_cons lists_FC3_HardDrive
    (all_cons lists_F28_Hmc
    (all_cons lists_F29_IgnoreDisk
    (all_cons lists_F29_Install
    (all_cons lists_F17_Iscsi_F17_IscsiData
    (all_cons lists_FC6_IscsiName
    (all_cons lists_F18_Keyboard
    (all_cons lists_F19_Lang
    (all_cons lists_F19_Liveimg
    (all_cons lists_FC6_Logging
    (all_cons lists_F29_LogVol_F29_LogVolData
    (all_cons lists_FC4_MediaCheck
    (all_cons lists_F28_Method
    (all_cons lists_F27_Mount_F27_MountData
    (all_cons lists_F24_MultiPath
    (all_cons lists_F27_Network_F27_NetworkData
    (all_cons lists_FC6_NFS
    (all_cons lists_F28_Nvdimm_F28_NvdimmData
    (all_cons lists_F21_OSTreeSetup
    (all_cons lists_F29_Partition_F29_PartData
    (all_cons lists_F29_Partition_F29_PartData
    (all_cons lists_F23_Reboot
    (all_cons lists_F29_Raid_F29_RaidData
    (all_cons lists_F19_Realm
    (all_cons lists_F23_Reboot
    (all_cons lists_F27_Repo_F27_RepoData
    (all_cons lists_F23_ReqPart
    (all_cons lists_F10_Rescue
    (all_cons lists_F18_RootPw
    (all_cons lists_FC3_SELinux
    (all_cons lists_FC6_Services
    (all_cons lists_F23_Reboot
    (all_cons lists_FC3_SkipX
    (all_cons lists_F26_Snapshot_F26_SnapshotData
    (all_cons lists_F24_SshPw_F24_SshPwData
    (all_cons lists_F22_SshKey_F22_SshKeyData
    (all_cons lists_F26_DisplayMode
    (all_cons lists_F25_Timezone
    (all_cons lists_F7_Updates
    (all_cons lists_F29_Upgrade
    (all_cons lists_F27_Url
    (all_cons lists_F24_User_F19_UserData
    (all_cons lists_F9_Vnc
    (all_cons lists_F21_VolGroup_F21_VolGroupData
    (all_cons lists_F14_XConfig
    (all_cons lists_F9_ZeroMbr
    (all_cons lists_F14_ZFCP_F14_ZFCPData (List.forall_mem_nil _))))))))))))))))))))))))))))))))))))))))))))))))))))))))))))))))))))))

theorem commandMapF30_lists : ∀ x ∈ commandMapF30, Command.Lists x.2 := by
  unfold commandMapF30
  exact (all_cons lists_F28_Authconfig
    (all_cons lists_F28_Authconfig
    (all_cons lists_F28_Authselect
    (all_cons lists_F29_AutoPart
    (all_cons lists_FC3_AutoStep
    (all_cons lists_F29_Bootloader
    (all_cons lists_F23_BTRFS_F23_BTRFSData
    (all_cons lists_FC3_Cdrom
    (all_cons lists_F28_ClearPart
    (all_cons lists_F26_DisplayMode
    (all_cons lists_F24_Device
    (all_cons lists_F29_DeviceProbe
    (all_cons lists_F24_DmRaid
    (all_cons lists_F14_DriverDisk_F14_DriverDiskData
    (all_cons lists_F29_Module_F29_ModuleData
    (all_cons lists_F20_Eula
    (all_cons lists_F28_Fcoe_F28_FcoeData
    (all_cons lists_F28_Firewall
    (all_cons lists_FC3_Firstboot
    (all_cons lists_F26_DisplayMode
    (all_cons lists_F12_Group_F12_GroupData
    (all_cons lists_F23_Reboot
    (all_cons lists_FC3_HardDrive
    (all_cons lists_F28_Hmc
    (all_cons lists_F29_IgnoreDisk
    (all_cons lists_F29_Install
    (all_cons lists_F17_Iscsi_F17_IscsiData
    (all_cons lists_FC6_IscsiName
    (all_cons lists_F18_Keyboard
    (all_cons lists_F19_Lang
    (all_cons lists_F19_Liveimg
    (all_cons lists_FC6_Logging
    (all_cons lists_F29_LogVol_F29_LogVolData
    (all_cons lists_FC4_MediaCheck
    (all_cons lists_F28_Method
    (all_cons lists_F27_Mount_F27_MountData
    (all_cons lists_F24_MultiPath
    (all_cons lists_F27_Network_F27_NetworkData
    (all_cons lists_FC6_NFS
    (all_cons lists_F28_Nvdimm_F28_NvdimmData
    (all_cons lists_F21_OSTreeSetup
    (all_cons lists_F29_Partition_F29_PartData
    (all_cons lists_F29_Partition_F29_PartData
    (all_cons lists_F23_Reboot
    (all_cons lists_F29_Raid_F29_RaidData
    (all_cons lists_F19_Realm
    (all_cons lists_F23_Reboot
    (all_cons lists_F30_Repo_F30_RepoData
    (all_cons lists_F23_ReqPart
    (all_cons lists_F10_Rescue
    (all_cons lists_F18_RootPw
    (all_cons lists_FC3_SELinux
    (all_cons lists_FC6_Services
    (all_cons lists_F23_Reboot
    (all_cons lists_FC3_SkipX
    (all_cons lists_F26_Snapshot_F26_SnapshotData
    (all_cons lists_F24_SshPw_F24_SshPwData
    (all_cons lists_F22_SshKey_F22_SshKeyData
    (all_cons lists_F26_DisplayMode
    (all_cons lists_F25_Timezone
    (all_cons lists_F7_Updates
    (all_cons lists_F30_Url
    (all_cons lists_F24_User_F19_UserData
    (all_cons lists_F9_Vnc
    (all_cons lists_F21_VolGroup_F21_VolGroupData
    (all_cons lists_F14_XConfig
    (all_cons lists_F9_ZeroMbr
    (all_cons lists_F14_ZFCP_F14_ZFCPData (List.forall_mem_nil _)))))))))))))))))))))))))))))))))))))))))))))))))))))))))))))))))))))

theorem commandMapF31_lists : ∀ x ∈ commandMapF31, Command.Lists x.2 := by
  unfold commandMapF31
  exact (all_cons lists_F28_Authconfig
    (all_cons lists_F28_Authconfig
    (all_cons lists_F28_Authselect
    (all_cons lists_F29_AutoPart
    (all_cons lists_FC3_AutoStep
    (all_cons lists_F29_Bootloader
    (all_cons lists_F23_BTRFS_F23_BTRFSData
    (all_cons lists_FC3_Cdrom
    (all_cons lists_F28_ClearPart
    (all_cons lists_F26_DisplayMode
    (all_cons lists_F24_Device
    (all_cons lists_F29_DeviceProbe
    (all_cons lists_F24_DmRaid
    (all_cons lists_F14_DriverDisk_F14_DriverDiskData
    (all_cons lists_F31_Module_F31_ModuleData
    (all_cons lists_F20_Eula
    (all_cons lists_F28_Fcoe_F28_FcoeData
    (all_cons lists_F28_Firewall
    (all_cons lists_FC3_Firstboot
    (all_cons lists_F26_DisplayMode
    (all_cons lists_F12_Group_F12_GroupData
    (all_cons lists_F23_Reboot
    (all_cons lists_FC3_HardDrive
    (all_cons lists_F28_Hmc
    (all_cons lists_F29_IgnoreDisk
    (all_cons lists_F29_Install
    (all_cons lists_F17_Iscsi_F17_IscsiData
    (all_cons lists_FC6_IscsiName
    (all_cons lists_F18_Keyboard
    (all_cons lists_F19_Lang
    (all_cons lists_F19_Liveimg
    (all_cons lists_FC6_Logging
    (all_cons lists_F29_LogVol_F29_LogVolData
    (all_cons lists_FC4_MediaCheck
    (all_cons lists_F28_Method
    (all_cons lists_F27_Mount_F27_MountData
    (all_cons lists_F24_MultiPath
    (all_cons lists_F27_Network_F27_NetworkData
    (all_cons lists_FC6_NFS
    (all_cons lists_F28_Nvdimm_F28_NvdimmData
    (all_cons lists_F21_OSTreeSetup
    (all_cons lists_F29_Partition_F29_PartData
    (all_cons lists_F29_Partition_F29_PartData
    (all_cons lists_F23_Reboot
    (all_cons lists_F29_Raid_F29_RaidData
    (all_cons lists_F19_Realm
    (all_cons lists_F23_Reboot
    (all_cons lists_F30_Repo_F30_RepoData
    (all_cons lists_F23_ReqPart
    (all_cons lists_F10_Rescue
    (all_cons lists_F18_RootPw
    (all_cons lists_FC3_SELinux
    (all_cons lists_FC6_Services
    (all_cons lists_F23_Reboot
    (all_cons lists_FC3_SkipX
    (all_cons lists_F26_Snapshot_F26_SnapshotData
    (all_cons lists_F24_SshPw_F24_SshPwData
    (all_cons lists_F22_SshKey_F22_SshKeyData
    (all_cons lists_F26_DisplayMode
    (all_cons lists_F25_Timezone
    (all_cons lists_F7_Updates
    (all_cons lists_F30_Url
    (all_cons lists_F24_User_F19_UserData
    (all_cons lists_F9_Vnc
    (all_cons lists_F21_VolGroup_F21_VolGroupData
    (all_cons lists_F14_XConfig
    (all_cons lists_F9_ZeroMbr
    (all_cons lists_F14_ZFCP_F14_ZFCPData (List.forall_mem_nil _)))))))))))))))))))))))))))))))))))))))))))))))))))))))))))))))))))))

theorem commandMapF32_lists : ∀ x ∈ commandMapF32, Command.Lists x.2 := by
  unfold commandMapF32
  exact (all_cons lists_F28_Authconfig
    (all_cons lists_F28_Authconfig
    (all_cons lists_F28_Authselect
    (all_cons lists_F29_AutoPart
    (all_cons lists_FC3_AutoStep
    (all_cons lists_F29_Bootloader
    (all_cons lists_F23_BTRFS_F23_BTRFSData
    (all_cons lists_FC3_Cdrom
    (all_cons lists_F28_ClearPart
    (all_cons lists_F26_DisplayMode
    (all_cons lists_F24_Device
    (all_cons lists_F29_DeviceProbe
    (all_cons lists_F24_DmRaid
    (all_cons lists_F14_DriverDisk_F14_DriverDiskData
    (all_cons lists_F31_Module_F31_ModuleData
    (all_cons lists_F20_Eula
    (all_cons lists_F28_Fcoe_F28_FcoeData
    (all_cons lists_F28_Firewall
    (all_cons lists_FC3_Firstboot
    (all_cons lists_F26_DisplayMode
    (all_cons lists_F12_Group_F12_GroupData
    (all_cons lists_F23_Reboot
    (all_cons lists_FC3_HardDrive
    (all_cons lists_F28_Hmc
    (all_cons lists_F29_IgnoreDisk
    (all_cons lists_F29_Install
    (all_cons lists_F17_Iscsi_F17_IscsiData
    (all_cons lists_FC6_IscsiName
    (all_cons lists_F18_Keyboard
    (all_cons lists_F19_Lang
    (all_cons lists_F19_Liveimg
    (all_cons lists_FC6_Logging
    (all_cons lists_F29_LogVol_F29_LogVolData
    (all_cons lists_FC4_MediaCheck
    (all_cons lists_F28_Method
    (all_cons lists_F27_Mount_F27_MountData
    (all_cons lists_F24_MultiPath
    (all_cons lists_F27_Network_F27_NetworkData
    (all_cons lists_FC6_NFS
    (all_cons lists_F28_Nvdimm_F28_NvdimmData
    (all_cons lists_F21_OSTreeSetup
    (all_cons lists_F29_Partition_F29_PartData
    (all_cons lists_F29_Partition_F29_PartData
    (all_cons lists_F23_Reboot
    (all_cons lists_F29_Raid_F29_RaidData
    (all_cons lists_F19_Realm
    (all_cons lists_F23_Reboot
    (all_cons lists_F30_Repo_F30_RepoData
    (all_cons lists_F23_ReqPart
    (all_cons lists_F10_Rescue
    (all_cons lists_F18_RootPw
    (all_cons lists_FC3_SELinux
    (all_cons lists_FC6_Services
    (all_cons lists_F23_Reboot
    (all_cons lists_FC3_SkipX
    (all_cons lists_F26_Snapshot_F26_SnapshotData
    (all_cons lists_F24_SshPw_F24_SshPwData
    (all_cons lists_F22_SshKey_F22_SshKeyData
    (all_cons lists_F26_DisplayMode
    (all_cons lists_F32_Timezone
    (all_cons lists_F7_Updates
    (all_cons lists_F30_Url
    (all_cons lists_F24_User_F19_UserData
    (all_cons lists_F9_Vnc
    (all_cons lists_F21_VolGroup_F21_VolGroupData
    (all_cons lists_F14_XConfig
    (all_cons lists_F9_ZeroMbr
    (all_cons lists_F14_ZFCP_F14_ZFCPData
    (all_cons lists_F32_Zipl (List.forall_mem_nil _))))))))))))))))))))))))))))))))))))))))))))))))))))))))))))))))))))))

theorem commandMapF33_lists : ∀ x ∈ commandMapF33, Command.Lists x.2 := by
  unfold commandMapF33
  exact (all_cons lists_F28_Authconfig
    (all_cons lists_F28_Authconfig
    (all_cons lists_F28_Authselect
    (all_cons lists_F29_AutoPart
    (all_cons lists_FC3_AutoStep
    (all_cons lists_F29_Bootloader
    (all_cons lists_F23_BTRFS_F23_BTRFSData
    (all_cons lists_FC3_Cdrom
    (all_cons lists_F28_ClearPart
    (all_cons lists_F26_DisplayMode
    (all_cons lists_F24_Device
    (all_cons lists_F29_DeviceProbe
    (all_cons lists_F24_DmRaid
    (all_cons lists_F14_DriverDisk_F14_DriverDiskData
    (all_cons lists_F31_Module_F31_ModuleData
    (all_cons lists_F20_Eula
    (all_cons lists_F28_Fcoe_F28_FcoeData
    (all_cons lists_F28_Firewall
    (all_cons lists_FC3_Firstboot
    (all_cons lists_F26_DisplayMode
    (all_cons lists_F12_Group_F12_GroupData
    (all_cons lists_F23_Reboot
    (all_cons lists_F33_HardDrive
    (all_cons lists_F28_Hmc
    (all_cons lists_F29_IgnoreDisk
    (all_cons lists_F29_Install
    (all_cons lists_F17_Iscsi_F17_IscsiData
    (all_cons lists_FC6_IscsiName
    (all_cons lists_F18_Keyboard
    (all_cons lists_F19_Lang
    (all_cons lists_F19_Liveimg
    (all_cons lists_FC6_Logging
    (all_cons lists_F29_LogVol_F29_LogVolData
    (all_cons lists_FC4_MediaCheck
    (all_cons lists_F28_Method
    (all_cons lists_F27_Mount_F27_MountData
    (all_cons lists_F24_MultiPath
    (all_cons lists_F27_Network_F27_NetworkData
    (all_cons lists_FC6_NFS
    (all_cons lists_F28_Nvdimm_F28_NvdimmData
    (all_cons lists_F33_Timesource_F33_TimesourceData
    (all_cons lists_F21_OSTreeSetup
    (all_cons lists_F29_Partition_F29_PartData
    (all_cons lists_F29_Partition_F29_PartData
    (all_cons lists_F23_Reboot
    (all_cons lists_F29_Raid_F29_RaidData
    (all_cons lists_F19_Realm
    (all_cons lists_F23_Reboot
    (all_cons lists_F33_Repo_F30_RepoData
    (all_cons lists_F23_ReqPart
    (all_cons lists_F10_Rescue
    (all_cons lists_F18_RootPw
    (all_cons lists_FC3_SELinux
    (all_cons lists_FC6_Services
    (all_cons lists_F23_Reboot
    (all_cons lists_FC3_SkipX
    (all_cons lists_F26_Snapshot_F26_SnapshotData
    (all_cons lists_F24_SshPw_F24_SshPwData
    (all_cons lists_F22_SshKey_F22_SshKeyData
    (all_cons lists_F26_DisplayMode
    (all_cons lists_F33_Timezone
    (all_cons lists_F7_Updates
    (all_cons lists_F30_Url
    (all_cons lists_F24_User_F19_UserData
    (all_cons lists_F9_Vnc
    (all_cons lists_F21_VolGroup_F21_VolGroupData
    (all_cons lists_F14_XConfig
    (all_cons lists_F9_ZeroMbr
    (all_cons lists_F14_ZFCP_F14_ZFCPData
    (all_cons lists_F32_Zipl (List.forall_mem_nil _)))))))))))))))))))))))))))))))))))))))))))))))))))))))))))))))))))))))

theorem commandMapF34_lists : ∀ x ∈ commandMapF34, Command.Lists x.2 := by
  unfold commandMapF34
  exact (all_cons lists_F28_Authconfig
    (all_cons lists_F28_Authconfig
    (all_cons lists_F28_Authselect
    (all_cons lists_F29_AutoPart
    (all_cons lists_F34_AutoStep
    (all_cons lists_F34_Bootloader
    (all_cons lists_F23_BTRFS_F23_BTRFSData
    (all_cons lists_FC3_Cdrom
    (all_cons lists_F28_ClearPart
    (all_cons lists_F26_DisplayMode
    (all_cons lists_F34_Device
    (all_cons lists_F34_DeviceProbe
    (all_cons lists_F34_DmRaid
    (all_cons lists_F14_DriverDisk_F14_DriverDiskData
    (all_cons lists_F31_Module_F31_ModuleData
    (all_cons lists_F20_Eula
    (all_cons lists_F28_Fcoe_F28_FcoeData
    (all_cons lists_F28_Firewall
    (all_cons lists_FC3_Firstboot
    (all_cons lists_F26_DisplayMode
    (all_cons lists_F12_Group_F12_GroupData
    (all_cons lists_F23_Reboot
    (all_cons lists_F33_HardDrive
    (all_cons lists_F28_Hmc
    (all_cons lists_F34_IgnoreDisk
    (all_cons lists_F34_Install
    (all_cons lists_F17_Iscsi_F17_IscsiData
    (all_cons lists_FC6_IscsiName
    (all_cons lists_F18_Keyboard
    (all_cons lists_F19_Lang
    (all_cons lists_F19_Liveimg
    (all_cons lists_F34_Logging
    (all_cons lists_F29_LogVol_F29_LogVolData
    (all_cons lists_FC4_MediaCheck
    (all_cons lists_F34_Method
    (all_cons lists_F27_Mount_F27_MountData
    (all_cons lists_F34_MultiPath
    (all_cons lists_F27_Network_F27_NetworkData
    (all_cons lists_FC6_NFS
    (all_cons lists_F28_Nvdimm_F28_NvdimmData
    (all_cons lists_F33_Timesource_F33_TimesourceData
    (all_cons lists_F21_OSTreeSetup
    (all_cons lists_F34_Partition_F29_PartData
    (all_cons lists_F34_Partition_F29_PartData
    (all_cons lists_F23_Reboot
    (all_cons lists_F29_Raid_F29_RaidData
    (all_cons lists_F19_Realm
    (all_cons lists_F23_Reboot
    (all_cons lists_F33_Repo_F30_RepoData
    (all_cons lists_F23_ReqPart
    (all_cons lists_F10_Rescue
    (all_cons lists_F18_RootPw
    (all_cons lists_FC3_SELinux
    (all_cons lists_FC6_Services
    (all_cons lists_F23_Reboot
    (all_cons lists_FC3_SkipX
    (all_cons lists_F26_Snapshot_F26_SnapshotData
    (all_cons lists_F24_SshPw_F24_SshPwData
    (all_cons lists_F22_SshKey_F22_SshKeyData
    (all_cons lists_F26_DisplayMode
    (all_cons lists_F33_Timezone
    (all_cons lists_F34_Updates
    (all_cons lists_F30_Url
    (all_cons lists_F24_User_F19_UserData
    (all_cons lists_F9_Vnc
    (all_cons lists_F21_VolGroup_F21_VolGroupData
    (all_cons lists_F14_XConfig
    (all_cons lists_F9_ZeroMbr
    (all_cons lists_F14_ZFCP_F14_ZFCPData
    (all_cons lists_F32_Zipl (List.forall_mem_nil _)))))))))))))))))))))))))))))))))))))))))))))))))))))))))))))))))))))))

theorem commandMapF7_lists : ∀ x ∈ commandMapF7, Command.Lists x.2 := by
  unfold commandMapF7
  exact (all_cons lists_FC3_Authconfig
    (all_cons lists_FC3_Authconfig
    (all_cons lists_FC3_AutoPart
    (all_cons lists_FC3_AutoStep
    (all_cons lists_FC4_Bootloader
    (all_cons lists_FC3_Cdrom
    (all_cons lists_FC3_ClearPart
    (all_cons lists_FC3_DisplayMode
    (all_cons lists_FC3_Device
    (all_cons lists_FC3_DeviceProbe
    (all_cons lists_FC6_DmRaid_FC6_DmRaidData
    (all_cons lists_FC4_DriverDisk_FC4_DriverDiskData
    (all_cons lists_FC3_Firewall
    (all_cons lists_FC3_Firstboot
    (all_cons lists_FC3_DisplayMode
    (all_cons lists_FC6_Reboot
    (all_cons lists_FC3_HardDrive
    (all_cons lists_FC3_IgnoreDisk
    (all_cons lists_FC3_Upgrade
    (all_cons lists_FC3_Interactive
    (all_cons lists_FC6_Iscsi_FC6_IscsiData
    (all_cons lists_FC6_IscsiName
    (all_cons lists_FC3_Keyboard
    (all_cons lists_FC3_Lang
    (all_cons lists_F7_LangSupport
    (all_cons lists_FC6_Logging
    (all_cons lists_FC4_LogVol_FC4_LogVolData
    (all_cons lists_FC4_MediaCheck
    (all_cons lists_FC6_Method
    (all_cons lists_FC6_Monitor
    (all_cons lists_F7_Mouse
    (all_cons lists_FC6_MultiPath_FC6_MultiPathData
    (all_cons lists_FC6_Network_FC6_NetworkData
    (all_cons lists_FC6_NFS
    (all_cons lists_FC4_Partition_FC4_PartData
    (all_cons lists_FC4_Partition_FC4_PartData
    (all_cons lists_FC6_Reboot
    (all_cons lists_F7_Raid_F7_RaidData
    (all_cons lists_FC6_Reboot
    (all_cons lists_FC6_Repo_FC6_RepoData
    (all_cons lists_FC3_RootPw
    (all_cons lists_FC3_SELinux
    (all_cons lists_FC6_Services
    (all_cons lists_FC6_Reboot
    (all_cons lists_FC3_SkipX
    (all_cons lists_FC3_DisplayMode
    (all_cons lists_FC6_Timezone
    (all_cons lists_F7_Updates
    (all_cons lists_FC3_Upgrade
    (all_cons lists_FC3_Url
    (all_cons lists_FC6_User_FC6_UserData
    (all_cons lists_FC6_Vnc
    (all_cons lists_FC3_VolGroup_FC3_VolGroupData
    (all_cons lists_FC6_XConfig
    (all_cons lists_FC3_ZeroMbr
    (all_cons lists_FC3_ZFCP_FC3_ZFCPData (List.forall_mem_nil _)))))))))))))))))))))))))))))))))))))))))))))))))))))))))

theorem commandMapF8_lists : ∀ x ∈ commandMapF8, Command.Lists x.2 := by
  unfold commandMapF8
  exact (all_cons lists_FC3_Authconfig
    (all_cons lists_FC3_Authconfig
    (all_cons lists_FC3_AutoPart
    (all_cons lists_FC3_AutoStep
    (all_cons lists_F8_Bootloader
    (all_cons lists_FC3_Cdrom
    (all_cons lists_FC3_ClearPart
    (all_cons lists_FC3_DisplayMode
    (all_cons lists_F8_Device_F8_DeviceData
    (all_cons lists_FC3_DeviceProbe
    (all_cons lists_FC6_DmRaid_FC6_DmRaidData
    (all_cons lists_FC4_DriverDisk_FC4_DriverDiskData
    (all_cons lists_FC3_Firewall
    (all_cons lists_FC3_Firstboot
    (all_cons lists_FC3_DisplayMode
    (all_cons lists_FC6_Reboot
    (all_cons lists_FC3_HardDrive
    (all_cons lists_F8_IgnoreDisk
    (all_cons lists_FC3_Upgrade
    (all_cons lists_FC3_Interactive
    (all_cons lists_FC6_Iscsi_FC6_IscsiData
    (all_cons lists_FC6_IscsiName
    (all_cons lists_FC3_Keyboard
    (all_cons lists_FC3_Lang
    (all_cons lists_FC6_Logging
    (all_cons lists_FC4_LogVol_FC4_LogVolData
    (all_cons lists_FC4_MediaCheck
    (all_cons lists_FC6_Method
    (all_cons lists_FC6_Monitor
    (all_cons lists_FC6_MultiPath_FC6_MultiPathData
    (all_cons lists_F8_Network_F8_NetworkData
    (all_cons lists_FC6_NFS
    (all_cons lists_FC4_Partition_FC4_PartData
    (all_cons lists_FC4_Partition_FC4_PartData
    (all_cons lists_FC6_Reboot
    (all_cons lists_F7_Raid_F7_RaidData
    (all_cons lists_FC6_Reboot
    (all_cons lists_F8_Repo_F8_RepoData
    (all_cons lists_F8_RootPw
    (all_cons lists_FC3_SELinux
    (all_cons lists_FC6_Services
    (all_cons lists_FC6_Reboot
    (all_cons lists_FC3_SkipX
    (all_cons lists_FC3_DisplayMode
    (all_cons lists_FC6_Timezone
    (all_cons lists_F7_Updates
    (all_cons lists_FC3_Upgrade
    (all_cons lists_FC3_Url
    (all_cons lists_F8_User_F8_UserData
    (all_cons lists_FC6_Vnc
    (all_cons lists_FC3_VolGroup_FC3_VolGroupData
    (all_cons lists_FC6_XConfig
    (all_cons lists_FC3_ZeroMbr
    (all_cons lists_FC3_ZFCP_FC3_ZFCPData (List.forall_mem_nil _)))))))))))))))))))))))))))))))))))))))))))))))))))))))

theorem commandMapF9_lists : ∀ x ∈ commandMapF9, Command.Lists x.2 := by
  unfold commandMapF9
  exact (all_cons lists_FC3_Authconfig
    (all_cons lists_FC3_Authconfig
    (all_cons lists_F9_AutoPart
    (all_cons lists_FC3_AutoStep
    (all_cons lists_F8_Bootloader
    (all_cons lists_FC3_Cdrom
    (all_cons lists_FC3_ClearPart
    (all_cons lists_FC3_DisplayMode
    (all_cons lists_F8_Device_F8_DeviceData
    (all_cons lists_FC3_DeviceProbe
    (all_cons lists_FC6_DmRaid_FC6_DmRaidData
    (all_cons lists_FC4_DriverDisk_FC4_DriverDiskData
    (all_cons lists_F9_Firewall
    (all_cons lists_FC3_Firstboot
    (all_cons lists_FC3_DisplayMode
    (all_cons lists_FC6_Reboot
    (all_cons lists_FC3_HardDrive
    (all_cons lists_F8_IgnoreDisk
    (all_cons lists_FC3_Upgrade
    (all_cons lists_FC3_Interactive
    (all_cons lists_FC6_Iscsi_FC6_IscsiData
    (all_cons lists_FC6_IscsiName
    (all_cons lists_FC3_Keyboard
    (all_cons lists_FC3_Lang
    (all_cons lists_FC6_Logging
    (all_cons lists_F9_LogVol_F9_LogVolData
    (all_cons lists_FC4_MediaCheck
    (all_cons lists_FC6_Method
    (all_cons lists_FC6_Monitor
    (all_cons lists_FC6_MultiPath_FC6_MultiPathData
    (all_cons lists_F9_Network_F8_NetworkData
    (all_cons lists_FC6_NFS
    (all_cons lists_F9_Partition_F9_PartData
    (all_cons lists_F9_Partition_F9_PartData
    (all_cons lists_FC6_Reboot
    (all_cons lists_F9_Raid_F9_RaidData
    (all_cons lists_FC6_Reboot
    (all_cons lists_F8_Repo_F8_RepoData
    (all_cons lists_F8_RootPw
    (all_cons lists_FC3_SELinux
    (all_cons lists_FC6_Services
    (all_cons lists_FC6_Reboot
    (all_cons lists_FC3_SkipX
    (all_cons lists_FC3_DisplayMode
    (all_cons lists_FC6_Timezone
    (all_cons lists_F7_Updates
    (all_cons lists_FC3_Upgrade
    (all_cons lists_FC3_Url
    (all_cons lists_F8_User_F8_UserData
    (all_cons lists_F9_Vnc
    (all_cons lists_FC3_VolGroup_FC3_VolGroupData
    (all_cons lists_F9_XConfig
    (all_cons lists_F9_ZeroMbr
    (all_cons lists_FC3_ZFCP_FC3_ZFCPData (List.forall_mem_nil _)))))))))))))))))))))))))))))))))))))))))))))))))))))))

theorem commandMapFC3_lists : ∀ x ∈ commandMapFC3, Command.Lists x.2 := by
  unfold commandMapFC3
  exact (all_cons lists_FC3_Authconfig
    (all_cons lists_FC3_Authconfig
    (all_cons lists_FC3_AutoPart
    (all_cons lists_FC3_AutoStep
    (all_cons lists_FC3_Bootloader
    (all_cons lists_FC3_Cdrom
    (all_cons lists_FC3_ClearPart
    (all_cons lists_FC3_DisplayMode
    (all_cons lists_FC3_Device
    (all_cons lists_FC3_DeviceProbe
    (all_cons lists_FC3_DriverDisk_FC3_DriverDiskData
    (all_cons lists_FC3_Firewall
    (all_cons lists_FC3_Firstboot
    (all_cons lists_FC3_DisplayMode
    (all_cons lists_FC3_Reboot
    (all_cons lists_FC3_HardDrive
    (all_cons lists_FC3_IgnoreDisk
    (all_cons lists_FC3_Upgrade
    (all_cons lists_FC3_Interactive
    (all_cons lists_FC3_Keyboard
    (all_cons lists_FC3_Lang
    (all_cons lists_FC3_LangSupport
    (all_cons lists_FC3_Lilo
    (all_cons lists_FC3_LiloCheck
    (all_cons lists_FC3_LogVol_FC3_LogVolData
    (all_cons lists_FC3_Method
    (all_cons lists_FC3_Monitor
    (all_cons lists_FC3_Mouse
    (all_cons lists_FC3_Network_FC3_NetworkData
    (all_cons lists_FC3_NFS
    (all_cons lists_FC3_Partition_FC3_PartData
    (all_cons lists_FC3_Partition_FC3_PartData
    (all_cons lists_FC3_Reboot
    (all_cons lists_FC3_Raid_FC3_RaidData
    (all_cons lists_FC3_Reboot
    (all_cons lists_FC3_RootPw
    (all_cons lists_FC3_SELinux
    (all_cons lists_FC3_Reboot
    (all_cons lists_FC3_SkipX
    (all_cons lists_FC3_DisplayMode
    (all_cons lists_FC3_Timezone
    (all_cons lists_FC3_Upgrade
    (all_cons lists_FC3_Url
    (all_cons lists_FC3_Vnc
    (all_cons lists_FC3_VolGroup_FC3_VolGroupData
    (all_cons lists_FC3_XConfig
    (all_cons lists_FC3_ZeroMbr
    (all_cons lists_FC3_ZFCP_FC3_ZFCPData (List.forall_mem_nil _)))))))))))))))))))))))))))))))))))))))))))))))))

theorem commandMapFC4_lists : ∀ x ∈ commandMapFC4, Command.Lists x.2 := by
  unfold commandMapFC4
  exact (all_cons lists_FC3_Authconfig
    (all_cons lists_FC3_Authconfig
    (all_cons lists_FC3_AutoPart
    (all_cons lists_FC3_AutoStep
    (all_cons lists_FC4_Bootloader
    (all_cons lists_FC3_Cdrom
    (all_cons lists_FC3_ClearPart
    (all_cons lists_FC3_DisplayMode
    (all_cons lists_FC3_Device
    (all_cons lists_FC3_DeviceProbe
    (all_cons lists_FC4_DriverDisk_FC4_DriverDiskData
    (all_cons lists_FC3_Firewall
    (all_cons lists_FC3_Firstboot
    (all_cons lists_FC3_DisplayMode
    (all_cons lists_FC3_Reboot
    (all_cons lists_FC3_HardDrive
    (all_cons lists_FC3_IgnoreDisk
    (all_cons lists_FC3_Upgrade
    (all_cons lists_FC3_Interactive
    (all_cons lists_FC3_Keyboard
    (all_cons lists_FC3_Lang
    (all_cons lists_FC3_LangSupport
    (all_cons lists_FC4_Lilo
    (all_cons lists_FC4_LiloCheck
    (all_cons lists_FC4_LogVol_FC4_LogVolData
    (all_cons lists_FC4_MediaCheck
    (all_cons lists_FC3_Method
    (all_cons lists_FC3_Monitor
    (all_cons lists_FC3_Mouse
    (all_cons lists_FC4_Network_FC4_NetworkData
    (all_cons lists_FC3_NFS
    (all_cons lists_FC4_Partition_FC4_PartData
    (all_cons lists_FC4_Partition_FC4_PartData
    (all_cons lists_FC3_Reboot
    (all_cons lists_FC4_Raid_FC4_RaidData
    (all_cons lists_FC3_Reboot
    (all_cons lists_FC3_RootPw
    (all_cons lists_FC3_SELinux
    (all_cons lists_FC3_Reboot
    (all_cons lists_FC3_SkipX
    (all_cons lists_FC3_DisplayMode
    (all_cons lists_FC3_Timezone
    (all_cons lists_FC3_Upgrade
    (all_cons lists_FC3_Url
    (all_cons lists_FC3_Vnc
    (all_cons lists_FC3_VolGroup_FC3_VolGroupData
    (all_cons lists_FC3_XConfig
    (all_cons lists_FC3_ZeroMbr
    (all_cons lists_FC3_ZFCP_FC3_ZFCPData (List.forall_mem_nil _))))))))))))))))))))))))))))))))))))))))))))))))))

theorem commandMapFC5_lists : ∀ x ∈ commandMapFC5, Command.Lists x.2 := by
  unfold commandMapFC5
  exact (all_cons lists_FC3_Authconfig
    (all_cons lists_FC3_Authconfig
    (all_cons lists_FC3_AutoPart
    (all_cons lists_FC3_AutoStep
    (all_cons lists_FC4_Bootloader
    (all_cons lists_FC3_Cdrom
    (all_cons lists_FC3_ClearPart
    (all_cons lists_FC3_DisplayMode
    (all_cons lists_FC3_Device
    (all_cons lists_FC3_DeviceProbe
    (all_cons lists_FC4_DriverDisk_FC4_DriverDiskData
    (all_cons lists_FC3_Firewall
    (all_cons lists_FC3_Firstboot
    (all_cons lists_FC3_DisplayMode
    (all_cons lists_FC3_Reboot
    (all_cons lists_FC3_HardDrive
    (all_cons lists_FC3_IgnoreDisk
    (all_cons lists_FC3_Upgrade
    (all_cons lists_FC3_Interactive
    (all_cons lists_FC3_Keyboard
    (all_cons lists_FC3_Lang
    (all_cons lists_FC5_LangSupport
    (all_cons lists_FC4_LogVol_FC4_LogVolData
    (all_cons lists_FC4_MediaCheck
    (all_cons lists_FC3_Method
    (all_cons lists_FC3_Monitor
    (all_cons lists_FC3_Mouse
    (all_cons lists_FC4_Network_FC4_NetworkData
    (all_cons lists_FC3_NFS
    (all_cons lists_FC4_Partition_FC4_PartData
    (all_cons lists_FC4_Partition_FC4_PartData
    (all_cons lists_FC3_Reboot
    (all_cons lists_FC5_Raid_FC5_RaidData
    (all_cons lists_FC3_Reboot
    (all_cons lists_FC3_RootPw
    (all_cons lists_FC3_SELinux
    (all_cons lists_FC3_Reboot
    (all_cons lists_FC3_SkipX
    (all_cons lists_FC3_DisplayMode
    (all_cons lists_FC3_Timezone
    (all_cons lists_FC3_Upgrade
    (all_cons lists_FC3_Url
    (all_cons lists_FC3_Vnc
    (all_cons lists_FC3_VolGroup_FC3_VolGroupData
    (all_cons lists_FC3_XConfig
    (all_cons lists_FC3_ZeroMbr
    (all_cons lists_FC3_ZFCP_FC3_ZFCPData (List.forall_mem_nil _))))))))))))))))))))))))))))))))))))))))))))))))

theorem commandMapFC6_lists : ∀ x ∈ commandMapFC6, Command.Lists x.2 := by
  unfold commandMapFC6
  exact (all_cons lists_FC3_Authconfig
    (all_cons lists_FC3_Authconfig
    (all_cons lists_FC3_AutoPart
    (all_cons lists_FC3_AutoStep
    (all_cons lists_FC4_Bootloader
    (all_cons lists_FC3_Cdrom
    (all_cons lists_FC3_ClearPart
    (all_cons lists_FC3_DisplayMode
    (all_cons lists_FC3_Device
    (all_cons lists_FC3_DeviceProbe
    (all_cons lists_FC6_DmRaid_FC6_DmRaidData
    (all_cons lists_FC4_DriverDisk_FC4_DriverDiskData
    (all_cons lists_FC3_Firewall
    (all_cons lists_FC3_Firstboot
    (all_cons lists_FC3_DisplayMode
    (all_cons lists_FC6_Reboot
    (all_cons lists_FC3_HardDrive
    (all_cons lists_FC3_IgnoreDisk
    (all_cons lists_FC3_Upgrade
    (all_cons lists_FC3_Interactive
    (all_cons lists_FC6_Iscsi_FC6_IscsiData
    (all_cons lists_FC6_IscsiName
    (all_cons lists_FC3_Keyboard
    (all_cons lists_FC3_Lang
    (all_cons lists_FC5_LangSupport
    (all_cons lists_FC6_Logging
    (all_cons lists_FC4_LogVol_FC4_LogVolData
    (all_cons lists_FC4_MediaCheck
    (all_cons lists_FC6_Method
    (all_cons lists_FC6_Monitor
    (all_cons lists_FC3_Mouse
    (all_cons lists_FC6_MultiPath_FC6_MultiPathData
    (all_cons lists_FC6_Network_FC6_NetworkData
    (all_cons lists_FC6_NFS
    (all_cons lists_FC4_Partition_FC4_PartData
    (all_cons lists_FC4_Partition_FC4_PartData
    (all_cons lists_FC6_Reboot
    (all_cons lists_FC5_Raid_FC5_RaidData
    (all_cons lists_FC6_Reboot
    (all_cons lists_FC6_Repo_FC6_RepoData
    (all_cons lists_FC3_RootPw
    (all_cons lists_FC3_SELinux
    (all_cons lists_FC6_Services
    (all_cons lists_FC6_Reboot
    (all_cons lists_FC3_SkipX
    (all_cons lists_FC3_DisplayMode
    (all_cons lists_FC6_Timezone
    (all_cons lists_FC3_Upgrade
    (all_cons lists_FC6_User_FC6_UserData
    (all_cons lists_FC3_Url
    (all_cons lists_FC6_Vnc
    (all_cons lists_FC3_VolGroup_FC3_VolGroupData
    (all_cons lists_FC6_XConfig
    (all_cons lists_FC3_ZeroMbr
    (all_cons lists_FC3_ZFCP_FC3_ZFCPData (List.forall_mem_nil _))))))))))))))))))))))))))))))))))))))))))))))))))))))))

theorem commandMapRHEL3_lists : ∀ x ∈ commandMapRHEL3, Command.Lists x.2 := by
  unfold commandMapRHEL3
  exact (all_cons lists_FC3_Authconfig
    (all_cons lists_FC3_Authconfig
    (all_cons lists_FC3_AutoPart
    (all_cons lists_FC3_AutoStep
    (all_cons lists_FC3_Bootloader
    (all_cons lists_FC3_Cdrom
    (all_cons lists_FC3_ClearPart
    (all_cons lists_FC3_DisplayMode
    (all_cons lists_FC3_Device
    (all_cons lists_FC3_DeviceProbe
    (all_cons lists_FC3_DriverDisk_FC3_DriverDiskData
    (all_cons lists_FC3_Firewall
    (all_cons lists_FC3_Firstboot
    (all_cons lists_FC3_DisplayMode
    (all_cons lists_FC3_Reboot
    (all_cons lists_FC3_HardDrive
    (all_cons lists_FC3_IgnoreDisk
    (all_cons lists_FC3_Upgrade
    (all_cons lists_FC3_Interactive
    (all_cons lists_FC3_Keyboard
    (all_cons lists_FC3_Lang
    (all_cons lists_FC3_LangSupport
    (all_cons lists_FC3_Lilo
    (all_cons lists_FC3_LiloCheck
    (all_cons lists_FC3_LogVol_FC3_LogVolData
    (all_cons lists_FC3_Method
    (all_cons lists_FC3_Monitor
    (all_cons lists_RHEL3_Mouse
    (all_cons lists_FC3_Network_RHEL4_NetworkData
    (all_cons lists_FC3_NFS
    (all_cons lists_FC3_Partition_FC3_PartData
    (all_cons lists_FC3_Partition_FC3_PartData
    (all_cons lists_FC3_Reboot
    (all_cons lists_FC3_Raid_FC3_RaidData
    (all_cons lists_FC3_Reboot
    (all_cons lists_FC3_RootPw
    (all_cons lists_FC3_Reboot
    (all_cons lists_FC3_SkipX
    (all_cons lists_FC3_DisplayMode
    (all_cons lists_FC3_Timezone
    (all_cons lists_FC3_Upgrade
    (all_cons lists_FC3_Url
    (all_cons lists_FC3_Vnc
    (all_cons lists_FC3_VolGroup_FC3_VolGroupData
    (all_cons lists_FC3_XConfig
    (all_cons lists_FC3_ZeroMbr (List.forall_mem_nil _)))))))))))))))))))))))))))))))))))))))))))))))

theorem commandMapRHEL4_lists : ∀ x ∈ commandMapRHEL4, Command.Lists x.2 := by
  unfold commandMapRHEL4
  exact (all_cons lists_FC3_Authconfig
    (all_cons lists_FC3_Authconfig
    (all_cons lists_FC3_AutoPart
    (all_cons lists_FC3_AutoStep
    (all_cons lists_FC3_Bootloader
    (all_cons lists_FC3_Cdrom
    (all_cons lists_FC3_ClearPart
    (all_cons lists_FC3_DisplayMode
    (all_cons lists_FC3_Device
    (all_cons lists_FC3_DeviceProbe
    (all_cons lists_FC4_DriverDisk_FC4_DriverDiskData
    (all_cons lists_FC3_Firewall
    (all_cons lists_FC3_Firstboot
    (all_cons lists_FC3_DisplayMode
    (all_cons lists_FC3_Reboot
    (all_cons lists_FC3_HardDrive
    (all_cons lists_F8_IgnoreDisk
    (all_cons lists_FC3_Upgrade
    (all_cons lists_FC3_Interactive
    (all_cons lists_FC3_Keyboard
    (all_cons lists_FC3_Lang
    (all_cons lists_FC3_LangSupport
    (all_cons lists_FC3_Lilo
    (all_cons lists_FC3_LiloCheck
    (all_cons lists_FC3_LogVol_FC3_LogVolData
    (all_cons lists_FC3_Method
    (all_cons lists_FC3_Monitor
    (all_cons lists_FC3_Mouse
    (all_cons lists_RHEL4_Network_RHEL4_NetworkData
    (all_cons lists_FC3_NFS
    (all_cons lists_FC3_Partition_FC3_PartData
    (all_cons lists_FC3_Partition_FC3_PartData
    (all_cons lists_FC3_Reboot
    (all_cons lists_FC3_Raid_FC3_RaidData
    (all_cons lists_FC3_Reboot
    (all_cons lists_FC3_RootPw
    (all_cons lists_FC3_SELinux
    (all_cons lists_FC3_Reboot
    (all_cons lists_FC3_SkipX
    (all_cons lists_FC3_DisplayMode
    (all_cons lists_FC3_Timezone
    (all_cons lists_FC3_Upgrade
    (all_cons lists_FC3_Url
    (all_cons lists_FC3_Vnc
    (all_cons lists_FC3_VolGroup_FC3_VolGroupData
    (all_cons lists_FC3_XConfig
    (all_cons lists_FC3_ZeroMbr
    (all_cons lists_FC3_ZFCP_FC3_ZFCPData (List.forall_mem_nil _)))))))))))))))))))))))))))))))))))))))))))))))))

theorem commandMapRHEL5_lists : ∀ x ∈ commandMapRHEL5, Command.Lists x.2 := by
  unfold commandMapRHEL5
  exact (all_cons lists_FC3_Authconfig
    (all_cons lists_FC3_Authconfig
    (all_cons lists_F9_AutoPart
    (all_cons lists_FC3_AutoStep
    (all_cons lists_RHEL5_Bootloader
    (all_cons lists_FC3_Cdrom
    (all_cons lists_FC3_ClearPart
    (all_cons lists_FC3_DisplayMode
    (all_cons lists_FC3_Device
    (all_cons lists_FC3_DeviceProbe
    (all_cons lists_FC6_DmRaid_FC6_DmRaidData
    (all_cons lists_F12_DriverDisk_F12_DriverDiskData
    (all_cons lists_FC3_Firewall
    (all_cons lists_FC3_Firstboot
    (all_cons lists_FC3_DisplayMode
    (all_cons lists_FC6_Reboot
    (all_cons lists_FC3_HardDrive
    (all_cons lists_F8_IgnoreDisk
    (all_cons lists_FC3_Upgrade
    (all_cons lists_FC3_Interactive
    (all_cons lists_FC6_Iscsi_FC6_IscsiData
    (all_cons lists_FC6_IscsiName
    (all_cons lists_RHEL5_Key
    (all_cons lists_FC3_Keyboard
    (all_cons lists_FC3_Lang
    (all_cons lists_FC5_LangSupport
    (all_cons lists_FC6_Logging
    (all_cons lists_RHEL5_LogVol_RHEL5_LogVolData
    (all_cons lists_FC4_MediaCheck
    (all_cons lists_FC6_Method
    (all_cons lists_FC6_Monitor
    (all_cons lists_FC3_Mouse
    (all_cons lists_FC6_MultiPath_FC6_MultiPathData
    (all_cons lists_RHEL5_Network_FC6_NetworkData
    (all_cons lists_FC6_NFS
    (all_cons lists_RHEL5_Partition_RHEL5_PartData
    (all_cons lists_RHEL5_Partition_RHEL5_PartData
    (all_cons lists_FC6_Reboot
    (all_cons lists_RHEL5_Raid_RHEL5_RaidData
    (all_cons lists_FC6_Reboot
    (all_cons lists_FC6_Repo_FC6_RepoData
    (all_cons lists_FC3_RootPw
    (all_cons lists_FC6_Services
    (all_cons lists_FC3_SELinux
    (all_cons lists_FC6_Reboot
    (all_cons lists_FC3_SkipX
    (all_cons lists_FC3_DisplayMode
    (all_cons lists_FC6_Timezone
    (all_cons lists_FC3_Upgrade
    (all_cons lists_FC6_User_FC6_UserData
    (all_cons lists_FC3_Url
    (all_cons lists_FC6_Vnc
    (all_cons lists_FC3_VolGroup_FC3_VolGroupData
    (all_cons lists_FC6_XConfig
    (all_cons lists_FC3_ZeroMbr
    (all_cons lists_FC3_ZFCP_FC3_ZFCPData (List.forall_mem_nil _)))))))))))))))))))))))))))))))))))))))))))))))))))))))))

theorem commandMapRHEL6_lists : ∀ x ∈ commandMapRHEL6, Command.Lists x.2 := by
  unfold commandMapRHEL6
  exact (all_cons lists_FC3_Authconfig
    (all_cons lists_FC3_Authconfig
    (all_cons lists_RHEL6_AutoPart
    (all_cons lists_FC3_AutoStep
    (all_cons lists_RHEL6_Bootloader
    (all_cons lists_FC3_Cdrom
    (all_cons lists_FC3_ClearPart
    (all_cons lists_FC3_DisplayMode
    (all_cons lists_F8_Device_F8_DeviceData
    (all_cons lists_FC3_DeviceProbe
    (all_cons lists_FC6_DmRaid_FC6_DmRaidData
    (all_cons lists_F12_DriverDisk_F12_DriverDiskData
    (all_cons lists_F13_Fcoe_F13_FcoeData
    (all_cons lists_F10_Firewall
    (all_cons lists_FC3_Firstboot
    (all_cons lists_FC3_DisplayMode
    (all_cons lists_F12_Group_F12_GroupData
    (all_cons lists_FC6_Reboot
    (all_cons lists_FC3_HardDrive
    (all_cons lists_RHEL6_IgnoreDisk
    (all_cons lists_F11_Upgrade
    (all_cons lists_FC3_Interactive
    (all_cons lists_RHEL6_Iscsi_RHEL6_IscsiData
    (all_cons lists_FC6_IscsiName
    (all_cons lists_RHEL5_Key
    (all_cons lists_FC3_Keyboard
    (all_cons lists_FC3_Lang
    (all_cons lists_FC6_Logging
    (all_cons lists_RHEL6_LogVol_RHEL6_LogVolData
    (all_cons lists_FC4_MediaCheck
    (all_cons lists_RHEL6_Method
    (all_cons lists_F10_Monitor
    (all_cons lists_FC6_MultiPath_FC6_MultiPathData
    (all_cons lists_RHEL6_Network_RHEL6_NetworkData
    (all_cons lists_FC6_NFS
    (all_cons lists_RHEL6_Partition_RHEL6_PartData
    (all_cons lists_RHEL6_Partition_RHEL6_PartData
    (all_cons lists_FC6_Reboot
    (all_cons lists_RHEL6_Raid_RHEL6_RaidData
    (all_cons lists_FC6_Reboot
    (all_cons lists_RHEL6_Repo_RHEL6_RepoData
    (all_cons lists_F10_Rescue
    (all_cons lists_F8_RootPw
    (all_cons lists_FC3_SELinux
    (all_cons lists_FC6_Services
    (all_cons lists_FC6_Reboot
    (all_cons lists_FC3_SkipX
    (all_cons lists_F13_SshPw_F13_SshPwData
    (all_cons lists_FC3_DisplayMode
    (all_cons lists_FC6_Timezone
    (all_cons lists_RHEL6_UnsupportedHardware
    (all_cons lists_F7_Updates
    (all_cons lists_F11_Upgrade
    (all_cons lists_RHEL6_Url
    (all_cons lists_F12_User_F12_UserData
    (all_cons lists_F9_Vnc
    (all_cons lists_F16_VolGroup_F16_VolGroupData
    (all_cons lists_F10_XConfig
    (all_cons lists_F9_ZeroMbr
    (all_cons lists_F12_ZFCP_F12_ZFCPData (List.forall_mem_nil _)))))))))))))))))))))))))))))))))))))))))))))))))))))))))))))

theorem commandMapRHEL7_lists : ∀ x ∈ commandMapRHEL7, Command.Lists x.2 := by
  unfold commandMapRHEL7
  exact (all_cons lists_FC3_Authconfig
    (all_cons lists_FC3_Authconfig
    (all_cons lists_RHEL7_AutoPart
    (all_cons lists_FC3_AutoStep
    (all_cons lists_RHEL7_Bootloader
    (all_cons lists_RHEL7_BTRFS_RHEL7_BTRFSData
    (all_cons lists_FC3_Cdrom
    (all_cons lists_RHEL7_ClearPart
    (all_cons lists_FC3_DisplayMode
    (all_cons lists_F8_Device_F8_DeviceData
    (all_cons lists_FC3_DeviceProbe
    (all_cons lists_FC6_DmRaid_FC6_DmRaidData
    (all_cons lists_F14_DriverDisk_F14_DriverDiskData
    (all_cons lists_F20_Eula
    (all_cons lists_RHEL7_Fcoe_RHEL7_FcoeData
    (all_cons lists_F20_Firewall
    (all_cons lists_FC3_Firstboot
    (all_cons lists_FC3_DisplayMode
    (all_cons lists_F12_Group_F12_GroupData
    (all_cons lists_F18_Reboot
    (all_cons lists_FC3_HardDrive
    (all_cons lists_RHEL7_Hmc
    (all_cons lists_F14_IgnoreDisk
    (all_cons lists_F11_Upgrade
    (all_cons lists_F17_Iscsi_F17_IscsiData
    (all_cons lists_FC6_IscsiName
    (all_cons lists_F18_Keyboard
    (all_cons lists_F19_Lang
    (all_cons lists_F19_Liveimg
    (all_cons lists_FC6_Logging
    (all_cons lists_RHEL7_LogVol_RHEL7_LogVolData
    (all_cons lists_FC4_MediaCheck
    (all_cons lists_RHEL7_Method
    (all_cons lists_FC6_MultiPath_FC6_MultiPathData
    (all_cons lists_RHEL7_Network_RHEL7_NetworkData
    (all_cons lists_FC6_NFS
    (all_cons lists_F28_Nvdimm_F28_NvdimmData
    (all_cons lists_RHEL7_OSTreeSetup
    (all_cons lists_RHEL7_Partition_RHEL7_PartData
    (all_cons lists_RHEL7_Partition_RHEL7_PartData
    (all_cons lists_F18_Reboot
    (all_cons lists_RHEL7_Raid_RHEL7_RaidData
    (all_cons lists_F19_Realm
    (all_cons lists_F18_Reboot
    (all_cons lists_RHEL7_Repo_RHEL7_RepoData
    (all_cons lists_RHEL7_ReqPart
    (all_cons lists_F10_Rescue
    (all_cons lists_F18_RootPw
    (all_cons lists_FC3_SELinux
    (all_cons lists_FC6_Services
    (all_cons lists_F18_Reboot
    (all_cons lists_FC3_SkipX
    (all_cons lists_F26_Snapshot_F26_SnapshotData
    (all_cons lists_F13_SshPw_F13_SshPwData
    (all_cons lists_FC3_DisplayMode
    (all_cons lists_RHEL7_Timezone
    (all_cons lists_RHEL6_UnsupportedHardware
    (all_cons lists_F7_Updates
    (all_cons lists_F20_Upgrade
    (all_cons lists_F18_Url
    (all_cons lists_F19_User_F19_UserData
    (all_cons lists_F9_Vnc
    (all_cons lists_RHEL7_VolGroup_RHEL7_VolGroupData
    (all_cons lists_F14_XConfig
    (all_cons lists_F9_ZeroMbr
    (all_cons lists_F14_ZFCP_F14_ZFCPData (List.forall_mem_nil _)))))))))))))))))))))))))))))))))))))))))))))))))))))))))))))))))))

theorem commandMapRHEL8_lists : ∀ x ∈ commandMapRHEL8, Command.Lists x.2 := by
  unfold commandMapRHEL8
  exact (all_cons lists_F28_Authconfig
    (all_cons lists_F28_Authconfig
    (all_cons lists_F28_Authselect
    (all_cons lists_RHEL8_AutoPart
    (all_cons lists_FC3_AutoStep
    (all_cons lists_RHEL8_Bootloader
    (all_cons lists_RHEL8_BTRFS
    (all_cons lists_FC3_Cdrom
    (all_cons lists_F28_ClearPart
    (all_cons lists_F26_DisplayMode
    (all_cons lists_F24_Device
    (all_cons lists_F29_DeviceProbe
    (all_cons lists_F24_DmRaid
    (all_cons lists_F14_DriverDisk_F14_DriverDiskData
    (all_cons lists_RHEL8_Module_RHEL8_ModuleData
    (all_cons lists_F20_Eula
    (all_cons lists_RHEL8_Fcoe_RHEL8_FcoeData
    (all_cons lists_F28_Firewall
    (all_cons lists_FC3_Firstboot
    (all_cons lists_F26_DisplayMode
    (all_cons lists_F12_Group_F12_GroupData
    (all_cons lists_F23_Reboot
    (all_cons lists_FC3_HardDrive
    (all_cons lists_F28_Hmc
    (all_cons lists_F29_IgnoreDisk
    (all_cons lists_F29_Install
    (all_cons lists_F17_Iscsi_F17_IscsiData
    (all_cons lists_FC6_IscsiName
    (all_cons lists_F18_Keyboard
    (all_cons lists_F19_Lang
    (all_cons lists_F19_Liveimg
    (all_cons lists_FC6_Logging
    (all_cons lists_RHEL8_LogVol_RHEL8_LogVolData
    (all_cons lists_FC4_MediaCheck
    (all_cons lists_F28_Method
    (all_cons lists_F27_Mount_F27_MountData
    (all_cons lists_F24_MultiPath
    (all_cons lists_F27_Network_F27_NetworkData
    (all_cons lists_FC6_NFS
    (all_cons lists_F28_Nvdimm_F28_NvdimmData
    (all_cons lists_RHEL8_OSTreeSetup
    (all_cons lists_RHEL8_Partition_RHEL8_PartData
    (all_cons lists_RHEL8_Partition_RHEL8_PartData
    (all_cons lists_F23_Reboot
    (all_cons lists_RHEL8_Raid_RHEL8_RaidData
    (all_cons lists_F19_Realm
    (all_cons lists_F23_Reboot
    (all_cons lists_RHEL8_Repo_RHEL8_RepoData
    (all_cons lists_F23_ReqPart
    (all_cons lists_F10_Rescue
    (all_cons lists_RHEL8_RHSM
    (all_cons lists_F18_RootPw
    (all_cons lists_FC3_SELinux
    (all_cons lists_FC6_Services
    (all_cons lists_F23_Reboot
    (all_cons lists_FC3_SkipX
    (all_cons lists_F26_Snapshot_F26_SnapshotData
    (all_cons lists_F24_SshPw_F24_SshPwData
    (all_cons lists_F22_SshKey_F22_SshKeyData
    (all_cons lists_RHEL8_Syspurpose
    (all_cons lists_F26_DisplayMode
    (all_cons lists_F25_Timezone
    (all_cons lists_F7_Updates
    (all_cons lists_RHEL8_Url
    (all_cons lists_F24_User_F19_UserData
    (all_cons lists_F9_Vnc
    (all_cons lists_RHEL8_VolGroup_RHEL8_VolGroupData
    (all_cons lists_F14_XConfig
    (all_cons lists_F9_ZeroMbr
    (all_cons lists_F14_ZFCP_F14_ZFCPData
    (all_cons lists_RHEL8_Zipl (List.forall_mem_nil _))))))))))))))))))))))))))))))))))))))))))))))))))))))))))))))))))))))))

theorem commandMaps_lists : ∀ y ∈ commandMaps, ∀ x ∈ y.2, Command.Lists x.2 := by
  unfold commandMaps
  exact (all_cons commandMapF10_lists (all_cons commandMapF11_lists (all_cons commandMapF12_lists (all_cons commandMapF13_lists (all_cons commandMapF14_lists (all_cons commandMapF15_lists (all_cons commandMapF16_lists (all_cons commandMapF17_lists (all_cons commandMapF18_lists (all_cons commandMapF19_lists (all_cons commandMapF20_lists (all_cons commandMapF21_lists (all_cons commandMapF22_lists (all_cons commandMapF23_lists (all_cons commandMapF24_lists (all_cons commandMapF25_lists (all_cons commandMapF26_lists (all_cons commandMapF27_lists (all_cons commandMapF28_lists (all_cons commandMapF29_lists (all_cons commandMapF30_lists (all_cons commandMapF31_lists (all_cons commandMapF32_lists (all_cons commandMapF33_lists (all_cons commandMapF34_lists (all_cons commandMapF7_lists (all_cons commandMapF8_lists (all_cons commandMapF9_lists (all_cons commandMapFC3_lists (all_cons commandMapFC4_lists (all_cons commandMapFC5_lists (all_cons commandMapFC6_lists (all_cons commandMapRHEL3_lists (all_cons commandMapRHEL4_lists (all_cons commandMapRHEL5_lists (all_cons commandMapRHEL6_lists (all_cons commandMapRHEL7_lists (all_cons commandMapRHEL8_lists (List.forall_mem_nil _)))))))))))))))))))))))))))))))))))))))

end Ks.Cmd
