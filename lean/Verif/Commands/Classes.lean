import Verif.Commands.Ok
/-!
# Which exceptions each command class raises

Written by `scripts/gen_ok.py`.
-/
namespace Ks.Cmd

theorem ok_FC3_Authconfig : Command.Ok (FC3_Authconfig.cls) anyNs (fun _ => ParseErr) :=
  plain_ok fun args => FC3_Authconfig.parse_good FC3_Authconfig.info args 

theorem ok_F9_AutoPart : Command.Ok (F9_AutoPart.cls) anyNs (fun _ => ParseErr) :=
  plain_ok fun args => F9_AutoPart.parse_good F9_AutoPart.info args 

theorem ok_FC3_AutoStep : Command.Ok (FC3_AutoStep.cls) anyNs (fun _ => ParseErr) :=
  plain_ok fun args => FC3_AutoStep.parse_good FC3_AutoStep.info args 

theorem ok_F8_Bootloader : Command.Ok (F8_Bootloader.cls) anyNs (fun _ => ParseErr) :=
  plain_ok fun args => FC4_Bootloader.parse_good F8_Bootloader.info args 

theorem ok_FC3_Cdrom : Command.Ok (FC3_Cdrom.cls) anyNs (fun _ => ParseErr) :=
  plain_ok fun args => FC3_Cdrom.parse_good FC3_Cdrom.info args 

theorem ok_FC3_ClearPart : Command.Ok (FC3_ClearPart.cls) anyNs (fun _ => ParseErr) :=
  plain_ok fun args => FC3_ClearPart.parse_good FC3_ClearPart.info args 

theorem ok_FC3_DisplayMode : Command.Ok (FC3_DisplayMode.cls) anyNs (fun _ => ParseErr) :=
  plain_ok fun args => FC3_DisplayMode.parse_good FC3_DisplayMode.info args 

theorem ok_F8_Device_F8_DeviceData : Command.Ok (F8_Device.cls F8_DeviceData.cls) anyNs (fun _ => ParseErr) :=
  list_ok fun args => F8_Device.parse_good (F8_Device.info F8_DeviceData.cls) args 

theorem ok_FC3_DeviceProbe : Command.Ok (FC3_DeviceProbe.cls) anyNs (fun _ => ParseErr) :=
  plain_ok fun args => FC3_DeviceProbe.parse_good FC3_DeviceProbe.info args 

theorem ok_FC6_DmRaid_FC6_DmRaidData : Command.Ok (FC6_DmRaid.cls FC6_DmRaidData.cls) anyNs (fun _ => ParseErr) :=
  list_ok fun args => FC6_DmRaid.parse_good (FC6_DmRaid.info FC6_DmRaidData.cls) args (by decide +kernel) (by decide +kernel)

theorem ok_FC4_DriverDisk_FC4_DriverDiskData : Command.Ok (FC4_DriverDisk.cls FC4_DriverDiskData.cls) anyNs (fun _ => ParseErr) :=
  list_ok fun args => FC4_DriverDisk.parse_good (FC4_DriverDisk.info FC4_DriverDiskData.cls) args 

theorem ok_F10_Firewall : Command.Ok (F10_Firewall.cls) anyNs (fun _ => ParseErr) :=
  plain_ok fun args => FC3_Firewall.parse_good F10_Firewall.info args 

theorem ok_FC3_Firstboot : Command.Ok (FC3_Firstboot.cls) anyNs (fun _ => ParseErr) :=
  plain_ok fun args => FC3_Firstboot.parse_good FC3_Firstboot.info args 

theorem ok_FC6_Reboot : Command.Ok (FC6_Reboot.cls) anyNs (fun _ => ParseErr) :=
  plain_ok fun args => FC6_Reboot.parse_good FC6_Reboot.info args 

theorem ok_FC3_HardDrive : Command.Ok (FC3_HardDrive.cls) anyNs (fun _ => ParseErr) :=
  plain_ok fun args => FC3_HardDrive.parse_good FC3_HardDrive.info args 

theorem ok_F8_IgnoreDisk : Command.Ok (F8_IgnoreDisk.cls) anyNs (fun _ => ParseErr) :=
  plain_ok fun args => F8_IgnoreDisk.parse_good F8_IgnoreDisk.info args 

theorem ok_FC3_Upgrade : Command.Ok (FC3_Upgrade.cls) anyNs (fun _ => ParseErr) :=
  plain_ok fun args => FC3_Upgrade.parse_good FC3_Upgrade.info args 

theorem ok_FC3_Interactive : Command.Ok (FC3_Interactive.cls) anyNs (fun _ => ParseErr) :=
  plain_ok fun args => FC3_Interactive.parse_good FC3_Interactive.info args 

theorem ok_F10_Iscsi_F10_IscsiData : Command.Ok (F10_Iscsi.cls F10_IscsiData.cls) anyNs (fun _ => ParseErr) :=
  list_ok fun args => FC6_Iscsi.parse_good (F10_Iscsi.info F10_IscsiData.cls) args 

theorem ok_FC6_IscsiName : Command.Ok (FC6_IscsiName.cls) anyNs (fun _ => ParseErr) :=
  plain_ok fun args => FC6_IscsiName.parse_good FC6_IscsiName.info args (by decide +kernel)

theorem ok_FC3_Keyboard : Command.Ok (FC3_Keyboard.cls) anyNs (fun _ => ParseErr) :=
  plain_ok fun args => FC3_Keyboard.parse_good FC3_Keyboard.info args (by decide +kernel)

theorem ok_FC3_Lang : Command.Ok (FC3_Lang.cls) anyNs (fun _ => ParseErr) :=
  plain_ok fun args => FC3_Lang.parse_good FC3_Lang.info args (by decide +kernel)

theorem ok_FC6_Logging : Command.Ok (FC6_Logging.cls) anyNs (fun _ => ParseErr) :=
  plain_ok fun args => FC6_Logging.parse_good FC6_Logging.info args 

theorem ok_F9_LogVol_F9_LogVolData : Command.Ok (F9_LogVol.cls F9_LogVolData.cls) anyNs (fun _ => ParseErr) :=
  list_ok fun args => FC3_LogVol.parse_good (F9_LogVol.info F9_LogVolData.cls) args (by decide +kernel)

theorem ok_FC4_MediaCheck : Command.Ok (FC4_MediaCheck.cls) anyNs (fun _ => ParseErr) :=
  plain_ok fun args => FC4_MediaCheck.parse_good FC4_MediaCheck.info args 

theorem ok_FC6_Method : Command.Ok (FC6_Method.cls) anyNs (fun _ => ParseErrOr (· = .type)) :=
  method_ok

theorem ok_F10_Monitor : Command.Ok (F10_Monitor.cls) anyNs (fun _ => ParseErr) :=
  deprecated_ok

theorem ok_FC6_MultiPath_FC6_MultiPathData : Command.Ok (FC6_MultiPath.cls FC6_MultiPathData.cls) anyNs (fun _ => ParseErrOr (· = .attribute)) :=
  FC6_MultiPath.ok _

theorem ok_F9_Network_F8_NetworkData : Command.Ok (F9_Network.cls F8_NetworkData.cls) anyNs (fun _ => ParseErr) :=
  list_ok fun args => FC3_Network.parse_good (F9_Network.info F8_NetworkData.cls) args 

theorem ok_FC6_NFS : Command.Ok (FC6_NFS.cls) anyNs (fun _ => ParseErr) :=
  plain_ok fun args => FC3_NFS.parse_good FC6_NFS.info args 

theorem ok_F9_Partition_F9_PartData : Command.Ok (F9_Partition.cls F9_PartData.cls) anyNs (fun _ => ParseErr) :=
  list_ok fun args => FC3_Partition.parse_good (F9_Partition.info F9_PartData.cls) args (by decide +kernel)

theorem ok_F9_Raid_F9_RaidData : Command.Ok (F9_Raid.cls F9_RaidData.cls) anyNs (fun _ => ParseErrOr (· = .value)) :=
  list_ok fun args => FC3_Raid.parse_good (F9_Raid.info F9_RaidData.cls) args (by decide +kernel) (by decide +kernel) FC3_Raid.device_err

theorem ok_F8_Repo_F8_RepoData : Command.Ok (F8_Repo.cls F8_RepoData.cls) anyNs (fun _ => ParseErr) :=
  list_ok fun args => FC6_Repo.parse_good (F8_Repo.info F8_RepoData.cls) args 

theorem ok_F10_Rescue : Command.Ok (F10_Rescue.cls) anyNs (fun _ => ParseErr) :=
  plain_ok fun args => F10_Rescue.parse_good F10_Rescue.info args 

theorem ok_F8_RootPw : Command.Ok (F8_RootPw.cls) anyNs (fun _ => ParseErr) :=
  plain_ok fun args => FC3_RootPw.parse_good F8_RootPw.info args 

theorem ok_FC3_SELinux : Command.Ok (FC3_SELinux.cls) anyNs (fun _ => ParseErr) :=
  plain_ok fun args => FC3_SELinux.parse_good FC3_SELinux.info args 

theorem ok_FC6_Services : Command.Ok (FC6_Services.cls) anyNs (fun _ => ParseErr) :=
  plain_ok fun args => FC6_Services.parse_good FC6_Services.info args 

theorem ok_FC3_SkipX : Command.Ok (FC3_SkipX.cls) anyNs (fun _ => ParseErr) :=
  plain_ok fun args => FC3_SkipX.parse_good FC3_SkipX.info args 

theorem ok_FC6_Timezone : Command.Ok (FC6_Timezone.cls) anyNs (fun _ => ParseErr) :=
  plain_ok fun args => FC3_Timezone.parse_good FC6_Timezone.info args (by decide +kernel)

theorem ok_F7_Updates : Command.Ok (F7_Updates.cls) anyNs (fun _ => ParseErr) :=
  plain_ok fun args => F7_Updates.parse_good F7_Updates.info args (by decide +kernel)

theorem ok_FC3_Url : Command.Ok (FC3_Url.cls) anyNs (fun _ => ParseErr) :=
  plain_ok fun args => FC3_Url.parse_good FC3_Url.info args 

theorem ok_F8_User_F8_UserData : Command.Ok (F8_User.cls F8_UserData.cls) anyNs (fun _ => ParseErr) :=
  list_ok fun args => FC6_User.parse_good (F8_User.info F8_UserData.cls) args 

theorem ok_F9_Vnc : Command.Ok (F9_Vnc.cls) vncInv (fun _ => ParseErr) :=
  vnc_ok (by decide +kernel) (Or.inl rfl)

theorem ok_FC3_VolGroup_FC3_VolGroupData : Command.Ok (FC3_VolGroup.cls FC3_VolGroupData.cls) anyNs (fun _ => ParseErr) :=
  list_ok fun args => FC3_VolGroup.parse_good (FC3_VolGroup.info FC3_VolGroupData.cls) args (by decide +kernel)

theorem ok_F10_XConfig : Command.Ok (F10_XConfig.cls) anyNs (fun _ => ParseErr) :=
  plain_ok fun args => FC3_XConfig.parse_good F10_XConfig.info args 

theorem ok_F9_ZeroMbr : Command.Ok (F9_ZeroMbr.cls) anyNs (fun _ => ParseErr) :=
  plain_ok fun args => F9_ZeroMbr.parse_good F9_ZeroMbr.info args 

theorem ok_FC3_ZFCP_FC3_ZFCPData : Command.Ok (FC3_ZFCP.cls FC3_ZFCPData.cls) anyNs (fun _ => ParseErr) :=
  list_ok fun args => FC3_ZFCP.parse_good (FC3_ZFCP.info FC3_ZFCPData.cls) args 

theorem ok_F11_Upgrade : Command.Ok (F11_Upgrade.cls) anyNs (fun _ => ParseErr) :=
  plain_ok fun args => F11_Upgrade.parse_good F11_Upgrade.info args 

theorem ok_F11_Partition_F11_PartData : Command.Ok (F11_Partition.cls F11_PartData.cls) anyNs (fun _ => ParseErr) :=
  list_ok fun args => FC3_Partition.parse_good (F11_Partition.info F11_PartData.cls) args (by decide +kernel)

theorem ok_F11_Repo_F11_RepoData : Command.Ok (F11_Repo.cls F11_RepoData.cls) anyNs (fun _ => ParseErr) :=
  list_ok fun args => FC6_Repo.parse_good (F11_Repo.info F11_RepoData.cls) args 

theorem ok_F12_AutoPart : Command.Ok (F12_AutoPart.cls) anyNs (fun _ => ParseErr) :=
  plain_ok fun args => F9_AutoPart.parse_good F12_AutoPart.info args 

theorem ok_F12_Bootloader : Command.Ok (F12_Bootloader.cls) anyNs (fun _ => ParseErr) :=
  plain_ok fun args => FC4_Bootloader.parse_good F12_Bootloader.info args 

theorem ok_F12_DriverDisk_F12_DriverDiskData : Command.Ok (F12_DriverDisk.cls F12_DriverDiskData.cls) anyNs (fun _ => ParseErr) :=
  list_ok fun args => FC4_DriverDisk.parse_good (F12_DriverDisk.info F12_DriverDiskData.cls) args 

theorem ok_F12_Fcoe_F12_FcoeData : Command.Ok (F12_Fcoe.cls F12_FcoeData.cls) anyNs (fun _ => ParseErr) :=
  list_ok fun args => F12_Fcoe.parse_good (F12_Fcoe.info F12_FcoeData.cls) args 

theorem ok_F12_Group_F12_GroupData : Command.Ok (F12_Group.cls F12_GroupData.cls) anyNs (fun _ => ParseErr) :=
  list_ok fun args => F12_Group.parse_good (F12_Group.info F12_GroupData.cls) args 

theorem ok_F12_LogVol_F12_LogVolData : Command.Ok (F12_LogVol.cls F12_LogVolData.cls) anyNs (fun _ => ParseErr) :=
  list_ok fun args => FC3_LogVol.parse_good (F12_LogVol.info F12_LogVolData.cls) args (by decide +kernel)

theorem ok_F12_Partition_F12_PartData : Command.Ok (F12_Partition.cls F12_PartData.cls) anyNs (fun _ => ParseErr) :=
  list_ok fun args => FC3_Partition.parse_good (F12_Partition.info F12_PartData.cls) args (by decide +kernel)

theorem ok_F12_Raid_F12_RaidData : Command.Ok (F12_Raid.cls F12_RaidData.cls) anyNs (fun _ => ParseErrOr (· = .value)) :=
  list_ok fun args => FC3_Raid.parse_good (F12_Raid.info F12_RaidData.cls) args (by decide +kernel) (by decide +kernel) FC3_Raid.device_err

theorem ok_F12_User_F12_UserData : Command.Ok (F12_User.cls F12_UserData.cls) anyNs (fun _ => ParseErr) :=
  list_ok fun args => FC6_User.parse_good (F12_User.info F12_UserData.cls) args 

theorem ok_F12_ZFCP_F12_ZFCPData : Command.Ok (F12_ZFCP.cls F12_ZFCPData.cls) anyNs (fun _ => ParseErr) :=
  list_ok fun args => FC3_ZFCP.parse_good (F12_ZFCP.info F12_ZFCPData.cls) args 

theorem ok_F13_Fcoe_F13_FcoeData : Command.Ok (F13_Fcoe.cls F13_FcoeData.cls) anyNs (fun _ => ParseErr) :=
  list_ok fun args => F12_Fcoe.parse_good (F13_Fcoe.info F13_FcoeData.cls) args 

theorem ok_F13_Method : Command.Ok (F13_Method.cls) anyNs (fun _ => ParseErrOr (· = .type)) :=
  method_ok

theorem ok_F13_Raid_F13_RaidData : Command.Ok (F13_Raid.cls F13_RaidData.cls) anyNs (fun _ => ParseErrOr (· = .value)) :=
  list_ok fun args => FC3_Raid.parse_good (F13_Raid.info F13_RaidData.cls) args (by decide +kernel) (by decide +kernel) FC3_Raid.device_err

theorem ok_F13_Repo_F13_RepoData : Command.Ok (F13_Repo.cls F13_RepoData.cls) anyNs (fun _ => ParseErr) :=
  list_ok fun args => FC6_Repo.parse_good (F13_Repo.info F13_RepoData.cls) args 

theorem ok_F13_SshPw_F13_SshPwData : Command.Ok (F13_SshPw.cls F13_SshPwData.cls) anyNs (fun _ => ParseErr) :=
  list_ok fun args => F13_SshPw.parse_good (F13_SshPw.info F13_SshPwData.cls) args 

theorem ok_F13_Url : Command.Ok (F13_Url.cls) anyNs (fun _ => ParseErr) :=
  plain_ok fun args => FC3_Url.parse_good F13_Url.info args 

theorem ok_F14_Bootloader : Command.Ok (F14_Bootloader.cls) anyNs (fun _ => ParseErr) :=
  plain_ok fun args => FC4_Bootloader.parse_good F14_Bootloader.info args 

theorem ok_F14_DriverDisk_F14_DriverDiskData : Command.Ok (F14_DriverDisk.cls F14_DriverDiskData.cls) anyNs (fun _ => ParseErr) :=
  list_ok fun args => FC4_DriverDisk.parse_good (F14_DriverDisk.info F14_DriverDiskData.cls) args 

theorem ok_F14_Firewall : Command.Ok (F14_Firewall.cls) anyNs (fun _ => ParseErr) :=
  plain_ok fun args => FC3_Firewall.parse_good F14_Firewall.info args 

theorem ok_F14_IgnoreDisk : Command.Ok (F14_IgnoreDisk.cls) anyNs (fun _ => ParseErr) :=
  plain_ok fun args => RHEL6_IgnoreDisk.parse_good F14_IgnoreDisk.info args 

theorem ok_F14_Interactive : Command.Ok (F14_Interactive.cls) anyNs (fun _ => ParseErr) :=
  deprecated_ok

theorem ok_F14_LogVol_F14_LogVolData : Command.Ok (F14_LogVol.cls F14_LogVolData.cls) anyNs (fun _ => ParseErr) :=
  list_ok fun args => FC3_LogVol.parse_good (F14_LogVol.info F14_LogVolData.cls) args (by decide +kernel)

theorem ok_F14_Method : Command.Ok (F14_Method.cls) anyNs (fun _ => ParseErrOr (· = .type)) :=
  method_ok

theorem ok_F14_Partition_F14_PartData : Command.Ok (F14_Partition.cls F14_PartData.cls) anyNs (fun _ => ParseErr) :=
  list_ok fun args => FC3_Partition.parse_good (F14_Partition.info F14_PartData.cls) args (by decide +kernel)

theorem ok_F14_Raid_F14_RaidData : Command.Ok (F14_Raid.cls F14_RaidData.cls) anyNs (fun _ => ParseErrOr (· = .value)) :=
  list_ok fun args => FC3_Raid.parse_good (F14_Raid.info F14_RaidData.cls) args (by decide +kernel) (by decide +kernel) FC3_Raid.device_err

theorem ok_F14_Repo_F14_RepoData : Command.Ok (F14_Repo.cls F14_RepoData.cls) anyNs (fun _ => ParseErr) :=
  list_ok fun args => FC6_Repo.parse_good (F14_Repo.info F14_RepoData.cls) args 

theorem ok_F14_Url : Command.Ok (F14_Url.cls) anyNs (fun _ => ParseErr) :=
  plain_ok fun args => FC3_Url.parse_good F14_Url.info args 

theorem ok_F14_XConfig : Command.Ok (F14_XConfig.cls) anyNs (fun _ => ParseErr) :=
  plain_ok fun args => FC3_XConfig.parse_good F14_XConfig.info args 

theorem ok_F14_ZFCP_F14_ZFCPData : Command.Ok (F14_ZFCP.cls F14_ZFCPData.cls) anyNs (fun _ => ParseErr) :=
  list_ok fun args => FC3_ZFCP.parse_good (F14_ZFCP.info F14_ZFCPData.cls) args 

theorem ok_F15_Bootloader : Command.Ok (F15_Bootloader.cls) anyNs (fun _ => ParseErr) :=
  plain_ok fun args => F15_Bootloader.parse_good F15_Bootloader.info args 

theorem ok_F15_Interactive : Command.Ok (F15_Interactive.cls) anyNs (fun _ => ParseErr) :=
  removed_ok

theorem ok_F15_LogVol_F15_LogVolData : Command.Ok (F15_LogVol.cls F15_LogVolData.cls) anyNs (fun _ => ParseErr) :=
  list_ok fun args => FC3_LogVol.parse_good (F15_LogVol.info F15_LogVolData.cls) args (by decide +kernel)

theorem ok_F15_Raid_F15_RaidData : Command.Ok (F15_Raid.cls F15_RaidData.cls) anyNs (fun _ => ParseErrOr (· = .value)) :=
  list_ok fun args => FC3_Raid.parse_good (F15_Raid.info F15_RaidData.cls) args (by decide +kernel) (by decide +kernel) FC3_Raid.device_err

theorem ok_F15_Repo_F15_RepoData : Command.Ok (F15_Repo.cls F15_RepoData.cls) anyNs (fun _ => ParseErr) :=
  list_ok fun args => FC6_Repo.parse_good (F15_Repo.info F15_RepoData.cls) args 

theorem ok_F16_AutoPart : Command.Ok (F16_AutoPart.cls) anyNs (fun _ => ParseErr) :=
  plain_ok fun args => F9_AutoPart.parse_good F16_AutoPart.info args 

theorem ok_F15_LogVol_F17_LogVolData : Command.Ok (F15_LogVol.cls F17_LogVolData.cls) anyNs (fun _ => ParseErr) :=
  list_ok fun args => FC3_LogVol.parse_good (F15_LogVol.info F17_LogVolData.cls) args (by decide +kernel)

theorem ok_F16_Network_F16_NetworkData : Command.Ok (F16_Network.cls F16_NetworkData.cls) anyNs (fun _ => ParseErr) :=
  list_ok fun args => FC3_Network.parse_good (F16_Network.info F16_NetworkData.cls) args 

theorem ok_F14_Partition_F17_PartData : Command.Ok (F14_Partition.cls F17_PartData.cls) anyNs (fun _ => ParseErr) :=
  list_ok fun args => FC3_Partition.parse_good (F14_Partition.info F17_PartData.cls) args (by decide +kernel)

theorem ok_F16_VolGroup_F16_VolGroupData : Command.Ok (F16_VolGroup.cls F16_VolGroupData.cls) anyNs (fun _ => ParseErr) :=
  list_ok fun args => F16_VolGroup.parse_good (F16_VolGroup.info F16_VolGroupData.cls) args (by decide +kernel)

theorem ok_F17_AutoPart : Command.Ok (F17_AutoPart.cls) anyNs (fun _ => ParseErr) :=
  plain_ok fun args => F17_AutoPart.parse_good F17_AutoPart.info args 

theorem ok_F17_Bootloader : Command.Ok (F17_Bootloader.cls) anyNs (fun _ => ParseErr) :=
  plain_ok fun args => F17_Bootloader.parse_good F17_Bootloader.info args 

theorem ok_F17_BTRFS_F17_BTRFSData : Command.Ok (F17_BTRFS.cls F17_BTRFSData.cls) anyNs (fun _ => ParseErr) :=
  list_ok fun args => F17_BTRFS.parse_good (F17_BTRFS.info F17_BTRFSData.cls) args 

theorem ok_F17_ClearPart : Command.Ok (F17_ClearPart.cls) anyNs (fun _ => ParseErr) :=
  plain_ok fun args => F17_ClearPart.parse_good F17_ClearPart.info args 

theorem ok_F17_Iscsi_F17_IscsiData : Command.Ok (F17_Iscsi.cls F17_IscsiData.cls) anyNs (fun _ => ParseErr) :=
  list_ok fun args => FC6_Iscsi.parse_good (F17_Iscsi.info F17_IscsiData.cls) args 

theorem ok_F17_LogVol_F17_LogVolData : Command.Ok (F17_LogVol.cls F17_LogVolData.cls) anyNs (fun _ => ParseErr) :=
  list_ok fun args => F17_LogVol.parse_good (F17_LogVol.info F17_LogVolData.cls) args (by decide +kernel)

theorem ok_F17_Partition_F17_PartData : Command.Ok (F17_Partition.cls F17_PartData.cls) anyNs (fun _ => ParseErr) :=
  list_ok fun args => F17_Partition.parse_good (F17_Partition.info F17_PartData.cls) args (by decide +kernel)

theorem ok_F18_AutoPart : Command.Ok (F18_AutoPart.cls) anyNs (fun _ => ParseErr) :=
  plain_ok fun args => F17_AutoPart.parse_good F18_AutoPart.info args 

theorem ok_F18_Bootloader : Command.Ok (F18_Bootloader.cls) anyNs (fun _ => ParseErr) :=
  plain_ok fun args => F17_Bootloader.parse_good F18_Bootloader.info args 

theorem ok_F13_Fcoe_RHEL7_FcoeData : Command.Ok (F13_Fcoe.cls RHEL7_FcoeData.cls) anyNs (fun _ => ParseErr) :=
  list_ok fun args => F12_Fcoe.parse_good (F13_Fcoe.info RHEL7_FcoeData.cls) args 

theorem ok_F18_Reboot : Command.Ok (F18_Reboot.cls) anyNs (fun _ => ParseErr) :=
  plain_ok fun args => F18_Reboot.parse_good F18_Reboot.info args 

theorem ok_F18_Keyboard : Command.Ok (F18_Keyboard.cls) anyNs (fun _ => ParseErr) :=
  plain_ok fun args => F18_Keyboard.parse_good F18_Keyboard.info args (by decide +kernel)

theorem ok_F18_LogVol_F18_LogVolData : Command.Ok (F18_LogVol.cls F18_LogVolData.cls) anyNs (fun _ => ParseErr) :=
  list_ok fun args => F17_LogVol.parse_good (F18_LogVol.info F18_LogVolData.cls) args (by decide +kernel)

theorem ok_F18_Method : Command.Ok (F18_Method.cls) anyNs (fun _ => ParseErrOr (· = .type)) :=
  method_ok

theorem ok_F18_Monitor : Command.Ok (F18_Monitor.cls) anyNs (fun _ => ParseErr) :=
  removed_ok

theorem ok_F18_Network_F16_NetworkData : Command.Ok (F18_Network.cls F16_NetworkData.cls) anyNs (fun _ => ParseErr) :=
  list_ok fun args => FC3_Network.parse_good (F18_Network.info F16_NetworkData.cls) args 

theorem ok_F18_Partition_F18_PartData : Command.Ok (F18_Partition.cls F18_PartData.cls) anyNs (fun _ => ParseErr) :=
  list_ok fun args => F17_Partition.parse_good (F18_Partition.info F18_PartData.cls) args (by decide +kernel)

theorem ok_F18_Raid_F18_RaidData : Command.Ok (F18_Raid.cls F18_RaidData.cls) anyNs (fun _ => ParseErrOr (· = .value)) :=
  list_ok fun args => FC3_Raid.parse_good (F18_Raid.info F18_RaidData.cls) args (by decide +kernel) (by decide +kernel) FC3_Raid.device_err

theorem ok_F18_RootPw : Command.Ok (F18_RootPw.cls) anyNs (fun _ => ParseErr) :=
  plain_ok fun args => F18_RootPw.parse_good F18_RootPw.info args 

theorem ok_F18_Timezone : Command.Ok (F18_Timezone.cls) anyNs (fun _ => ParseErr) :=
  plain_ok fun args => F18_Timezone.parse_good F18_Timezone.info args (by decide +kernel)

theorem ok_F18_Url : Command.Ok (F18_Url.cls) anyNs (fun _ => ParseErr) :=
  plain_ok fun args => F18_Url.parse_good F18_Url.info args 

theorem ok_F19_Bootloader : Command.Ok (F19_Bootloader.cls) anyNs (fun _ => ParseErr) :=
  plain_ok fun args => F17_Bootloader.parse_good F19_Bootloader.info args 

theorem ok_F19_Lang : Command.Ok (F19_Lang.cls) anyNs (fun _ => ParseErr) :=
  plain_ok fun args => FC3_Lang.parse_good F19_Lang.info args (by decide +kernel)

theorem ok_F19_Liveimg : Command.Ok (F19_Liveimg.cls) anyNs (fun _ => ParseErr) :=
  plain_ok fun args => F19_Liveimg.parse_good F19_Liveimg.info args 

theorem ok_F18_LogVol_F20_LogVolData : Command.Ok (F18_LogVol.cls F20_LogVolData.cls) anyNs (fun _ => ParseErr) :=
  list_ok fun args => F17_LogVol.parse_good (F18_LogVol.info F20_LogVolData.cls) args (by decide +kernel)

theorem ok_F19_Method : Command.Ok (F19_Method.cls) anyNs (fun _ => ParseErrOr (· = .type)) :=
  method_ok

theorem ok_F19_Network_F19_NetworkData : Command.Ok (F19_Network.cls F19_NetworkData.cls) anyNs (fun _ => ParseErr) :=
  list_ok fun args => FC3_Network.parse_good (F19_Network.info F19_NetworkData.cls) args 

theorem ok_F19_Raid_F18_RaidData : Command.Ok (F19_Raid.cls F18_RaidData.cls) anyNs (fun _ => ParseErr) :=
  list_ok fun args => FC3_Raid.parse_good (F19_Raid.info F18_RaidData.cls) args (by decide +kernel) (by decide +kernel) (fun _ _ _ h => by cases h)

theorem ok_F19_Realm : Command.Ok (F19_Realm.cls) anyNs (fun _ => ParseErrOr fun e => ∃ s, e = .shlex s) :=
  F19_Realm.ok

theorem ok_F19_User_F19_UserData : Command.Ok (F19_User.cls F19_UserData.cls) anyNs (fun _ => ParseErr) :=
  list_ok fun args => FC6_User.parse_good (F19_User.info F19_UserData.cls) args 

theorem ok_F20_AutoPart : Command.Ok (F20_AutoPart.cls) anyNs (fun _ => ParseErr) :=
  plain_ok fun args => F20_AutoPart.parse_good F20_AutoPart.info args 

theorem ok_F20_Eula : Command.Ok (F20_Eula.cls) anyNs (fun _ => ParseErr) :=
  plain_ok fun args => F20_Eula.parse_good F20_Eula.info args 

theorem ok_F20_Firewall : Command.Ok (F20_Firewall.cls) anyNs (fun _ => ParseErr) :=
  plain_ok fun args => FC3_Firewall.parse_good F20_Firewall.info args 

theorem ok_F20_Install : Command.Ok (F20_Install.cls) anyNs (fun _ => ParseErr) :=
  plain_ok fun args => F20_Install.parse_good F20_Install.info args 

theorem ok_F20_LogVol_F20_LogVolData : Command.Ok (F20_LogVol.cls F20_LogVolData.cls) anyNs (fun _ => ParseErr) :=
  list_ok fun args => F20_LogVol.parse_good (F20_LogVol.info F20_LogVolData.cls) args (by decide +kernel)

theorem ok_F20_Network_F20_NetworkData : Command.Ok (F20_Network.cls F20_NetworkData.cls) anyNs (fun _ => ParseErr) :=
  list_ok fun args => FC3_Network.parse_good (F20_Network.info F20_NetworkData.cls) args 

theorem ok_F20_Partition_F18_PartData : Command.Ok (F20_Partition.cls F18_PartData.cls) anyNs (fun _ => ParseErr) :=
  list_ok fun args => F20_Partition.parse_good (F20_Partition.info F18_PartData.cls) args (by decide +kernel)

theorem ok_F20_Raid_F18_RaidData : Command.Ok (F20_Raid.cls F18_RaidData.cls) anyNs (fun _ => ParseErr) :=
  list_ok fun args => F20_Raid.parse_good (F20_Raid.info F18_RaidData.cls) args (by decide +kernel) (by decide +kernel) (fun _ _ _ h => by cases h)

theorem ok_F20_Upgrade : Command.Ok (F20_Upgrade.cls) anyNs (fun _ => ParseErr) :=
  deprecated_ok

theorem ok_F21_AutoPart : Command.Ok (F21_AutoPart.cls) anyNs (fun _ => ParseErr) :=
  plain_ok fun args => F21_AutoPart.parse_good F21_AutoPart.info args 

theorem ok_F21_Bootloader : Command.Ok (F21_Bootloader.cls) anyNs (fun _ => ParseErr) :=
  plain_ok fun args => F17_Bootloader.parse_good F21_Bootloader.info args 

theorem ok_F21_ClearPart : Command.Ok (F21_ClearPart.cls) anyNs (fun _ => ParseErr) :=
  plain_ok fun args => F17_ClearPart.parse_good F21_ClearPart.info args 

theorem ok_F21_LogVol_F21_LogVolData : Command.Ok (F21_LogVol.cls F21_LogVolData.cls) anyNs (fun _ => ParseErr) :=
  list_ok fun args => F21_LogVol.parse_good (F21_LogVol.info F21_LogVolData.cls) args (by decide +kernel)

theorem ok_F21_Network_F21_NetworkData : Command.Ok (F21_Network.cls F21_NetworkData.cls) anyNs (fun _ => ParseErr) :=
  list_ok fun args => FC3_Network.parse_good (F21_Network.info F21_NetworkData.cls) args 

theorem ok_F21_OSTreeSetup : Command.Ok (F21_OSTreeSetup.cls) anyNs (fun _ => ParseErr) :=
  plain_ok fun args => F21_OSTreeSetup.parse_good F21_OSTreeSetup.info args 

theorem ok_F21_Repo_F21_RepoData : Command.Ok (F21_Repo.cls F21_RepoData.cls) anyNs (fun _ => ParseErr) :=
  list_ok fun args => FC6_Repo.parse_good (F21_Repo.info F21_RepoData.cls) args 

theorem ok_F21_VolGroup_F21_VolGroupData : Command.Ok (F21_VolGroup.cls F21_VolGroupData.cls) anyNs (fun _ => ParseErr) :=
  list_ok fun args => F16_VolGroup.parse_good (F21_VolGroup.info F21_VolGroupData.cls) args (by decide +kernel)

theorem ok_F22_Network_F22_NetworkData : Command.Ok (F22_Network.cls F22_NetworkData.cls) anyNs (fun _ => ParseErr) :=
  list_ok fun args => F22_Network.parse_good (F22_Network.info F22_NetworkData.cls) args 

theorem ok_F22_SshKey_F22_SshKeyData : Command.Ok (F22_SshKey.cls F22_SshKeyData.cls) anyNs (fun _ => ParseErr) :=
  list_ok fun args => F22_SshKey.parse_good (F22_SshKey.info F22_SshKeyData.cls) args (by decide +kernel)

theorem ok_F23_AutoPart : Command.Ok (F23_AutoPart.cls) anyNs (fun _ => ParseErr) :=
  plain_ok fun args => F23_AutoPart.parse_good F23_AutoPart.info args 

theorem ok_F23_BTRFS_F23_BTRFSData : Command.Ok (F23_BTRFS.cls F23_BTRFSData.cls) anyNs (fun _ => ParseErr) :=
  list_ok fun args => F23_BTRFS.parse_good (F23_BTRFS.info F23_BTRFSData.cls) args 

theorem ok_F23_Reboot : Command.Ok (F23_Reboot.cls) anyNs (fun _ => ParseErr) :=
  plain_ok fun args => F18_Reboot.parse_good F23_Reboot.info args 

theorem ok_F23_LogVol_F23_LogVolData : Command.Ok (F23_LogVol.cls F23_LogVolData.cls) anyNs (fun _ => ParseErr) :=
  list_ok fun args => F23_LogVol.parse_good (F23_LogVol.info F23_LogVolData.cls) args (by decide +kernel)

theorem ok_F23_Partition_F23_PartData : Command.Ok (F23_Partition.cls F23_PartData.cls) anyNs (fun _ => ParseErr) :=
  list_ok fun args => F23_Partition.parse_good (F23_Partition.info F23_PartData.cls) args (by decide +kernel)

theorem ok_F23_Raid_F23_RaidData : Command.Ok (F23_Raid.cls F23_RaidData.cls) anyNs (fun _ => ParseErr) :=
  list_ok fun args => F23_Raid.parse_good (F23_Raid.info F23_RaidData.cls) args (by decide +kernel) (by decide +kernel) (fun _ _ _ h => by cases h)

theorem ok_F23_ReqPart : Command.Ok (F23_ReqPart.cls) anyNs (fun _ => ParseErr) :=
  plain_ok fun args => F23_ReqPart.parse_good F23_ReqPart.info args 

theorem ok_F23_Timezone : Command.Ok (F23_Timezone.cls) anyNs (fun _ => ParseErr) :=
  plain_ok fun args => F23_Timezone.parse_good F23_Timezone.info args (by decide +kernel)

theorem ok_F24_Device : Command.Ok (F24_Device.cls) anyNs (fun _ => ParseErr) :=
  deprecated_ok

theorem ok_F24_DmRaid : Command.Ok (F24_DmRaid.cls) anyNs (fun _ => ParseErr) :=
  deprecated_ok

theorem ok_F24_MultiPath : Command.Ok (F24_MultiPath.cls) anyNs (fun _ => ParseErr) :=
  deprecated_ok

theorem ok_F24_Network_F22_NetworkData : Command.Ok (F24_Network.cls F22_NetworkData.cls) anyNs (fun _ => ParseErr) :=
  list_ok fun args => F24_Network.parse_good (F24_Network.info F22_NetworkData.cls) args 

theorem ok_F24_SshPw_F24_SshPwData : Command.Ok (F24_SshPw.cls F24_SshPwData.cls) anyNs (fun _ => ParseErr) :=
  list_ok fun args => F13_SshPw.parse_good (F24_SshPw.info F24_SshPwData.cls) args 

theorem ok_F24_User_F19_UserData : Command.Ok (F24_User.cls F19_UserData.cls) anyNs (fun _ => ParseErr) :=
  list_ok fun args => FC6_User.parse_good (F24_User.info F19_UserData.cls) args 

theorem ok_F25_Network_F25_NetworkData : Command.Ok (F25_Network.cls F25_NetworkData.cls) anyNs (fun _ => ParseErr) :=
  list_ok fun args => F24_Network.parse_good (F25_Network.info F25_NetworkData.cls) args 

theorem ok_F25_Raid_F25_RaidData : Command.Ok (F25_Raid.cls F25_RaidData.cls) anyNs (fun _ => ParseErr) :=
  list_ok fun args => F23_Raid.parse_good (F25_Raid.info F25_RaidData.cls) args (by decide +kernel) (by decide +kernel) (fun _ _ _ h => by cases h)

theorem ok_F25_Timezone : Command.Ok (F25_Timezone.cls) anyNs (fun _ => ParseErr) :=
  plain_ok fun args => F25_Timezone.parse_good F25_Timezone.info args (by decide +kernel)

theorem ok_F26_AutoPart : Command.Ok (F26_AutoPart.cls) anyNs (fun _ => ParseErr) :=
  plain_ok fun args => F23_AutoPart.parse_good F26_AutoPart.info args 

theorem ok_F26_DisplayMode : Command.Ok (F26_DisplayMode.cls) anyNs (fun _ => ParseErr) :=
  plain_ok fun args => F26_DisplayMode.parse_good F26_DisplayMode.info args 

theorem ok_F26_Snapshot_F26_SnapshotData : Command.Ok (F26_Snapshot.cls F26_SnapshotData.cls) anyNs (fun _ => ParseErr) :=
  list_ok fun args => F26_Snapshot.parse_good (F26_Snapshot.info F26_SnapshotData.cls) args 

theorem ok_F27_Mount_F27_MountData : Command.Ok (F27_Mount.cls F27_MountData.cls) anyNs (fun args => ParseErrOr fun e => c!"--" ∈ args ∧ e = .index) :=
  list_ok fun args => F27_Mount.parse_good (F27_Mount.info F27_MountData.cls) args (by decide +kernel) (by decide +kernel) (fun h _ => .inr ⟨h, rfl⟩)

theorem ok_F27_Network_F27_NetworkData : Command.Ok (F27_Network.cls F27_NetworkData.cls) anyNs (fun _ => ParseErr) :=
  list_ok fun args => F27_Network.parse_good (F27_Network.info F27_NetworkData.cls) args 

theorem ok_F27_Repo_F27_RepoData : Command.Ok (F27_Repo.cls F27_RepoData.cls) anyNs (fun _ => ParseErr) :=
  list_ok fun args => FC6_Repo.parse_good (F27_Repo.info F27_RepoData.cls) args 

theorem ok_F27_Url : Command.Ok (F27_Url.cls) anyNs (fun _ => ParseErr) :=
  plain_ok fun args => F18_Url.parse_good F27_Url.info args 

theorem ok_F28_Authconfig : Command.Ok (F28_Authconfig.cls) anyNs (fun _ => ParseErr) :=
  plain_ok fun args => F28_Authconfig.parse_good F28_Authconfig.info args 

theorem ok_F28_Authselect : Command.Ok (F28_Authselect.cls) anyNs (fun _ => ParseErr) :=
  plain_ok fun args => F28_Authselect.parse_good F28_Authselect.info args 

theorem ok_F28_ClearPart : Command.Ok (F28_ClearPart.cls) anyNs (fun _ => ParseErr) :=
  plain_ok fun args => F17_ClearPart.parse_good F28_ClearPart.info args 

theorem ok_F28_Fcoe_F28_FcoeData : Command.Ok (F28_Fcoe.cls F28_FcoeData.cls) anyNs (fun _ => ParseErr) :=
  list_ok fun args => F12_Fcoe.parse_good (F28_Fcoe.info F28_FcoeData.cls) args 

theorem ok_F28_Firewall : Command.Ok (F28_Firewall.cls) anyNs (fun _ => ParseErr) :=
  plain_ok fun args => FC3_Firewall.parse_good F28_Firewall.info args 

theorem ok_F28_Hmc : Command.Ok (F28_Hmc.cls) anyNs (fun _ => ParseErr) :=
  plain_ok fun args => RHEL7_Hmc.parse_good F28_Hmc.info args 

theorem ok_F28_Method : Command.Ok (F28_Method.cls) anyNs (fun _ => ParseErrOr (· = .type)) :=
  method_ok

theorem ok_F28_Nvdimm_F28_NvdimmData : Command.Ok (F28_Nvdimm.cls F28_NvdimmData.cls) anyNs (fun _ => ParseErr') :=
  list_ok fun args => F28_Nvdimm.parse_good (F28_Nvdimm.info F28_NvdimmData.cls) args (by decide +kernel)

theorem ok_F29_AutoPart : Command.Ok (F29_AutoPart.cls) anyNs (fun _ => ParseErr) :=
  plain_ok fun args => F29_AutoPart.parse_good F29_AutoPart.info args 

theorem ok_F29_Bootloader : Command.Ok (F29_Bootloader.cls) anyNs (fun _ => ParseErr) :=
  plain_ok fun args => F17_Bootloader.parse_good F29_Bootloader.info args 

theorem ok_F29_DeviceProbe : Command.Ok (F29_DeviceProbe.cls) anyNs (fun _ => ParseErr) :=
  deprecated_ok

theorem ok_F29_Module_F29_ModuleData : Command.Ok (F29_Module.cls F29_ModuleData.cls) anyNs (fun _ => ParseErr) :=
  list_ok fun args => F29_Module.parse_good (F29_Module.info F29_ModuleData.cls) args 

theorem ok_F29_IgnoreDisk : Command.Ok (F29_IgnoreDisk.cls) anyNs (fun _ => ParseErr) :=
  plain_ok fun args => F29_IgnoreDisk.parse_good F29_IgnoreDisk.info args 

theorem ok_F29_Install : Command.Ok (F29_Install.cls) anyNs (fun _ => ParseErr) :=
  deprecated_ok

theorem ok_F29_LogVol_F29_LogVolData : Command.Ok (F29_LogVol.cls F29_LogVolData.cls) anyNs (fun _ => ParseErr) :=
  list_ok fun args => F29_LogVol.parse_good (F29_LogVol.info F29_LogVolData.cls) args (by decide +kernel)

theorem ok_F29_Partition_F29_PartData : Command.Ok (F29_Partition.cls F29_PartData.cls) anyNs (fun _ => ParseErr) :=
  list_ok fun args => F29_Partition.parse_good (F29_Partition.info F29_PartData.cls) args (by decide +kernel)

theorem ok_F29_Raid_F29_RaidData : Command.Ok (F29_Raid.cls F29_RaidData.cls) anyNs (fun _ => ParseErr) :=
  list_ok fun args => F29_Raid.parse_good (F29_Raid.info F29_RaidData.cls) args (by decide +kernel) (by decide +kernel) (fun _ _ _ h => by cases h)

theorem ok_F29_Upgrade : Command.Ok (F29_Upgrade.cls) anyNs (fun _ => ParseErr) :=
  removed_ok

theorem ok_F30_Repo_F30_RepoData : Command.Ok (F30_Repo.cls F30_RepoData.cls) anyNs (fun _ => ParseErr) :=
  list_ok fun args => FC6_Repo.parse_good (F30_Repo.info F30_RepoData.cls) args 

theorem ok_F30_Url : Command.Ok (F30_Url.cls) anyNs (fun _ => ParseErr) :=
  plain_ok fun args => F18_Url.parse_good F30_Url.info args 

theorem ok_F31_Module_F31_ModuleData : Command.Ok (F31_Module.cls F31_ModuleData.cls) anyNs (fun _ => ParseErr) :=
  list_ok fun args => F29_Module.parse_good (F31_Module.info F31_ModuleData.cls) args 

theorem ok_F32_Timezone : Command.Ok (F32_Timezone.cls) anyNs (fun _ => ParseErr) :=
  plain_ok fun args => F32_Timezone.parse_good F32_Timezone.info args (by decide +kernel)

theorem ok_F32_Zipl : Command.Ok (F32_Zipl.cls) anyNs (fun _ => ParseErr) :=
  plain_ok fun args => F32_Zipl.parse_good F32_Zipl.info args 

theorem ok_F33_HardDrive : Command.Ok (F33_HardDrive.cls) anyNs (fun _ => ParseErr) :=
  plain_ok fun args => F33_HardDrive.parse_good F33_HardDrive.info args 

theorem ok_F33_Timesource_F33_TimesourceData : Command.Ok (F33_Timesource.cls F33_TimesourceData.cls) anyNs (fun _ => ParseErr) :=
  list_ok fun args => F33_Timesource.parse_good (F33_Timesource.info F33_TimesourceData.cls) args 

theorem ok_F33_Repo_F30_RepoData : Command.Ok (F33_Repo.cls F30_RepoData.cls) anyNs (fun _ => ParseErr) :=
  list_ok fun args => FC6_Repo.parse_good (F33_Repo.info F30_RepoData.cls) args 

theorem ok_F33_Timezone : Command.Ok (F33_Timezone.cls) anyNs (fun _ => ParseErr) :=
  plain_ok fun args => F33_Timezone.parse_good F33_Timezone.info args (by decide +kernel)

theorem ok_F34_AutoStep : Command.Ok (F34_AutoStep.cls) anyNs (fun _ => ParseErr) :=
  deprecated_ok

theorem ok_F34_Bootloader : Command.Ok (F34_Bootloader.cls) anyNs (fun _ => ParseErr) :=
  plain_ok fun args => F17_Bootloader.parse_good F34_Bootloader.info args 

theorem ok_F34_Device : Command.Ok (F34_Device.cls) anyNs (fun _ => ParseErr) :=
  removed_ok

theorem ok_F34_DeviceProbe : Command.Ok (F34_DeviceProbe.cls) anyNs (fun _ => ParseErr) :=
  removed_ok

theorem ok_F34_DmRaid : Command.Ok (F34_DmRaid.cls) anyNs (fun _ => ParseErr) :=
  removed_ok

theorem ok_F34_IgnoreDisk : Command.Ok (F34_IgnoreDisk.cls) anyNs (fun _ => ParseErr) :=
  plain_ok fun args => F29_IgnoreDisk.parse_good F34_IgnoreDisk.info args 

theorem ok_F34_Install : Command.Ok (F34_Install.cls) anyNs (fun _ => ParseErr) :=
  removed_ok

theorem ok_F34_Logging : Command.Ok (F34_Logging.cls) anyNs (fun _ => ParseErr) :=
  plain_ok fun args => FC6_Logging.parse_good F34_Logging.info args 

theorem ok_F34_Method : Command.Ok (F34_Method.cls) anyNs (fun _ => ParseErr) :=
  deprecated_ok

theorem ok_F34_MultiPath : Command.Ok (F34_MultiPath.cls) anyNs (fun _ => ParseErr) :=
  removed_ok

theorem ok_F34_Partition_F29_PartData : Command.Ok (F34_Partition.cls F29_PartData.cls) anyNs (fun _ => ParseErr) :=
  list_ok fun args => F29_Partition.parse_good (F34_Partition.info F29_PartData.cls) args (by decide +kernel)

theorem ok_F34_Updates : Command.Ok (F34_Updates.cls) anyNs (fun _ => ParseErr) :=
  plain_ok fun args => F34_Updates.parse_good F34_Updates.info args 

theorem ok_FC3_AutoPart : Command.Ok (FC3_AutoPart.cls) anyNs (fun _ => ParseErr) :=
  plain_ok fun args => FC3_AutoPart.parse_good FC3_AutoPart.info args 

theorem ok_FC4_Bootloader : Command.Ok (FC4_Bootloader.cls) anyNs (fun _ => ParseErr) :=
  plain_ok fun args => FC4_Bootloader.parse_good FC4_Bootloader.info args 

theorem ok_FC3_Device : Command.Ok (FC3_Device.cls) anyNs (fun _ => ParseErr) :=
  plain_ok fun args => FC3_Device.parse_good FC3_Device.info args 

theorem ok_FC3_Firewall : Command.Ok (FC3_Firewall.cls) anyNs (fun _ => ParseErr) :=
  plain_ok fun args => FC3_Firewall.parse_good FC3_Firewall.info args 

theorem ok_FC3_IgnoreDisk : Command.Ok (FC3_IgnoreDisk.cls) anyNs (fun _ => ParseErr) :=
  plain_ok fun args => FC3_IgnoreDisk.parse_good FC3_IgnoreDisk.info args 

theorem ok_FC6_Iscsi_FC6_IscsiData : Command.Ok (FC6_Iscsi.cls FC6_IscsiData.cls) anyNs (fun _ => ParseErr) :=
  list_ok fun args => FC6_Iscsi.parse_good (FC6_Iscsi.info FC6_IscsiData.cls) args 

theorem ok_F7_LangSupport : Command.Ok (F7_LangSupport.cls) anyNs (fun _ => ParseErr) :=
  removed_ok

theorem ok_FC4_LogVol_FC4_LogVolData : Command.Ok (FC4_LogVol.cls FC4_LogVolData.cls) anyNs (fun _ => ParseErr) :=
  list_ok fun args => FC3_LogVol.parse_good (FC4_LogVol.info FC4_LogVolData.cls) args (by decide +kernel)

theorem ok_FC6_Monitor : Command.Ok (FC6_Monitor.cls) anyNs (fun _ => ParseErr) :=
  plain_ok fun args => FC3_Monitor.parse_good FC6_Monitor.info args 

theorem ok_F7_Mouse : Command.Ok (F7_Mouse.cls) anyNs (fun _ => ParseErr) :=
  removed_ok

theorem ok_FC6_Network_FC6_NetworkData : Command.Ok (FC6_Network.cls FC6_NetworkData.cls) anyNs (fun _ => ParseErr) :=
  list_ok fun args => FC3_Network.parse_good (FC6_Network.info FC6_NetworkData.cls) args 

theorem ok_FC4_Partition_FC4_PartData : Command.Ok (FC4_Partition.cls FC4_PartData.cls) anyNs (fun _ => ParseErr) :=
  list_ok fun args => FC3_Partition.parse_good (FC4_Partition.info FC4_PartData.cls) args (by decide +kernel)

theorem ok_F7_Raid_F7_RaidData : Command.Ok (F7_Raid.cls F7_RaidData.cls) anyNs (fun _ => ParseErrOr (· = .value)) :=
  list_ok fun args => FC3_Raid.parse_good (F7_Raid.info F7_RaidData.cls) args (by decide +kernel) (by decide +kernel) FC3_Raid.device_err

theorem ok_FC6_Repo_FC6_RepoData : Command.Ok (FC6_Repo.cls FC6_RepoData.cls) anyNs (fun _ => ParseErr) :=
  list_ok fun args => FC6_Repo.parse_good (FC6_Repo.info FC6_RepoData.cls) args 

theorem ok_FC3_RootPw : Command.Ok (FC3_RootPw.cls) anyNs (fun _ => ParseErr) :=
  plain_ok fun args => FC3_RootPw.parse_good FC3_RootPw.info args 

theorem ok_FC6_User_FC6_UserData : Command.Ok (FC6_User.cls FC6_UserData.cls) anyNs (fun _ => ParseErr) :=
  list_ok fun args => FC6_User.parse_good (FC6_User.info FC6_UserData.cls) args 

theorem ok_FC6_Vnc : Command.Ok (FC6_Vnc.cls) vncInv (fun _ => ParseErr) :=
  vnc_ok (by decide +kernel) (Or.inl rfl)

theorem ok_FC6_XConfig : Command.Ok (FC6_XConfig.cls) anyNs (fun _ => ParseErr) :=
  plain_ok fun args => FC3_XConfig.parse_good FC6_XConfig.info args 

theorem ok_FC3_ZeroMbr : Command.Ok (FC3_ZeroMbr.cls) anyNs (fun _ => ParseErr) :=
  plain_ok fun args => FC3_ZeroMbr.parse_good FC3_ZeroMbr.info args 

theorem ok_F8_Network_F8_NetworkData : Command.Ok (F8_Network.cls F8_NetworkData.cls) anyNs (fun _ => ParseErr) :=
  list_ok fun args => FC3_Network.parse_good (F8_Network.info F8_NetworkData.cls) args 

theorem ok_F9_Firewall : Command.Ok (F9_Firewall.cls) anyNs (fun _ => ParseErr) :=
  plain_ok fun args => FC3_Firewall.parse_good F9_Firewall.info args 

theorem ok_F9_XConfig : Command.Ok (F9_XConfig.cls) anyNs (fun _ => ParseErr) :=
  plain_ok fun args => FC3_XConfig.parse_good F9_XConfig.info args 

theorem ok_FC3_Bootloader : Command.Ok (FC3_Bootloader.cls) anyNs (fun _ => ParseErr) :=
  plain_ok fun args => FC3_Bootloader.parse_good FC3_Bootloader.info args 

theorem ok_FC3_DriverDisk_FC3_DriverDiskData : Command.Ok (FC3_DriverDisk.cls FC3_DriverDiskData.cls) anyNs (fun _ => ParseErr) :=
  list_ok fun args => FC3_DriverDisk.parse_good (FC3_DriverDisk.info FC3_DriverDiskData.cls) args 

theorem ok_FC3_Reboot : Command.Ok (FC3_Reboot.cls) anyNs (fun _ => ParseErr) :=
  plain_ok fun args => FC3_Reboot.parse_good FC3_Reboot.info args 

theorem ok_FC3_LangSupport : Command.Ok (FC3_LangSupport.cls) anyNs (fun _ => ParseErr) :=
  plain_ok fun args => FC3_LangSupport.parse_good FC3_LangSupport.info args 

theorem ok_FC3_Lilo : Command.Ok (FC3_Lilo.cls) anyNs (fun _ => ParseErr) :=
  plain_ok fun args => FC3_Bootloader.parse_good FC3_Lilo.info args 

theorem ok_FC3_LiloCheck : Command.Ok (FC3_LiloCheck.cls) anyNs (fun _ => ParseErr) :=
  plain_ok fun args => FC3_LiloCheck.parse_good FC3_LiloCheck.info args 

theorem ok_FC3_LogVol_FC3_LogVolData : Command.Ok (FC3_LogVol.cls FC3_LogVolData.cls) anyNs (fun _ => ParseErr) :=
  list_ok fun args => FC3_LogVol.parse_good (FC3_LogVol.info FC3_LogVolData.cls) args (by decide +kernel)

theorem ok_FC3_Method : Command.Ok (FC3_Method.cls) anyNs (fun _ => ParseErrOr (· = .type)) :=
  method_ok

theorem ok_FC3_Monitor : Command.Ok (FC3_Monitor.cls) anyNs (fun _ => ParseErr) :=
  plain_ok fun args => FC3_Monitor.parse_good FC3_Monitor.info args 

theorem ok_FC3_Mouse : Command.Ok (FC3_Mouse.cls) anyNs (fun _ => ParseErr) :=
  deprecated_ok

theorem ok_FC3_Network_FC3_NetworkData : Command.Ok (FC3_Network.cls FC3_NetworkData.cls) anyNs (fun _ => ParseErr) :=
  list_ok fun args => FC3_Network.parse_good (FC3_Network.info FC3_NetworkData.cls) args 

theorem ok_FC3_NFS : Command.Ok (FC3_NFS.cls) anyNs (fun _ => ParseErr) :=
  plain_ok fun args => FC3_NFS.parse_good FC3_NFS.info args 

theorem ok_FC3_Partition_FC3_PartData : Command.Ok (FC3_Partition.cls FC3_PartData.cls) anyNs (fun _ => ParseErr) :=
  list_ok fun args => FC3_Partition.parse_good (FC3_Partition.info FC3_PartData.cls) args (by decide +kernel)

theorem ok_FC3_Raid_FC3_RaidData : Command.Ok (FC3_Raid.cls FC3_RaidData.cls) anyNs (fun _ => ParseErrOr (· = .value)) :=
  list_ok fun args => FC3_Raid.parse_good (FC3_Raid.info FC3_RaidData.cls) args (by decide +kernel) (by decide +kernel) FC3_Raid.device_err

theorem ok_FC3_Timezone : Command.Ok (FC3_Timezone.cls) anyNs (fun _ => ParseErr) :=
  plain_ok fun args => FC3_Timezone.parse_good FC3_Timezone.info args (by decide +kernel)

theorem ok_FC3_Vnc : Command.Ok (FC3_Vnc.cls) anyNs (fun _ => ParseErr) :=
  plain_ok fun args => FC3_Vnc.parse_good FC3_Vnc.info args 

theorem ok_FC3_XConfig : Command.Ok (FC3_XConfig.cls) anyNs (fun _ => ParseErr) :=
  plain_ok fun args => FC3_XConfig.parse_good FC3_XConfig.info args 

theorem ok_FC4_Lilo : Command.Ok (FC4_Lilo.cls) anyNs (fun _ => ParseErr) :=
  removed_ok

theorem ok_FC4_LiloCheck : Command.Ok (FC4_LiloCheck.cls) anyNs (fun _ => ParseErr) :=
  removed_ok

theorem ok_FC4_Network_FC4_NetworkData : Command.Ok (FC4_Network.cls FC4_NetworkData.cls) anyNs (fun _ => ParseErr) :=
  list_ok fun args => FC3_Network.parse_good (FC4_Network.info FC4_NetworkData.cls) args 

theorem ok_FC4_Raid_FC4_RaidData : Command.Ok (FC4_Raid.cls FC4_RaidData.cls) anyNs (fun _ => ParseErrOr (· = .value)) :=
  list_ok fun args => FC3_Raid.parse_good (FC4_Raid.info FC4_RaidData.cls) args (by decide +kernel) (by decide +kernel) FC3_Raid.device_err

theorem ok_FC5_LangSupport : Command.Ok (FC5_LangSupport.cls) anyNs (fun _ => ParseErr) :=
  deprecated_ok

theorem ok_FC5_Raid_FC5_RaidData : Command.Ok (FC5_Raid.cls FC5_RaidData.cls) anyNs (fun _ => ParseErrOr (· = .value)) :=
  list_ok fun args => FC3_Raid.parse_good (FC5_Raid.info FC5_RaidData.cls) args (by decide +kernel) (by decide +kernel) FC3_Raid.device_err

theorem ok_RHEL3_Mouse : Command.Ok (RHEL3_Mouse.cls) anyNs (fun _ => ParseErr) :=
  plain_ok fun args => RHEL3_Mouse.parse_good RHEL3_Mouse.info args 

theorem ok_FC3_Network_RHEL4_NetworkData : Command.Ok (FC3_Network.cls RHEL4_NetworkData.cls) anyNs (fun _ => ParseErr) :=
  list_ok fun args => FC3_Network.parse_good (FC3_Network.info RHEL4_NetworkData.cls) args 

theorem ok_RHEL4_Network_RHEL4_NetworkData : Command.Ok (RHEL4_Network.cls RHEL4_NetworkData.cls) anyNs (fun _ => ParseErr) :=
  list_ok fun args => FC3_Network.parse_good (RHEL4_Network.info RHEL4_NetworkData.cls) args 

theorem ok_RHEL5_Bootloader : Command.Ok (RHEL5_Bootloader.cls) anyNs (fun _ => ParseErr) :=
  plain_ok fun args => FC4_Bootloader.parse_good RHEL5_Bootloader.info args 

theorem ok_RHEL5_Key : Command.Ok (RHEL5_Key.cls) anyNs (fun _ => ParseErr) :=
  plain_ok fun args => RHEL5_Key.parse_good RHEL5_Key.info args 

theorem ok_RHEL5_LogVol_RHEL5_LogVolData : Command.Ok (RHEL5_LogVol.cls RHEL5_LogVolData.cls) anyNs (fun _ => ParseErr) :=
  list_ok fun args => FC3_LogVol.parse_good (RHEL5_LogVol.info RHEL5_LogVolData.cls) args (by decide +kernel)

theorem ok_RHEL5_Network_FC6_NetworkData : Command.Ok (RHEL5_Network.cls FC6_NetworkData.cls) anyNs (fun _ => ParseErr) :=
  list_ok fun args => FC3_Network.parse_good (RHEL5_Network.info FC6_NetworkData.cls) args 

theorem ok_RHEL5_Partition_RHEL5_PartData : Command.Ok (RHEL5_Partition.cls RHEL5_PartData.cls) anyNs (fun _ => ParseErr) :=
  list_ok fun args => FC3_Partition.parse_good (RHEL5_Partition.info RHEL5_PartData.cls) args (by decide +kernel)

theorem ok_RHEL5_Raid_RHEL5_RaidData : Command.Ok (RHEL5_Raid.cls RHEL5_RaidData.cls) anyNs (fun _ => ParseErrOr (· = .value)) :=
  list_ok fun args => FC3_Raid.parse_good (RHEL5_Raid.info RHEL5_RaidData.cls) args (by decide +kernel) (by decide +kernel) FC3_Raid.device_err

theorem ok_RHEL6_AutoPart : Command.Ok (RHEL6_AutoPart.cls) anyNs (fun _ => ParseErr) :=
  plain_ok fun args => RHEL6_AutoPart.parse_good RHEL6_AutoPart.info args 

theorem ok_RHEL6_Bootloader : Command.Ok (RHEL6_Bootloader.cls) anyNs (fun _ => ParseErr) :=
  plain_ok fun args => RHEL6_Bootloader.parse_good RHEL6_Bootloader.info args 

theorem ok_RHEL6_IgnoreDisk : Command.Ok (RHEL6_IgnoreDisk.cls) anyNs (fun _ => ParseErr) :=
  plain_ok fun args => RHEL6_IgnoreDisk.parse_good RHEL6_IgnoreDisk.info args 

theorem ok_RHEL6_Iscsi_RHEL6_IscsiData : Command.Ok (RHEL6_Iscsi.cls RHEL6_IscsiData.cls) anyNs (fun _ => ParseErr) :=
  list_ok fun args => FC6_Iscsi.parse_good (RHEL6_Iscsi.info RHEL6_IscsiData.cls) args 

theorem ok_RHEL6_LogVol_RHEL6_LogVolData : Command.Ok (RHEL6_LogVol.cls RHEL6_LogVolData.cls) anyNs (fun _ => ParseErr) :=
  list_ok fun args => RHEL6_LogVol.parse_good (RHEL6_LogVol.info RHEL6_LogVolData.cls) args (by decide +kernel)

theorem ok_RHEL6_Method : Command.Ok (RHEL6_Method.cls) anyNs (fun _ => ParseErrOr (· = .type)) :=
  method_ok

theorem ok_RHEL6_Network_RHEL6_NetworkData : Command.Ok (RHEL6_Network.cls RHEL6_NetworkData.cls) anyNs (fun _ => ParseErr) :=
  list_ok fun args => FC3_Network.parse_good (RHEL6_Network.info RHEL6_NetworkData.cls) args 

theorem ok_RHEL6_Partition_RHEL6_PartData : Command.Ok (RHEL6_Partition.cls RHEL6_PartData.cls) anyNs (fun _ => ParseErr) :=
  list_ok fun args => RHEL6_Partition.parse_good (RHEL6_Partition.info RHEL6_PartData.cls) args (by decide +kernel)

theorem ok_RHEL6_Raid_RHEL6_RaidData : Command.Ok (RHEL6_Raid.cls RHEL6_RaidData.cls) anyNs (fun _ => ParseErrOr (· = .value)) :=
  list_ok fun args => RHEL6_Raid.parse_good (RHEL6_Raid.info RHEL6_RaidData.cls) args (by decide +kernel) (by decide +kernel) FC3_Raid.device_err

theorem ok_RHEL6_Repo_RHEL6_RepoData : Command.Ok (RHEL6_Repo.cls RHEL6_RepoData.cls) anyNs (fun _ => ParseErr) :=
  list_ok fun args => FC6_Repo.parse_good (RHEL6_Repo.info RHEL6_RepoData.cls) args 

theorem ok_RHEL6_UnsupportedHardware : Command.Ok (RHEL6_UnsupportedHardware.cls) anyNs (fun _ => ParseErr) :=
  plain_ok fun args => RHEL6_UnsupportedHardware.parse_good RHEL6_UnsupportedHardware.info args 

theorem ok_RHEL6_Url : Command.Ok (RHEL6_Url.cls) anyNs (fun _ => ParseErr) :=
  plain_ok fun args => FC3_Url.parse_good RHEL6_Url.info args 

theorem ok_RHEL7_AutoPart : Command.Ok (RHEL7_AutoPart.cls) anyNs (fun _ => ParseErr) :=
  plain_ok fun args => RHEL7_AutoPart.parse_good RHEL7_AutoPart.info args 

theorem ok_RHEL7_Bootloader : Command.Ok (RHEL7_Bootloader.cls) anyNs (fun _ => ParseErr) :=
  plain_ok fun args => F17_Bootloader.parse_good RHEL7_Bootloader.info args 

theorem ok_RHEL7_BTRFS_RHEL7_BTRFSData : Command.Ok (RHEL7_BTRFS.cls RHEL7_BTRFSData.cls) anyNs (fun _ => ParseErr) :=
  list_ok fun args => F23_BTRFS.parse_good (RHEL7_BTRFS.info RHEL7_BTRFSData.cls) args 

theorem ok_RHEL7_ClearPart : Command.Ok (RHEL7_ClearPart.cls) anyNs (fun _ => ParseErr) :=
  plain_ok fun args => F17_ClearPart.parse_good RHEL7_ClearPart.info args 

theorem ok_RHEL7_Fcoe_RHEL7_FcoeData : Command.Ok (RHEL7_Fcoe.cls RHEL7_FcoeData.cls) anyNs (fun _ => ParseErr) :=
  list_ok fun args => F12_Fcoe.parse_good (RHEL7_Fcoe.info RHEL7_FcoeData.cls) args 

theorem ok_RHEL7_Hmc : Command.Ok (RHEL7_Hmc.cls) anyNs (fun _ => ParseErr) :=
  plain_ok fun args => RHEL7_Hmc.parse_good RHEL7_Hmc.info args 

theorem ok_RHEL7_LogVol_RHEL7_LogVolData : Command.Ok (RHEL7_LogVol.cls RHEL7_LogVolData.cls) anyNs (fun _ => ParseErr) :=
  list_ok fun args => RHEL7_LogVol.parse_good (RHEL7_LogVol.info RHEL7_LogVolData.cls) args (by decide +kernel)

theorem ok_RHEL7_Method : Command.Ok (RHEL7_Method.cls) anyNs (fun _ => ParseErrOr (· = .type)) :=
  method_ok

theorem ok_RHEL7_Network_RHEL7_NetworkData : Command.Ok (RHEL7_Network.cls RHEL7_NetworkData.cls) anyNs (fun _ => ParseErr) :=
  list_ok fun args => RHEL7_Network.parse_good (RHEL7_Network.info RHEL7_NetworkData.cls) args 

theorem ok_RHEL7_OSTreeSetup : Command.Ok (RHEL7_OSTreeSetup.cls) anyNs (fun _ => ParseErr) :=
  plain_ok fun args => F21_OSTreeSetup.parse_good RHEL7_OSTreeSetup.info args 

theorem ok_RHEL7_Partition_RHEL7_PartData : Command.Ok (RHEL7_Partition.cls RHEL7_PartData.cls) anyNs (fun _ => ParseErr) :=
  list_ok fun args => F23_Partition.parse_good (RHEL7_Partition.info RHEL7_PartData.cls) args (by decide +kernel)

theorem ok_RHEL7_Raid_RHEL7_RaidData : Command.Ok (RHEL7_Raid.cls RHEL7_RaidData.cls) anyNs (fun _ => ParseErr) :=
  list_ok fun args => F23_Raid.parse_good (RHEL7_Raid.info RHEL7_RaidData.cls) args (by decide +kernel) (by decide +kernel) (fun _ _ _ h => by cases h)

theorem ok_RHEL7_Repo_RHEL7_RepoData : Command.Ok (RHEL7_Repo.cls RHEL7_RepoData.cls) anyNs (fun _ => ParseErr) :=
  list_ok fun args => FC6_Repo.parse_good (RHEL7_Repo.info RHEL7_RepoData.cls) args 

theorem ok_RHEL7_ReqPart : Command.Ok (RHEL7_ReqPart.cls) anyNs (fun _ => ParseErr) :=
  plain_ok fun args => F23_ReqPart.parse_good RHEL7_ReqPart.info args 

theorem ok_RHEL7_Timezone : Command.Ok (RHEL7_Timezone.cls) anyNs (fun _ => ParseErr) :=
  plain_ok fun args => RHEL7_Timezone.parse_good RHEL7_Timezone.info args (by decide +kernel)

theorem ok_RHEL7_VolGroup_RHEL7_VolGroupData : Command.Ok (RHEL7_VolGroup.cls RHEL7_VolGroupData.cls) anyNs (fun _ => ParseErr) :=
  list_ok fun args => F16_VolGroup.parse_good (RHEL7_VolGroup.info RHEL7_VolGroupData.cls) args (by decide +kernel)

theorem ok_RHEL8_AutoPart : Command.Ok (RHEL8_AutoPart.cls) anyNs (fun _ => ParseErr) :=
  plain_ok fun args => RHEL8_AutoPart.parse_good RHEL8_AutoPart.info args 

theorem ok_RHEL8_Bootloader : Command.Ok (RHEL8_Bootloader.cls) anyNs (fun _ => ParseErr) :=
  plain_ok fun args => F17_Bootloader.parse_good RHEL8_Bootloader.info args 

theorem ok_RHEL8_BTRFS : Command.Ok (RHEL8_BTRFS.cls) anyNs (fun _ => ParseErr) :=
  deprecated_ok

theorem ok_RHEL8_Module_RHEL8_ModuleData : Command.Ok (RHEL8_Module.cls RHEL8_ModuleData.cls) anyNs (fun _ => ParseErr) :=
  list_ok fun args => F29_Module.parse_good (RHEL8_Module.info RHEL8_ModuleData.cls) args 

theorem ok_RHEL8_Fcoe_RHEL8_FcoeData : Command.Ok (RHEL8_Fcoe.cls RHEL8_FcoeData.cls) anyNs (fun _ => ParseErr) :=
  list_ok fun args => F12_Fcoe.parse_good (RHEL8_Fcoe.info RHEL8_FcoeData.cls) args 

theorem ok_RHEL8_LogVol_RHEL8_LogVolData : Command.Ok (RHEL8_LogVol.cls RHEL8_LogVolData.cls) anyNs (fun _ => ParseErr) :=
  list_ok fun args => RHEL8_LogVol.parse_good (RHEL8_LogVol.info RHEL8_LogVolData.cls) args (by decide +kernel)

theorem ok_RHEL8_OSTreeSetup : Command.Ok (RHEL8_OSTreeSetup.cls) anyNs (fun _ => ParseErr) :=
  plain_ok fun args => F21_OSTreeSetup.parse_good RHEL8_OSTreeSetup.info args 

theorem ok_RHEL8_Partition_RHEL8_PartData : Command.Ok (RHEL8_Partition.cls RHEL8_PartData.cls) anyNs (fun _ => ParseErr) :=
  list_ok fun args => RHEL8_Partition.parse_good (RHEL8_Partition.info RHEL8_PartData.cls) args (by decide +kernel)

theorem ok_RHEL8_Raid_RHEL8_RaidData : Command.Ok (RHEL8_Raid.cls RHEL8_RaidData.cls) anyNs (fun _ => ParseErr) :=
  list_ok fun args => RHEL8_Raid.parse_good (RHEL8_Raid.info RHEL8_RaidData.cls) args (by decide +kernel) (by decide +kernel) (fun _ _ _ h => by cases h)

theorem ok_RHEL8_Repo_RHEL8_RepoData : Command.Ok (RHEL8_Repo.cls RHEL8_RepoData.cls) anyNs (fun _ => ParseErr) :=
  list_ok fun args => FC6_Repo.parse_good (RHEL8_Repo.info RHEL8_RepoData.cls) args 

theorem ok_RHEL8_RHSM : Command.Ok (RHEL8_RHSM.cls) anyNs (fun _ => ParseErr) :=
  plain_ok fun args => RHEL8_RHSM.parse_good RHEL8_RHSM.info args 

theorem ok_RHEL8_Syspurpose : Command.Ok (RHEL8_Syspurpose.cls) anyNs (fun _ => ParseErr) :=
  plain_ok fun args => RHEL8_Syspurpose.parse_good RHEL8_Syspurpose.info args 

theorem ok_RHEL8_Url : Command.Ok (RHEL8_Url.cls) anyNs (fun _ => ParseErr) :=
  plain_ok fun args => F18_Url.parse_good RHEL8_Url.info args 

theorem ok_RHEL8_VolGroup_RHEL8_VolGroupData : Command.Ok (RHEL8_VolGroup.cls RHEL8_VolGroupData.cls) anyNs (fun _ => ParseErr) :=
  list_ok fun args => F16_VolGroup.parse_good (RHEL8_VolGroup.info RHEL8_VolGroupData.cls) args (by decide +kernel)

theorem ok_RHEL8_Zipl : Command.Ok (RHEL8_Zipl.cls) anyNs (fun _ => ParseErr) :=
  plain_ok fun args => F32_Zipl.parse_good RHEL8_Zipl.info args 

end Ks.Cmd
