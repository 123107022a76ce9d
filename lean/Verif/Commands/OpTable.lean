import Verif.Commands.Maps
/-!
# What the tools see of the command classes

Written by `scripts/gen_optable.py` from the text of the classes.
-/
namespace Ks.Cmd

/-- `hasattr(cmd, "op")` and `cmd.op` after `__init__`, and `isinstance` with the two classes of `base.py:191,223`.  `method` has no `op` of its own. -/
structure ClassInfo where
  op : Option OptParser := none
  deprecated : Bool := false
  removed : Bool := false

/-- `commands/*.py`: every class of the command maps, by its name. -/
def classOps : List (Str × ClassInfo) := [
  (c!"F10_Firewall", { op := some (F10_Firewall.info).op }),
  (c!"F10_Iscsi", { op := some (F10_Iscsi.info F10_IscsiData.cls).op }),
  (c!"F10_Monitor", { deprecated := true }),
  (c!"F10_Rescue", { op := some (F10_Rescue.info).op }),
  (c!"F10_XConfig", { op := some (F10_XConfig.info).op }),
  (c!"F11_Partition", { op := some (F11_Partition.info F11_PartData.cls).op }),
  (c!"F11_Repo", { op := some (F11_Repo.info F11_RepoData.cls).op }),
  (c!"F11_Upgrade", { op := some (F11_Upgrade.info).op }),
  (c!"F12_AutoPart", { op := some (F12_AutoPart.info).op }),
  (c!"F12_Bootloader", { op := some (F12_Bootloader.info).op }),
  (c!"F12_DriverDisk", { op := some (F12_DriverDisk.info F12_DriverDiskData.cls).op }),
  (c!"F12_Fcoe", { op := some (F12_Fcoe.info F12_FcoeData.cls).op }),
  (c!"F12_Group", { op := some (F12_Group.info F12_GroupData.cls).op }),
  (c!"F12_LogVol", { op := some (F12_LogVol.info F12_LogVolData.cls).op }),
  (c!"F12_Partition", { op := some (F12_Partition.info F12_PartData.cls).op }),
  (c!"F12_Raid", { op := some (F12_Raid.info F12_RaidData.cls).op }),
  (c!"F12_User", { op := some (F12_User.info F12_UserData.cls).op }),
  (c!"F12_ZFCP", { op := some (F12_ZFCP.info F12_ZFCPData.cls).op }),
  (c!"F13_Fcoe", { op := some (F13_Fcoe.info F13_FcoeData.cls).op }),
  (c!"F13_Method", {}),
  (c!"F13_Raid", { op := some (F13_Raid.info F13_RaidData.cls).op }),
  (c!"F13_Repo", { op := some (F13_Repo.info F13_RepoData.cls).op }),
  (c!"F13_SshPw", { op := some (F13_SshPw.info F13_SshPwData.cls).op }),
  (c!"F13_Url", { op := some (F13_Url.info).op }),
  (c!"F14_Bootloader", { op := some (F14_Bootloader.info).op }),
  (c!"F14_DriverDisk", { op := some (F14_DriverDisk.info F14_DriverDiskData.cls).op }),
  (c!"F14_Firewall", { op := some (F14_Firewall.info).op }),
  (c!"F14_IgnoreDisk", { op := some (F14_IgnoreDisk.info).op }),
  (c!"F14_Interactive", { deprecated := true }),
  (c!"F14_LogVol", { op := some (F14_LogVol.info F14_LogVolData.cls).op }),
  (c!"F14_Method", {}),
  (c!"F14_Partition", { op := some (F14_Partition.info F14_PartData.cls).op }),
  (c!"F14_Raid", { op := some (F14_Raid.info F14_RaidData.cls).op }),
  (c!"F14_Repo", { op := some (F14_Repo.info F14_RepoData.cls).op }),
  (c!"F14_Url", { op := some (F14_Url.info).op }),
  (c!"F14_XConfig", { op := some (F14_XConfig.info).op }),
  (c!"F14_ZFCP", { op := some (F14_ZFCP.info F14_ZFCPData.cls).op }),
  (c!"F15_Bootloader", { op := some (F15_Bootloader.info).op }),
  (c!"F15_Interactive", { deprecated := true, removed := true }),
  (c!"F15_LogVol", { op := some (F15_LogVol.info F15_LogVolData.cls).op }),
  (c!"F15_Raid", { op := some (F15_Raid.info F15_RaidData.cls).op }),
  (c!"F15_Repo", { op := some (F15_Repo.info F15_RepoData.cls).op }),
  (c!"F16_AutoPart", { op := some (F16_AutoPart.info).op }),
  (c!"F16_Network", { op := some (F16_Network.info F16_NetworkData.cls).op }),
  (c!"F16_VolGroup", { op := some (F16_VolGroup.info F16_VolGroupData.cls).op }),
  (c!"F17_AutoPart", { op := some (F17_AutoPart.info).op }),
  (c!"F17_BTRFS", { op := some (F17_BTRFS.info F17_BTRFSData.cls).op }),
  (c!"F17_Bootloader", { op := some (F17_Bootloader.info).op }),
  (c!"F17_ClearPart", { op := some (F17_ClearPart.info).op }),
  (c!"F17_Iscsi", { op := some (F17_Iscsi.info F17_IscsiData.cls).op }),
  (c!"F17_LogVol", { op := some (F17_LogVol.info F17_LogVolData.cls).op }),
  (c!"F17_Partition", { op := some (F17_Partition.info F17_PartData.cls).op }),
  (c!"F18_AutoPart", { op := some (F18_AutoPart.info).op }),
  (c!"F18_Bootloader", { op := some (F18_Bootloader.info).op }),
  (c!"F18_Keyboard", { op := some (F18_Keyboard.info).op }),
  (c!"F18_LogVol", { op := some (F18_LogVol.info F18_LogVolData.cls).op }),
  (c!"F18_Method", {}),
  (c!"F18_Monitor", { deprecated := true, removed := true }),
  (c!"F18_Network", { op := some (F18_Network.info F16_NetworkData.cls).op }),
  (c!"F18_Partition", { op := some (F18_Partition.info F18_PartData.cls).op }),
  (c!"F18_Raid", { op := some (F18_Raid.info F18_RaidData.cls).op }),
  (c!"F18_Reboot", { op := some (F18_Reboot.info).op }),
  (c!"F18_RootPw", { op := some (F18_RootPw.info).op }),
  (c!"F18_Timezone", { op := some (F18_Timezone.info).op }),
  (c!"F18_Url", { op := some (F18_Url.info).op }),
  (c!"F19_Bootloader", { op := some (F19_Bootloader.info).op }),
  (c!"F19_Lang", { op := some (F19_Lang.info).op }),
  (c!"F19_Liveimg", { op := some (F19_Liveimg.info).op }),
  (c!"F19_Method", {}),
  (c!"F19_Network", { op := some (F19_Network.info F19_NetworkData.cls).op }),
  (c!"F19_Raid", { op := some (F19_Raid.info F18_RaidData.cls).op }),
  (c!"F19_Realm", {}),
  (c!"F19_User", { op := some (F19_User.info F19_UserData.cls).op }),
  (c!"F20_AutoPart", { op := some (F20_AutoPart.info).op }),
  (c!"F20_Eula", { op := some (F20_Eula.info).op }),
  (c!"F20_Firewall", { op := some (F20_Firewall.info).op }),
  (c!"F20_Install", { op := some (F20_Install.info).op }),
  (c!"F20_LogVol", { op := some (F20_LogVol.info F20_LogVolData.cls).op }),
  (c!"F20_Network", { op := some (F20_Network.info F20_NetworkData.cls).op }),
  (c!"F20_Partition", { op := some (F20_Partition.info F18_PartData.cls).op }),
  (c!"F20_Raid", { op := some (F20_Raid.info F18_RaidData.cls).op }),
  (c!"F20_Upgrade", { deprecated := true }),
  (c!"F21_AutoPart", { op := some (F21_AutoPart.info).op }),
  (c!"F21_Bootloader", { op := some (F21_Bootloader.info).op }),
  (c!"F21_ClearPart", { op := some (F21_ClearPart.info).op }),
  (c!"F21_LogVol", { op := some (F21_LogVol.info F21_LogVolData.cls).op }),
  (c!"F21_Network", { op := some (F21_Network.info F21_NetworkData.cls).op }),
  (c!"F21_OSTreeSetup", { op := some (F21_OSTreeSetup.info).op }),
  (c!"F21_Repo", { op := some (F21_Repo.info F21_RepoData.cls).op }),
  (c!"F21_VolGroup", { op := some (F21_VolGroup.info F21_VolGroupData.cls).op }),
  (c!"F22_Network", { op := some (F22_Network.info F22_NetworkData.cls).op }),
  (c!"F22_SshKey", { op := some (F22_SshKey.info F22_SshKeyData.cls).op }),
  (c!"F23_AutoPart", { op := some (F23_AutoPart.info).op }),
  (c!"F23_BTRFS", { op := some (F23_BTRFS.info F23_BTRFSData.cls).op }),
  (c!"F23_LogVol", { op := some (F23_LogVol.info F23_LogVolData.cls).op }),
  (c!"F23_Partition", { op := some (F23_Partition.info F23_PartData.cls).op }),
  (c!"F23_Raid", { op := some (F23_Raid.info F23_RaidData.cls).op }),
  (c!"F23_Reboot", { op := some (F23_Reboot.info).op }),
  (c!"F23_ReqPart", { op := some (F23_ReqPart.info).op }),
  (c!"F23_Timezone", { op := some (F23_Timezone.info).op }),
  (c!"F24_Device", { deprecated := true }),
  (c!"F24_DmRaid", { deprecated := true }),
  (c!"F24_MultiPath", { deprecated := true }),
  (c!"F24_Network", { op := some (F24_Network.info F22_NetworkData.cls).op }),
  (c!"F24_SshPw", { op := some (F24_SshPw.info F24_SshPwData.cls).op }),
  (c!"F24_User", { op := some (F24_User.info F19_UserData.cls).op }),
  (c!"F25_Network", { op := some (F25_Network.info F25_NetworkData.cls).op }),
  (c!"F25_Raid", { op := some (F25_Raid.info F25_RaidData.cls).op }),
  (c!"F25_Timezone", { op := some (F25_Timezone.info).op }),
  (c!"F26_AutoPart", { op := some (F26_AutoPart.info).op }),
  (c!"F26_DisplayMode", { op := some (F26_DisplayMode.info).op }),
  (c!"F26_Snapshot", { op := some (F26_Snapshot.info F26_SnapshotData.cls).op }),
  (c!"F27_Mount", { op := some (F27_Mount.info F27_MountData.cls).op }),
  (c!"F27_Network", { op := some (F27_Network.info F27_NetworkData.cls).op }),
  (c!"F27_Repo", { op := some (F27_Repo.info F27_RepoData.cls).op }),
  (c!"F27_Url", { op := some (F27_Url.info).op }),
  (c!"F28_Authconfig", {}),
  (c!"F28_Authselect", {}),
  (c!"F28_ClearPart", { op := some (F28_ClearPart.info).op }),
  (c!"F28_Fcoe", { op := some (F28_Fcoe.info F28_FcoeData.cls).op }),
  (c!"F28_Firewall", { op := some (F28_Firewall.info).op }),
  (c!"F28_Hmc", {}),
  (c!"F28_Method", {}),
  (c!"F28_Nvdimm", { op := some (F28_Nvdimm.info F28_NvdimmData.cls).op }),
  (c!"F29_AutoPart", { op := some (F29_AutoPart.info).op }),
  (c!"F29_Bootloader", { op := some (F29_Bootloader.info).op }),
  (c!"F29_DeviceProbe", { deprecated := true }),
  (c!"F29_IgnoreDisk", { op := some (F29_IgnoreDisk.info).op }),
  (c!"F29_Install", { deprecated := true }),
  (c!"F29_LogVol", { op := some (F29_LogVol.info F29_LogVolData.cls).op }),
  (c!"F29_Module", { op := some (F29_Module.info F29_ModuleData.cls).op }),
  (c!"F29_Partition", { op := some (F29_Partition.info F29_PartData.cls).op }),
  (c!"F29_Raid", { op := some (F29_Raid.info F29_RaidData.cls).op }),
  (c!"F29_Upgrade", { deprecated := true, removed := true }),
  (c!"F30_Repo", { op := some (F30_Repo.info F30_RepoData.cls).op }),
  (c!"F30_Url", { op := some (F30_Url.info).op }),
  (c!"F31_Module", { op := some (F31_Module.info F31_ModuleData.cls).op }),
  (c!"F32_Timezone", { op := some (F32_Timezone.info).op }),
  (c!"F32_Zipl", { op := some (F32_Zipl.info).op }),
  (c!"F33_HardDrive", { op := some (F33_HardDrive.info).op }),
  (c!"F33_Repo", { op := some (F33_Repo.info F30_RepoData.cls).op }),
  (c!"F33_Timesource", { op := some (F33_Timesource.info F33_TimesourceData.cls).op }),
  (c!"F33_Timezone", { op := some (F33_Timezone.info).op }),
  (c!"F34_AutoStep", { deprecated := true }),
  (c!"F34_Bootloader", { op := some (F34_Bootloader.info).op }),
  (c!"F34_Device", { deprecated := true, removed := true }),
  (c!"F34_DeviceProbe", { deprecated := true, removed := true }),
  (c!"F34_DmRaid", { deprecated := true, removed := true }),
  (c!"F34_IgnoreDisk", { op := some (F34_IgnoreDisk.info).op }),
  (c!"F34_Install", { deprecated := true, removed := true }),
  (c!"F34_Logging", { op := some (F34_Logging.info).op }),
  (c!"F34_Method", { deprecated := true }),
  (c!"F34_MultiPath", { deprecated := true, removed := true }),
  (c!"F34_Partition", { op := some (F34_Partition.info F29_PartData.cls).op }),
  (c!"F34_Updates", { op := some (F34_Updates.info).op }),
  (c!"F7_LangSupport", { deprecated := true, removed := true }),
  (c!"F7_Mouse", { deprecated := true, removed := true }),
  (c!"F7_Raid", { op := some (F7_Raid.info F7_RaidData.cls).op }),
  (c!"F7_Updates", { op := some (F7_Updates.info).op }),
  (c!"F8_Bootloader", { op := some (F8_Bootloader.info).op }),
  (c!"F8_Device", { op := some (F8_Device.info F8_DeviceData.cls).op }),
  (c!"F8_IgnoreDisk", { op := some (F8_IgnoreDisk.info).op }),
  (c!"F8_Network", { op := some (F8_Network.info F8_NetworkData.cls).op }),
  (c!"F8_Repo", { op := some (F8_Repo.info F8_RepoData.cls).op }),
  (c!"F8_RootPw", { op := some (F8_RootPw.info).op }),
  (c!"F8_User", { op := some (F8_User.info F8_UserData.cls).op }),
  (c!"F9_AutoPart", { op := some (F9_AutoPart.info).op }),
  (c!"F9_Firewall", { op := some (F9_Firewall.info).op }),
  (c!"F9_LogVol", { op := some (F9_LogVol.info F9_LogVolData.cls).op }),
  (c!"F9_Network", { op := some (F9_Network.info F8_NetworkData.cls).op }),
  (c!"F9_Partition", { op := some (F9_Partition.info F9_PartData.cls).op }),
  (c!"F9_Raid", { op := some (F9_Raid.info F9_RaidData.cls).op }),
  (c!"F9_Vnc", { op := some (F9_Vnc.info).op }),
  (c!"F9_XConfig", { op := some (F9_XConfig.info).op }),
  (c!"F9_ZeroMbr", { op := some (F9_ZeroMbr.info).op }),
  (c!"FC3_Authconfig", {}),
  (c!"FC3_AutoPart", {}),
  (c!"FC3_AutoStep", { op := some (FC3_AutoStep.info).op }),
  (c!"FC3_Bootloader", { op := some (FC3_Bootloader.info).op }),
  (c!"FC3_Cdrom", {}),
  (c!"FC3_ClearPart", { op := some (FC3_ClearPart.info).op }),
  (c!"FC3_Device", { op := some (FC3_Device.info).op }),
  (c!"FC3_DeviceProbe", {}),
  (c!"FC3_DisplayMode", { op := some (FC3_DisplayMode.info).op }),
  (c!"FC3_DriverDisk", { op := some (FC3_DriverDisk.info FC3_DriverDiskData.cls).op }),
  (c!"FC3_Firewall", { op := some (FC3_Firewall.info).op }),
  (c!"FC3_Firstboot", { op := some (FC3_Firstboot.info).op }),
  (c!"FC3_HardDrive", { op := some (FC3_HardDrive.info).op }),
  (c!"FC3_IgnoreDisk", { op := some (FC3_IgnoreDisk.info).op }),
  (c!"FC3_Interactive", { op := some (FC3_Interactive.info).op }),
  (c!"FC3_Keyboard", { op := some (FC3_Keyboard.info).op }),
  (c!"FC3_Lang", { op := some (FC3_Lang.info).op }),
  (c!"FC3_LangSupport", { op := some (FC3_LangSupport.info).op }),
  (c!"FC3_Lilo", { op := some (FC3_Lilo.info).op }),
  (c!"FC3_LiloCheck", { op := some (FC3_LiloCheck.info).op }),
  (c!"FC3_LogVol", { op := some (FC3_LogVol.info FC3_LogVolData.cls).op }),
  (c!"FC3_Method", {}),
  (c!"FC3_Monitor", { op := some (FC3_Monitor.info).op }),
  (c!"FC3_Mouse", { deprecated := true }),
  (c!"FC3_NFS", { op := some (FC3_NFS.info).op }),
  (c!"FC3_Network", { op := some (FC3_Network.info FC3_NetworkData.cls).op }),
  (c!"FC3_Partition", { op := some (FC3_Partition.info FC3_PartData.cls).op }),
  (c!"FC3_Raid", { op := some (FC3_Raid.info FC3_RaidData.cls).op }),
  (c!"FC3_Reboot", {}),
  (c!"FC3_RootPw", { op := some (FC3_RootPw.info).op }),
  (c!"FC3_SELinux", { op := some (FC3_SELinux.info).op }),
  (c!"FC3_SkipX", { op := some (FC3_SkipX.info).op }),
  (c!"FC3_Timezone", { op := some (FC3_Timezone.info).op }),
  (c!"FC3_Upgrade", { op := some (FC3_Upgrade.info).op }),
  (c!"FC3_Url", { op := some (FC3_Url.info).op }),
  (c!"FC3_Vnc", { op := some (FC3_Vnc.info).op }),
  (c!"FC3_VolGroup", { op := some (FC3_VolGroup.info FC3_VolGroupData.cls).op }),
  (c!"FC3_XConfig", { op := some (FC3_XConfig.info).op }),
  (c!"FC3_ZFCP", { op := some (FC3_ZFCP.info FC3_ZFCPData.cls).op }),
  (c!"FC3_ZeroMbr", { op := some (FC3_ZeroMbr.info).op }),
  (c!"FC4_Bootloader", { op := some (FC4_Bootloader.info).op }),
  (c!"FC4_DriverDisk", { op := some (FC4_DriverDisk.info FC4_DriverDiskData.cls).op }),
  (c!"FC4_Lilo", { removed := true }),
  (c!"FC4_LiloCheck", { removed := true }),
  (c!"FC4_LogVol", { op := some (FC4_LogVol.info FC4_LogVolData.cls).op }),
  (c!"FC4_MediaCheck", { op := some (FC4_MediaCheck.info).op }),
  (c!"FC4_Network", { op := some (FC4_Network.info FC4_NetworkData.cls).op }),
  (c!"FC4_Partition", { op := some (FC4_Partition.info FC4_PartData.cls).op }),
  (c!"FC4_Raid", { op := some (FC4_Raid.info FC4_RaidData.cls).op }),
  (c!"FC5_LangSupport", { deprecated := true }),
  (c!"FC5_Raid", { op := some (FC5_Raid.info FC5_RaidData.cls).op }),
  (c!"FC6_DmRaid", { op := some (FC6_DmRaid.info FC6_DmRaidData.cls).op }),
  (c!"FC6_Iscsi", { op := some (FC6_Iscsi.info FC6_IscsiData.cls).op }),
  (c!"FC6_IscsiName", { op := some (FC6_IscsiName.info).op }),
  (c!"FC6_Logging", { op := some (FC6_Logging.info).op }),
  (c!"FC6_Method", {}),
  (c!"FC6_Monitor", { op := some (FC6_Monitor.info).op }),
  (c!"FC6_MultiPath", { op := some (FC6_MultiPath.info FC6_MultiPathData.cls).op }),
  (c!"FC6_NFS", { op := some (FC6_NFS.info).op }),
  (c!"FC6_Network", { op := some (FC6_Network.info FC6_NetworkData.cls).op }),
  (c!"FC6_Reboot", { op := some (FC6_Reboot.info).op }),
  (c!"FC6_Repo", { op := some (FC6_Repo.info FC6_RepoData.cls).op }),
  (c!"FC6_Services", { op := some (FC6_Services.info).op }),
  (c!"FC6_Timezone", { op := some (FC6_Timezone.info).op }),
  (c!"FC6_User", { op := some (FC6_User.info FC6_UserData.cls).op }),
  (c!"FC6_Vnc", { op := some (FC6_Vnc.info).op }),
  (c!"FC6_XConfig", { op := some (FC6_XConfig.info).op }),
  (c!"RHEL3_Mouse", { op := some (RHEL3_Mouse.info).op }),
  (c!"RHEL4_Network", { op := some (RHEL4_Network.info RHEL4_NetworkData.cls).op }),
  (c!"RHEL5_Bootloader", { op := some (RHEL5_Bootloader.info).op }),
  (c!"RHEL5_Key", { op := some (RHEL5_Key.info).op }),
  (c!"RHEL5_LogVol", { op := some (RHEL5_LogVol.info RHEL5_LogVolData.cls).op }),
  (c!"RHEL5_Network", { op := some (RHEL5_Network.info FC6_NetworkData.cls).op }),
  (c!"RHEL5_Partition", { op := some (RHEL5_Partition.info RHEL5_PartData.cls).op }),
  (c!"RHEL5_Raid", { op := some (RHEL5_Raid.info RHEL5_RaidData.cls).op }),
  (c!"RHEL6_AutoPart", { op := some (RHEL6_AutoPart.info).op }),
  (c!"RHEL6_Bootloader", { op := some (RHEL6_Bootloader.info).op }),
  (c!"RHEL6_IgnoreDisk", { op := some (RHEL6_IgnoreDisk.info).op }),
  (c!"RHEL6_Iscsi", { op := some (RHEL6_Iscsi.info RHEL6_IscsiData.cls).op }),
  (c!"RHEL6_LogVol", { op := some (RHEL6_LogVol.info RHEL6_LogVolData.cls).op }),
  (c!"RHEL6_Method", {}),
  (c!"RHEL6_Network", { op := some (RHEL6_Network.info RHEL6_NetworkData.cls).op }),
  (c!"RHEL6_Partition", { op := some (RHEL6_Partition.info RHEL6_PartData.cls).op }),
  (c!"RHEL6_Raid", { op := some (RHEL6_Raid.info RHEL6_RaidData.cls).op }),
  (c!"RHEL6_Repo", { op := some (RHEL6_Repo.info RHEL6_RepoData.cls).op }),
  (c!"RHEL6_UnsupportedHardware", { op := some (RHEL6_UnsupportedHardware.info).op }),
  (c!"RHEL6_Url", { op := some (RHEL6_Url.info).op }),
  (c!"RHEL7_AutoPart", { op := some (RHEL7_AutoPart.info).op }),
  (c!"RHEL7_BTRFS", { op := some (RHEL7_BTRFS.info RHEL7_BTRFSData.cls).op }),
  (c!"RHEL7_Bootloader", { op := some (RHEL7_Bootloader.info).op }),
  (c!"RHEL7_ClearPart", { op := some (RHEL7_ClearPart.info).op }),
  (c!"RHEL7_Fcoe", { op := some (RHEL7_Fcoe.info RHEL7_FcoeData.cls).op }),
  (c!"RHEL7_Hmc", {}),
  (c!"RHEL7_LogVol", { op := some (RHEL7_LogVol.info RHEL7_LogVolData.cls).op }),
  (c!"RHEL7_Method", {}),
  (c!"RHEL7_Network", { op := some (RHEL7_Network.info RHEL7_NetworkData.cls).op }),
  (c!"RHEL7_OSTreeSetup", { op := some (RHEL7_OSTreeSetup.info).op }),
  (c!"RHEL7_Partition", { op := some (RHEL7_Partition.info RHEL7_PartData.cls).op }),
  (c!"RHEL7_Raid", { op := some (RHEL7_Raid.info RHEL7_RaidData.cls).op }),
  (c!"RHEL7_Repo", { op := some (RHEL7_Repo.info RHEL7_RepoData.cls).op }),
  (c!"RHEL7_ReqPart", { op := some (RHEL7_ReqPart.info).op }),
  (c!"RHEL7_Timezone", { op := some (RHEL7_Timezone.info).op }),
  (c!"RHEL7_VolGroup", { op := some (RHEL7_VolGroup.info RHEL7_VolGroupData.cls).op }),
  (c!"RHEL8_AutoPart", { op := some (RHEL8_AutoPart.info).op }),
  (c!"RHEL8_BTRFS", { deprecated := true }),
  (c!"RHEL8_Bootloader", { op := some (RHEL8_Bootloader.info).op }),
  (c!"RHEL8_Fcoe", { op := some (RHEL8_Fcoe.info RHEL8_FcoeData.cls).op }),
  (c!"RHEL8_LogVol", { op := some (RHEL8_LogVol.info RHEL8_LogVolData.cls).op }),
  (c!"RHEL8_Module", { op := some (RHEL8_Module.info RHEL8_ModuleData.cls).op }),
  (c!"RHEL8_OSTreeSetup", { op := some (RHEL8_OSTreeSetup.info).op }),
  (c!"RHEL8_Partition", { op := some (RHEL8_Partition.info RHEL8_PartData.cls).op }),
  (c!"RHEL8_RHSM", { op := some (RHEL8_RHSM.info).op }),
  (c!"RHEL8_Raid", { op := some (RHEL8_Raid.info RHEL8_RaidData.cls).op }),
  (c!"RHEL8_Repo", { op := some (RHEL8_Repo.info RHEL8_RepoData.cls).op }),
  (c!"RHEL8_Syspurpose", { op := some (RHEL8_Syspurpose.info).op }),
  (c!"RHEL8_Url", { op := some (RHEL8_Url.info).op }),
  (c!"RHEL8_VolGroup", { op := some (RHEL8_VolGroup.info RHEL8_VolGroupData.cls).op }),
  (c!"RHEL8_Zipl", { op := some (RHEL8_Zipl.info).op })]

/-- What the table says of the class is so: a removed class refuses every line, a deprecated one ignores it. -/
structure Listed (c : Command) : Prop where
  found : (classOps.lookup c.name).isSome = true
  removed : ((classOps.lookup c.name).getD {}).removed = true → c = removedCmd c.name c.init.attrs
  deprecated : ((classOps.lookup c.name).getD {}).removed = false → ((classOps.lookup c.name).getD {}).deprecated = true → c = deprecatedCmd c.name c.init.attrs

theorem Listed.other {c : Command} (h : (classOps.lookup c.name).map (fun i => (i.removed, i.deprecated)) = some (false, false)) : Listed c := by
  cases e : classOps.lookup c.name with
  | none => rw [e] at h; cases h
  | some i =>
    rw [e] at h
    simp only [Option.map_some, Option.some.injEq, Prod.mk.injEq] at h
    exact ⟨by rw [e]; rfl, fun x => (by rw [e, Option.getD_some, h.1] at x; cases x), fun _ x => (by rw [e, Option.getD_some, h.2] at x; cases x)⟩

theorem Listed.gone {c : Command} (h : (classOps.lookup c.name).map (·.removed) = some true) (hc : c = removedCmd c.name c.init.attrs) : Listed c := by
  cases e : classOps.lookup c.name with
  | none => rw [e] at h; cases h
  | some i =>
    rw [e] at h
    simp only [Option.map_some, Option.some.injEq] at h
    exact ⟨by rw [e]; rfl, fun _ => hc, fun x => (by rw [e, Option.getD_some, h] at x; cases x)⟩

theorem Listed.idle {c : Command} (h : (classOps.lookup c.name).map (·.removed) = some false) (hc : c = deprecatedCmd c.name c.init.attrs) : Listed c := by
  cases e : classOps.lookup c.name with
  | none => rw [e] at h; cases h
  | some i =>
    rw [e] at h
    simp only [Option.map_some, Option.some.injEq] at h
    exact ⟨by rw [e]; rfl, fun x => (by rw [e, Option.getD_some, h] at x; cases x), fun _ _ => hc⟩

theorem listed_F10_Firewall : Listed (F10_Firewall.cls) := .other (by decide +kernel)
theorem listed_F10_Iscsi_F10_IscsiData : Listed (F10_Iscsi.cls F10_IscsiData.cls) := .other (by decide +kernel)
theorem listed_F10_Monitor : Listed (F10_Monitor.cls) := .idle (by decide +kernel) rfl
theorem listed_F10_Rescue : Listed (F10_Rescue.cls) := .other (by decide +kernel)
theorem listed_F10_XConfig : Listed (F10_XConfig.cls) := .other (by decide +kernel)
theorem listed_F11_Partition_F11_PartData : Listed (F11_Partition.cls F11_PartData.cls) := .other (by decide +kernel)
theorem listed_F11_Repo_F11_RepoData : Listed (F11_Repo.cls F11_RepoData.cls) := .other (by decide +kernel)
theorem listed_F11_Upgrade : Listed (F11_Upgrade.cls) := .other (by decide +kernel)
theorem listed_F12_AutoPart : Listed (F12_AutoPart.cls) := .other (by decide +kernel)
theorem listed_F12_Bootloader : Listed (F12_Bootloader.cls) := .other (by decide +kernel)
theorem listed_F12_DriverDisk_F12_DriverDiskData : Listed (F12_DriverDisk.cls F12_DriverDiskData.cls) := .other (by decide +kernel)
theorem listed_F12_Fcoe_F12_FcoeData : Listed (F12_Fcoe.cls F12_FcoeData.cls) := .other (by decide +kernel)
theorem listed_F12_Group_F12_GroupData : Listed (F12_Group.cls F12_GroupData.cls) := .other (by decide +kernel)
theorem listed_F12_LogVol_F12_LogVolData : Listed (F12_LogVol.cls F12_LogVolData.cls) := .other (by decide +kernel)
theorem listed_F12_Partition_F12_PartData : Listed (F12_Partition.cls F12_PartData.cls) := .other (by decide +kernel)
theorem listed_F12_Raid_F12_RaidData : Listed (F12_Raid.cls F12_RaidData.cls) := .other (by decide +kernel)
theorem listed_F12_User_F12_UserData : Listed (F12_User.cls F12_UserData.cls) := .other (by decide +kernel)
theorem listed_F12_ZFCP_F12_ZFCPData : Listed (F12_ZFCP.cls F12_ZFCPData.cls) := .other (by decide +kernel)
theorem listed_F13_Fcoe_F13_FcoeData : Listed (F13_Fcoe.cls F13_FcoeData.cls) := .other (by decide +kernel)
theorem listed_F13_Fcoe_RHEL7_FcoeData : Listed (F13_Fcoe.cls RHEL7_FcoeData.cls) := .other (by decide +kernel)
theorem listed_F13_Method : Listed (F13_Method.cls) := .other (by decide +kernel)
theorem listed_F13_Raid_F13_RaidData : Listed (F13_Raid.cls F13_RaidData.cls) := .other (by decide +kernel)
theorem listed_F13_Repo_F13_RepoData : Listed (F13_Repo.cls F13_RepoData.cls) := .other (by decide +kernel)
theorem listed_F13_SshPw_F13_SshPwData : Listed (F13_SshPw.cls F13_SshPwData.cls) := .other (by decide +kernel)
theorem listed_F13_Url : Listed (F13_Url.cls) := .other (by decide +kernel)
theorem listed_F14_Bootloader : Listed (F14_Bootloader.cls) := .other (by decide +kernel)
theorem listed_F14_DriverDisk_F14_DriverDiskData : Listed (F14_DriverDisk.cls F14_DriverDiskData.cls) := .other (by decide +kernel)
theorem listed_F14_Firewall : Listed (F14_Firewall.cls) := .other (by decide +kernel)
theorem listed_F14_IgnoreDisk : Listed (F14_IgnoreDisk.cls) := .other (by decide +kernel)
theorem listed_F14_Interactive : Listed (F14_Interactive.cls) := .idle (by decide +kernel) rfl
theorem listed_F14_LogVol_F14_LogVolData : Listed (F14_LogVol.cls F14_LogVolData.cls) := .other (by decide +kernel)
theorem listed_F14_Method : Listed (F14_Method.cls) := .other (by decide +kernel)
theorem listed_F14_Partition_F14_PartData : Listed (F14_Partition.cls F14_PartData.cls) := .other (by decide +kernel)
theorem listed_F14_Partition_F17_PartData : Listed (F14_Partition.cls F17_PartData.cls) := .other (by decide +kernel)
theorem listed_F14_Raid_F14_RaidData : Listed (F14_Raid.cls F14_RaidData.cls) := .other (by decide +kernel)
theorem listed_F14_Repo_F14_RepoData : Listed (F14_Repo.cls F14_RepoData.cls) := .other (by decide +kernel)
theorem listed_F14_Url : Listed (F14_Url.cls) := .other (by decide +kernel)
theorem listed_F14_XConfig : Listed (F14_XConfig.cls) := .other (by decide +kernel)
theorem listed_F14_ZFCP_F14_ZFCPData : Listed (F14_ZFCP.cls F14_ZFCPData.cls) := .other (by decide +kernel)
theorem listed_F15_Bootloader : Listed (F15_Bootloader.cls) := .other (by decide +kernel)
theorem listed_F15_Interactive : Listed (F15_Interactive.cls) := .gone (by decide +kernel) rfl
theorem listed_F15_LogVol_F15_LogVolData : Listed (F15_LogVol.cls F15_LogVolData.cls) := .other (by decide +kernel)
theorem listed_F15_LogVol_F17_LogVolData : Listed (F15_LogVol.cls F17_LogVolData.cls) := .other (by decide +kernel)
theorem listed_F15_Raid_F15_RaidData : Listed (F15_Raid.cls F15_RaidData.cls) := .other (by decide +kernel)
theorem listed_F15_Repo_F15_RepoData : Listed (F15_Repo.cls F15_RepoData.cls) := .other (by decide +kernel)
theorem listed_F16_AutoPart : Listed (F16_AutoPart.cls) := .other (by decide +kernel)
theorem listed_F16_Network_F16_NetworkData : Listed (F16_Network.cls F16_NetworkData.cls) := .other (by decide +kernel)
theorem listed_F16_VolGroup_F16_VolGroupData : Listed (F16_VolGroup.cls F16_VolGroupData.cls) := .other (by decide +kernel)
theorem listed_F17_AutoPart : Listed (F17_AutoPart.cls) := .other (by decide +kernel)
theorem listed_F17_BTRFS_F17_BTRFSData : Listed (F17_BTRFS.cls F17_BTRFSData.cls) := .other (by decide +kernel)
theorem listed_F17_Bootloader : Listed (F17_Bootloader.cls) := .other (by decide +kernel)
theorem listed_F17_ClearPart : Listed (F17_ClearPart.cls) := .other (by decide +kernel)
theorem listed_F17_Iscsi_F17_IscsiData : Listed (F17_Iscsi.cls F17_IscsiData.cls) := .other (by decide +kernel)
theorem listed_F17_LogVol_F17_LogVolData : Listed (F17_LogVol.cls F17_LogVolData.cls) := .other (by decide +kernel)
theorem listed_F17_Partition_F17_PartData : Listed (F17_Partition.cls F17_PartData.cls) := .other (by decide +kernel)
theorem listed_F18_AutoPart : Listed (F18_AutoPart.cls) := .other (by decide +kernel)
theorem listed_F18_Bootloader : Listed (F18_Bootloader.cls) := .other (by decide +kernel)
theorem listed_F18_Keyboard : Listed (F18_Keyboard.cls) := .other (by decide +kernel)
theorem listed_F18_LogVol_F18_LogVolData : Listed (F18_LogVol.cls F18_LogVolData.cls) := .other (by decide +kernel)
theorem listed_F18_LogVol_F20_LogVolData : Listed (F18_LogVol.cls F20_LogVolData.cls) := .other (by decide +kernel)
theorem listed_F18_Method : Listed (F18_Method.cls) := .other (by decide +kernel)
theorem listed_F18_Monitor : Listed (F18_Monitor.cls) := .gone (by decide +kernel) rfl
theorem listed_F18_Network_F16_NetworkData : Listed (F18_Network.cls F16_NetworkData.cls) := .other (by decide +kernel)
theorem listed_F18_Partition_F18_PartData : Listed (F18_Partition.cls F18_PartData.cls) := .other (by decide +kernel)
theorem listed_F18_Raid_F18_RaidData : Listed (F18_Raid.cls F18_RaidData.cls) := .other (by decide +kernel)
theorem listed_F18_Reboot : Listed (F18_Reboot.cls) := .other (by decide +kernel)
theorem listed_F18_RootPw : Listed (F18_RootPw.cls) := .other (by decide +kernel)
theorem listed_F18_Timezone : Listed (F18_Timezone.cls) := .other (by decide +kernel)
theorem listed_F18_Url : Listed (F18_Url.cls) := .other (by decide +kernel)
theorem listed_F19_Bootloader : Listed (F19_Bootloader.cls) := .other (by decide +kernel)
theorem listed_F19_Lang : Listed (F19_Lang.cls) := .other (by decide +kernel)
theorem listed_F19_Liveimg : Listed (F19_Liveimg.cls) := .other (by decide +kernel)
theorem listed_F19_Method : Listed (F19_Method.cls) := .other (by decide +kernel)
theorem listed_F19_Network_F19_NetworkData : Listed (F19_Network.cls F19_NetworkData.cls) := .other (by decide +kernel)
theorem listed_F19_Raid_F18_RaidData : Listed (F19_Raid.cls F18_RaidData.cls) := .other (by decide +kernel)
theorem listed_F19_Realm : Listed (F19_Realm.cls) := .other (by decide +kernel)
theorem listed_F19_User_F19_UserData : Listed (F19_User.cls F19_UserData.cls) := .other (by decide +kernel)
theorem listed_F20_AutoPart : Listed (F20_AutoPart.cls) := .other (by decide +kernel)
theorem listed_F20_Eula : Listed (F20_Eula.cls) := .other (by decide +kernel)
theorem listed_F20_Firewall : Listed (F20_Firewall.cls) := .other (by decide +kernel)
theorem listed_F20_Install : Listed (F20_Install.cls) := .other (by decide +kernel)
theorem listed_F20_LogVol_F20_LogVolData : Listed (F20_LogVol.cls F20_LogVolData.cls) := .other (by decide +kernel)
theorem listed_F20_Network_F20_NetworkData : Listed (F20_Network.cls F20_NetworkData.cls) := .other (by decide +kernel)
theorem listed_F20_Partition_F18_PartData : Listed (F20_Partition.cls F18_PartData.cls) := .other (by decide +kernel)
theorem listed_F20_Raid_F18_RaidData : Listed (F20_Raid.cls F18_RaidData.cls) := .other (by decide +kernel)
theorem listed_F20_Upgrade : Listed (F20_Upgrade.cls) := .idle (by decide +kernel) rfl
theorem listed_F21_AutoPart : Listed (F21_AutoPart.cls) := .other (by decide +kernel)
theorem listed_F21_Bootloader : Listed (F21_Bootloader.cls) := .other (by decide +kernel)
theorem listed_F21_ClearPart : Listed (F21_ClearPart.cls) := .other (by decide +kernel)
theorem listed_F21_LogVol_F21_LogVolData : Listed (F21_LogVol.cls F21_LogVolData.cls) := .other (by decide +kernel)
theorem listed_F21_Network_F21_NetworkData : Listed (F21_Network.cls F21_NetworkData.cls) := .other (by decide +kernel)
theorem listed_F21_OSTreeSetup : Listed (F21_OSTreeSetup.cls) := .other (by decide +kernel)
theorem listed_F21_Repo_F21_RepoData : Listed (F21_Repo.cls F21_RepoData.cls) := .other (by decide +kernel)
theorem listed_F21_VolGroup_F21_VolGroupData : Listed (F21_VolGroup.cls F21_VolGroupData.cls) := .other (by decide +kernel)
theorem listed_F22_Network_F22_NetworkData : Listed (F22_Network.cls F22_NetworkData.cls) := .other (by decide +kernel)
theorem listed_F22_SshKey_F22_SshKeyData : Listed (F22_SshKey.cls F22_SshKeyData.cls) := .other (by decide +kernel)
theorem listed_F23_AutoPart : Listed (F23_AutoPart.cls) := .other (by decide +kernel)
theorem listed_F23_BTRFS_F23_BTRFSData : Listed (F23_BTRFS.cls F23_BTRFSData.cls) := .other (by decide +kernel)
theorem listed_F23_LogVol_F23_LogVolData : Listed (F23_LogVol.cls F23_LogVolData.cls) := .other (by decide +kernel)
theorem listed_F23_Partition_F23_PartData : Listed (F23_Partition.cls F23_PartData.cls) := .other (by decide +kernel)
theorem listed_F23_Raid_F23_RaidData : Listed (F23_Raid.cls F23_RaidData.cls) := .other (by decide +kernel)
theorem listed_F23_Reboot : Listed (F23_Reboot.cls) := .other (by decide +kernel)
theorem listed_F23_ReqPart : Listed (F23_ReqPart.cls) := .other (by decide +kernel)
theorem listed_F23_Timezone : Listed (F23_Timezone.cls) := .other (by decide +kernel)
theorem listed_F24_Device : Listed (F24_Device.cls) := .idle (by decide +kernel) rfl
theorem listed_F24_DmRaid : Listed (F24_DmRaid.cls) := .idle (by decide +kernel) rfl
theorem listed_F24_MultiPath : Listed (F24_MultiPath.cls) := .idle (by decide +kernel) rfl
theorem listed_F24_Network_F22_NetworkData : Listed (F24_Network.cls F22_NetworkData.cls) := .other (by decide +kernel)
theorem listed_F24_SshPw_F24_SshPwData : Listed (F24_SshPw.cls F24_SshPwData.cls) := .other (by decide +kernel)
theorem listed_F24_User_F19_UserData : Listed (F24_User.cls F19_UserData.cls) := .other (by decide +kernel)
theorem listed_F25_Network_F25_NetworkData : Listed (F25_Network.cls F25_NetworkData.cls) := .other (by decide +kernel)
theorem listed_F25_Raid_F25_RaidData : Listed (F25_Raid.cls F25_RaidData.cls) := .other (by decide +kernel)
theorem listed_F25_Timezone : Listed (F25_Timezone.cls) := .other (by decide +kernel)
theorem listed_F26_AutoPart : Listed (F26_AutoPart.cls) := .other (by decide +kernel)
theorem listed_F26_DisplayMode : Listed (F26_DisplayMode.cls) := .other (by decide +kernel)
theorem listed_F26_Snapshot_F26_SnapshotData : Listed (F26_Snapshot.cls F26_SnapshotData.cls) := .other (by decide +kernel)
theorem listed_F27_Mount_F27_MountData : Listed (F27_Mount.cls F27_MountData.cls) := .other (by decide +kernel)
theorem listed_F27_Network_F27_NetworkData : Listed (F27_Network.cls F27_NetworkData.cls) := .other (by decide +kernel)
theorem listed_F27_Repo_F27_RepoData : Listed (F27_Repo.cls F27_RepoData.cls) := .other (by decide +kernel)
theorem listed_F27_Url : Listed (F27_Url.cls) := .other (by decide +kernel)
theorem listed_F28_Authconfig : Listed (F28_Authconfig.cls) := .other (by decide +kernel)
theorem listed_F28_Authselect : Listed (F28_Authselect.cls) := .other (by decide +kernel)
theorem listed_F28_ClearPart : Listed (F28_ClearPart.cls) := .other (by decide +kernel)
theorem listed_F28_Fcoe_F28_FcoeData : Listed (F28_Fcoe.cls F28_FcoeData.cls) := .other (by decide +kernel)
theorem listed_F28_Firewall : Listed (F28_Firewall.cls) := .other (by decide +kernel)
theorem listed_F28_Hmc : Listed (F28_Hmc.cls) := .other (by decide +kernel)
theorem listed_F28_Method : Listed (F28_Method.cls) := .other (by decide +kernel)
theorem listed_F28_Nvdimm_F28_NvdimmData : Listed (F28_Nvdimm.cls F28_NvdimmData.cls) := .other (by decide +kernel)
theorem listed_F29_AutoPart : Listed (F29_AutoPart.cls) := .other (by decide +kernel)
theorem listed_F29_Bootloader : Listed (F29_Bootloader.cls) := .other (by decide +kernel)
theorem listed_F29_DeviceProbe : Listed (F29_DeviceProbe.cls) := .idle (by decide +kernel) rfl
theorem listed_F29_IgnoreDisk : Listed (F29_IgnoreDisk.cls) := .other (by decide +kernel)
theorem listed_F29_Install : Listed (F29_Install.cls) := .idle (by decide +kernel) rfl
theorem listed_F29_LogVol_F29_LogVolData : Listed (F29_LogVol.cls F29_LogVolData.cls) := .other (by decide +kernel)
theorem listed_F29_Module_F29_ModuleData : Listed (F29_Module.cls F29_ModuleData.cls) := .other (by decide +kernel)
theorem listed_F29_Partition_F29_PartData : Listed (F29_Partition.cls F29_PartData.cls) := .other (by decide +kernel)
theorem listed_F29_Raid_F29_RaidData : Listed (F29_Raid.cls F29_RaidData.cls) := .other (by decide +kernel)
theorem listed_F29_Upgrade : Listed (F29_Upgrade.cls) := .gone (by decide +kernel) rfl
theorem listed_F30_Repo_F30_RepoData : Listed (F30_Repo.cls F30_RepoData.cls) := .other (by decide +kernel)
theorem listed_F30_Url : Listed (F30_Url.cls) := .other (by decide +kernel)
theorem listed_F31_Module_F31_ModuleData : Listed (F31_Module.cls F31_ModuleData.cls) := .other (by decide +kernel)
theorem listed_F32_Timezone : Listed (F32_Timezone.cls) := .other (by decide +kernel)
theorem listed_F32_Zipl : Listed (F32_Zipl.cls) := .other (by decide +kernel)
theorem listed_F33_HardDrive : Listed (F33_HardDrive.cls) := .other (by decide +kernel)
theorem listed_F33_Repo_F30_RepoData : Listed (F33_Repo.cls F30_RepoData.cls) := .other (by decide +kernel)
theorem listed_F33_Timesource_F33_TimesourceData : Listed (F33_Timesource.cls F33_TimesourceData.cls) := .other (by decide +kernel)
theorem listed_F33_Timezone : Listed (F33_Timezone.cls) := .other (by decide +kernel)
theorem listed_F34_AutoStep : Listed (F34_AutoStep.cls) := .idle (by decide +kernel) rfl
theorem listed_F34_Bootloader : Listed (F34_Bootloader.cls) := .other (by decide +kernel)
theorem listed_F34_Device : Listed (F34_Device.cls) := .gone (by decide +kernel) rfl
theorem listed_F34_DeviceProbe : Listed (F34_DeviceProbe.cls) := .gone (by decide +kernel) rfl
theorem listed_F34_DmRaid : Listed (F34_DmRaid.cls) := .gone (by decide +kernel) rfl
theorem listed_F34_IgnoreDisk : Listed (F34_IgnoreDisk.cls) := .other (by decide +kernel)
theorem listed_F34_Install : Listed (F34_Install.cls) := .gone (by decide +kernel) rfl
theorem listed_F34_Logging : Listed (F34_Logging.cls) := .other (by decide +kernel)
theorem listed_F34_Method : Listed (F34_Method.cls) := .idle (by decide +kernel) rfl
theorem listed_F34_MultiPath : Listed (F34_MultiPath.cls) := .gone (by decide +kernel) rfl
theorem listed_F34_Partition_F29_PartData : Listed (F34_Partition.cls F29_PartData.cls) := .other (by decide +kernel)
theorem listed_F34_Updates : Listed (F34_Updates.cls) := .other (by decide +kernel)
theorem listed_F7_LangSupport : Listed (F7_LangSupport.cls) := .gone (by decide +kernel) rfl
theorem listed_F7_Mouse : Listed (F7_Mouse.cls) := .gone (by decide +kernel) rfl
theorem listed_F7_Raid_F7_RaidData : Listed (F7_Raid.cls F7_RaidData.cls) := .other (by decide +kernel)
theorem listed_F7_Updates : Listed (F7_Updates.cls) := .other (by decide +kernel)
theorem listed_F8_Bootloader : Listed (F8_Bootloader.cls) := .other (by decide +kernel)
theorem listed_F8_Device_F8_DeviceData : Listed (F8_Device.cls F8_DeviceData.cls) := .other (by decide +kernel)
theorem listed_F8_IgnoreDisk : Listed (F8_IgnoreDisk.cls) := .other (by decide +kernel)
theorem listed_F8_Network_F8_NetworkData : Listed (F8_Network.cls F8_NetworkData.cls) := .other (by decide +kernel)
theorem listed_F8_Repo_F8_RepoData : Listed (F8_Repo.cls F8_RepoData.cls) := .other (by decide +kernel)
theorem listed_F8_RootPw : Listed (F8_RootPw.cls) := .other (by decide +kernel)
theorem listed_F8_User_F8_UserData : Listed (F8_User.cls F8_UserData.cls) := .other (by decide +kernel)
theorem listed_F9_AutoPart : Listed (F9_AutoPart.cls) := .other (by decide +kernel)
theorem listed_F9_Firewall : Listed (F9_Firewall.cls) := .other (by decide +kernel)
theorem listed_F9_LogVol_F9_LogVolData : Listed (F9_LogVol.cls F9_LogVolData.cls) := .other (by decide +kernel)
theorem listed_F9_Network_F8_NetworkData : Listed (F9_Network.cls F8_NetworkData.cls) := .other (by decide +kernel)
theorem listed_F9_Partition_F9_PartData : Listed (F9_Partition.cls F9_PartData.cls) := .other (by decide +kernel)
theorem listed_F9_Raid_F9_RaidData : Listed (F9_Raid.cls F9_RaidData.cls) := .other (by decide +kernel)
theorem listed_F9_Vnc : Listed (F9_Vnc.cls) := .other (by decide +kernel)
theorem listed_F9_XConfig : Listed (F9_XConfig.cls) := .other (by decide +kernel)
theorem listed_F9_ZeroMbr : Listed (F9_ZeroMbr.cls) := .other (by decide +kernel)
theorem listed_FC3_Authconfig : Listed (FC3_Authconfig.cls) := .other (by decide +kernel)
theorem listed_FC3_AutoPart : Listed (FC3_AutoPart.cls) := .other (by decide +kernel)
theorem listed_FC3_AutoStep : Listed (FC3_AutoStep.cls) := .other (by decide +kernel)
theorem listed_FC3_Bootloader : Listed (FC3_Bootloader.cls) := .other (by decide +kernel)
theorem listed_FC3_Cdrom : Listed (FC3_Cdrom.cls) := .other (by decide +kernel)
theorem listed_FC3_ClearPart : Listed (FC3_ClearPart.cls) := .other (by decide +kernel)
theorem listed_FC3_Device : Listed (FC3_Device.cls) := .other (by decide +kernel)
theorem listed_FC3_DeviceProbe : Listed (FC3_DeviceProbe.cls) := .other (by decide +kernel)
theorem listed_FC3_DisplayMode : Listed (FC3_DisplayMode.cls) := .other (by decide +kernel)
theorem listed_FC3_DriverDisk_FC3_DriverDiskData : Listed (FC3_DriverDisk.cls FC3_DriverDiskData.cls) := .other (by decide +kernel)
theorem listed_FC3_Firewall : Listed (FC3_Firewall.cls) := .other (by decide +kernel)
theorem listed_FC3_Firstboot : Listed (FC3_Firstboot.cls) := .other (by decide +kernel)
theorem listed_FC3_HardDrive : Listed (FC3_HardDrive.cls) := .other (by decide +kernel)
theorem listed_FC3_IgnoreDisk : Listed (FC3_IgnoreDisk.cls) := .other (by decide +kernel)
theorem listed_FC3_Interactive : Listed (FC3_Interactive.cls) := .other (by decide +kernel)
theorem listed_FC3_Keyboard : Listed (FC3_Keyboard.cls) := .other (by decide +kernel)
theorem listed_FC3_Lang : Listed (FC3_Lang.cls) := .other (by decide +kernel)
theorem listed_FC3_LangSupport : Listed (FC3_LangSupport.cls) := .other (by decide +kernel)
theorem listed_FC3_Lilo : Listed (FC3_Lilo.cls) := .other (by decide +kernel)
theorem listed_FC3_LiloCheck : Listed (FC3_LiloCheck.cls) := .other (by decide +kernel)
theorem listed_FC3_LogVol_FC3_LogVolData : Listed (FC3_LogVol.cls FC3_LogVolData.cls) := .other (by decide +kernel)
theorem listed_FC3_Method : Listed (FC3_Method.cls) := .other (by decide +kernel)
theorem listed_FC3_Monitor : Listed (FC3_Monitor.cls) := .other (by decide +kernel)
theorem listed_FC3_Mouse : Listed (FC3_Mouse.cls) := .idle (by decide +kernel) rfl
theorem listed_FC3_NFS : Listed (FC3_NFS.cls) := .other (by decide +kernel)
theorem listed_FC3_Network_FC3_NetworkData : Listed (FC3_Network.cls FC3_NetworkData.cls) := .other (by decide +kernel)
theorem listed_FC3_Network_RHEL4_NetworkData : Listed (FC3_Network.cls RHEL4_NetworkData.cls) := .other (by decide +kernel)
theorem listed_FC3_Partition_FC3_PartData : Listed (FC3_Partition.cls FC3_PartData.cls) := .other (by decide +kernel)
theorem listed_FC3_Raid_FC3_RaidData : Listed (FC3_Raid.cls FC3_RaidData.cls) := .other (by decide +kernel)
theorem listed_FC3_Reboot : Listed (FC3_Reboot.cls) := .other (by decide +kernel)
theorem listed_FC3_RootPw : Listed (FC3_RootPw.cls) := .other (by decide +kernel)
theorem listed_FC3_SELinux : Listed (FC3_SELinux.cls) := .other (by decide +kernel)
theorem listed_FC3_SkipX : Listed (FC3_SkipX.cls) := .other (by decide +kernel)
theorem listed_FC3_Timezone : Listed (FC3_Timezone.cls) := .other (by decide +kernel)
theorem listed_FC3_Upgrade : Listed (FC3_Upgrade.cls) := .other (by decide +kernel)
theorem listed_FC3_Url : Listed (FC3_Url.cls) := .other (by decide +kernel)
theorem listed_FC3_Vnc : Listed (FC3_Vnc.cls) := .other (by decide +kernel)
theorem listed_FC3_VolGroup_FC3_VolGroupData : Listed (FC3_VolGroup.cls FC3_VolGroupData.cls) := .other (by decide +kernel)
theorem listed_FC3_XConfig : Listed (FC3_XConfig.cls) := .other (by decide +kernel)
theorem listed_FC3_ZFCP_FC3_ZFCPData : Listed (FC3_ZFCP.cls FC3_ZFCPData.cls) := .other (by decide +kernel)
theorem listed_FC3_ZeroMbr : Listed (FC3_ZeroMbr.cls) := .other (by decide +kernel)
theorem listed_FC4_Bootloader : Listed (FC4_Bootloader.cls) := .other (by decide +kernel)
theorem listed_FC4_DriverDisk_FC4_DriverDiskData : Listed (FC4_DriverDisk.cls FC4_DriverDiskData.cls) := .other (by decide +kernel)
theorem listed_FC4_Lilo : Listed (FC4_Lilo.cls) := .gone (by decide +kernel) rfl
theorem listed_FC4_LiloCheck : Listed (FC4_LiloCheck.cls) := .gone (by decide +kernel) rfl
theorem listed_FC4_LogVol_FC4_LogVolData : Listed (FC4_LogVol.cls FC4_LogVolData.cls) := .other (by decide +kernel)
theorem listed_FC4_MediaCheck : Listed (FC4_MediaCheck.cls) := .other (by decide +kernel)
theorem listed_FC4_Network_FC4_NetworkData : Listed (FC4_Network.cls FC4_NetworkData.cls) := .other (by decide +kernel)
theorem listed_FC4_Partition_FC4_PartData : Listed (FC4_Partition.cls FC4_PartData.cls) := .other (by decide +kernel)
theorem listed_FC4_Raid_FC4_RaidData : Listed (FC4_Raid.cls FC4_RaidData.cls) := .other (by decide +kernel)
theorem listed_FC5_LangSupport : Listed (FC5_LangSupport.cls) := .idle (by decide +kernel) rfl
theorem listed_FC5_Raid_FC5_RaidData : Listed (FC5_Raid.cls FC5_RaidData.cls) := .other (by decide +kernel)
theorem listed_FC6_DmRaid_FC6_DmRaidData : Listed (FC6_DmRaid.cls FC6_DmRaidData.cls) := .other (by decide +kernel)
theorem listed_FC6_Iscsi_FC6_IscsiData : Listed (FC6_Iscsi.cls FC6_IscsiData.cls) := .other (by decide +kernel)
theorem listed_FC6_IscsiName : Listed (FC6_IscsiName.cls) := .other (by decide +kernel)
theorem listed_FC6_Logging : Listed (FC6_Logging.cls) := .other (by decide +kernel)
theorem listed_FC6_Method : Listed (FC6_Method.cls) := .other (by decide +kernel)
theorem listed_FC6_Monitor : Listed (FC6_Monitor.cls) := .other (by decide +kernel)
theorem listed_FC6_MultiPath_FC6_MultiPathData : Listed (FC6_MultiPath.cls FC6_MultiPathData.cls) := .other (by decide +kernel)
theorem listed_FC6_NFS : Listed (FC6_NFS.cls) := .other (by decide +kernel)
theorem listed_FC6_Network_FC6_NetworkData : Listed (FC6_Network.cls FC6_NetworkData.cls) := .other (by decide +kernel)
theorem listed_FC6_Reboot : Listed (FC6_Reboot.cls) := .other (by decide +kernel)
theorem listed_FC6_Repo_FC6_RepoData : Listed (FC6_Repo.cls FC6_RepoData.cls) := .other (by decide +kernel)
theorem listed_FC6_Services : Listed (FC6_Services.cls) := .other (by decide +kernel)
theorem listed_FC6_Timezone : Listed (FC6_Timezone.cls) := .other (by decide +kernel)
theorem listed_FC6_User_FC6_UserData : Listed (FC6_User.cls FC6_UserData.cls) := .other (by decide +kernel)
theorem listed_FC6_Vnc : Listed (FC6_Vnc.cls) := .other (by decide +kernel)
theorem listed_FC6_XConfig : Listed (FC6_XConfig.cls) := .other (by decide +kernel)
theorem listed_RHEL3_Mouse : Listed (RHEL3_Mouse.cls) := .other (by decide +kernel)
theorem listed_RHEL4_Network_RHEL4_NetworkData : Listed (RHEL4_Network.cls RHEL4_NetworkData.cls) := .other (by decide +kernel)
theorem listed_RHEL5_Bootloader : Listed (RHEL5_Bootloader.cls) := .other (by decide +kernel)
theorem listed_RHEL5_Key : Listed (RHEL5_Key.cls) := .other (by decide +kernel)
theorem listed_RHEL5_LogVol_RHEL5_LogVolData : Listed (RHEL5_LogVol.cls RHEL5_LogVolData.cls) := .other (by decide +kernel)
theorem listed_RHEL5_Network_FC6_NetworkData : Listed (RHEL5_Network.cls FC6_NetworkData.cls) := .other (by decide +kernel)
theorem listed_RHEL5_Partition_RHEL5_PartData : Listed (RHEL5_Partition.cls RHEL5_PartData.cls) := .other (by decide +kernel)
theorem listed_RHEL5_Raid_RHEL5_RaidData : Listed (RHEL5_Raid.cls RHEL5_RaidData.cls) := .other (by decide +kernel)
theorem listed_RHEL6_AutoPart : Listed (RHEL6_AutoPart.cls) := .other (by decide +kernel)
theorem listed_RHEL6_Bootloader : Listed (RHEL6_Bootloader.cls) := .other (by decide +kernel)
theorem listed_RHEL6_IgnoreDisk : Listed (RHEL6_IgnoreDisk.cls) := .other (by decide +kernel)
theorem listed_RHEL6_Iscsi_RHEL6_IscsiData : Listed (RHEL6_Iscsi.cls RHEL6_IscsiData.cls) := .other (by decide +kernel)
theorem listed_RHEL6_LogVol_RHEL6_LogVolData : Listed (RHEL6_LogVol.cls RHEL6_LogVolData.cls) := .other (by decide +kernel)
theorem listed_RHEL6_Method : Listed (RHEL6_Method.cls) := .other (by decide +kernel)
theorem listed_RHEL6_Network_RHEL6_NetworkData : Listed (RHEL6_Network.cls RHEL6_NetworkData.cls) := .other (by decide +kernel)
theorem listed_RHEL6_Partition_RHEL6_PartData : Listed (RHEL6_Partition.cls RHEL6_PartData.cls) := .other (by decide +kernel)
theorem listed_RHEL6_Raid_RHEL6_RaidData : Listed (RHEL6_Raid.cls RHEL6_RaidData.cls) := .other (by decide +kernel)
theorem listed_RHEL6_Repo_RHEL6_RepoData : Listed (RHEL6_Repo.cls RHEL6_RepoData.cls) := .other (by decide +kernel)
theorem listed_RHEL6_UnsupportedHardware : Listed (RHEL6_UnsupportedHardware.cls) := .other (by decide +kernel)
theorem listed_RHEL6_Url : Listed (RHEL6_Url.cls) := .other (by decide +kernel)
theorem listed_RHEL7_AutoPart : Listed (RHEL7_AutoPart.cls) := .other (by decide +kernel)
theorem listed_RHEL7_BTRFS_RHEL7_BTRFSData : Listed (RHEL7_BTRFS.cls RHEL7_BTRFSData.cls) := .other (by decide +kernel)
theorem listed_RHEL7_Bootloader : Listed (RHEL7_Bootloader.cls) := .other (by decide +kernel)
theorem listed_RHEL7_ClearPart : Listed (RHEL7_ClearPart.cls) := .other (by decide +kernel)
theorem listed_RHEL7_Fcoe_RHEL7_FcoeData : Listed (RHEL7_Fcoe.cls RHEL7_FcoeData.cls) := .other (by decide +kernel)
theorem listed_RHEL7_Hmc : Listed (RHEL7_Hmc.cls) := .other (by decide +kernel)
theorem listed_RHEL7_LogVol_RHEL7_LogVolData : Listed (RHEL7_LogVol.cls RHEL7_LogVolData.cls) := .other (by decide +kernel)
theorem listed_RHEL7_Method : Listed (RHEL7_Method.cls) := .other (by decide +kernel)
theorem listed_RHEL7_Network_RHEL7_NetworkData : Listed (RHEL7_Network.cls RHEL7_NetworkData.cls) := .other (by decide +kernel)
theorem listed_RHEL7_OSTreeSetup : Listed (RHEL7_OSTreeSetup.cls) := .other (by decide +kernel)
theorem listed_RHEL7_Partition_RHEL7_PartData : Listed (RHEL7_Partition.cls RHEL7_PartData.cls) := .other (by decide +kernel)
theorem listed_RHEL7_Raid_RHEL7_RaidData : Listed (RHEL7_Raid.cls RHEL7_RaidData.cls) := .other (by decide +kernel)
theorem listed_RHEL7_Repo_RHEL7_RepoData : Listed (RHEL7_Repo.cls RHEL7_RepoData.cls) := .other (by decide +kernel)
theorem listed_RHEL7_ReqPart : Listed (RHEL7_ReqPart.cls) := .other (by decide +kernel)
theorem listed_RHEL7_Timezone : Listed (RHEL7_Timezone.cls) := .other (by decide +kernel)
theorem listed_RHEL7_VolGroup_RHEL7_VolGroupData : Listed (RHEL7_VolGroup.cls RHEL7_VolGroupData.cls) := .other (by decide +kernel)
theorem listed_RHEL8_AutoPart : Listed (RHEL8_AutoPart.cls) := .other (by decide +kernel)
theorem listed_RHEL8_BTRFS : Listed (RHEL8_BTRFS.cls) := .idle (by decide +kernel) rfl
theorem listed_RHEL8_Bootloader : Listed (RHEL8_Bootloader.cls) := .other (by decide +kernel)
theorem listed_RHEL8_Fcoe_RHEL8_FcoeData : Listed (RHEL8_Fcoe.cls RHEL8_FcoeData.cls) := .other (by decide +kernel)
theorem listed_RHEL8_LogVol_RHEL8_LogVolData : Listed (RHEL8_LogVol.cls RHEL8_LogVolData.cls) := .other (by decide +kernel)
theorem listed_RHEL8_Module_RHEL8_ModuleData : Listed (RHEL8_Module.cls RHEL8_ModuleData.cls) := .other (by decide +kernel)
theorem listed_RHEL8_OSTreeSetup : Listed (RHEL8_OSTreeSetup.cls) := .other (by decide +kernel)
theorem listed_RHEL8_Partition_RHEL8_PartData : Listed (RHEL8_Partition.cls RHEL8_PartData.cls) := .other (by decide +kernel)
theorem listed_RHEL8_RHSM : Listed (RHEL8_RHSM.cls) := .other (by decide +kernel)
theorem listed_RHEL8_Raid_RHEL8_RaidData : Listed (RHEL8_Raid.cls RHEL8_RaidData.cls) := .other (by decide +kernel)
theorem listed_RHEL8_Repo_RHEL8_RepoData : Listed (RHEL8_Repo.cls RHEL8_RepoData.cls) := .other (by decide +kernel)
theorem listed_RHEL8_Syspurpose : Listed (RHEL8_Syspurpose.cls) := .other (by decide +kernel)
theorem listed_RHEL8_Url : Listed (RHEL8_Url.cls) := .other (by decide +kernel)
theorem listed_RHEL8_VolGroup_RHEL8_VolGroupData : Listed (RHEL8_VolGroup.cls RHEL8_VolGroupData.cls) := .other (by decide +kernel)
theorem listed_RHEL8_Zipl : Listed (RHEL8_Zipl.cls) := .other (by decide +kernel)

theorem commandMapF10_listed : ∀ x ∈ commandMapF10, Listed x.2 := by
  unfold commandMapF10
  simp only [List.forall_mem_cons]
  exact ⟨listed_FC3_Authconfig, listed_FC3_Authconfig, listed_F9_AutoPart, listed_FC3_AutoStep, listed_F8_Bootloader, listed_FC3_Cdrom, listed_FC3_ClearPart, listed_FC3_DisplayMode, listed_F8_Device_F8_DeviceData, listed_FC3_DeviceProbe, listed_FC6_DmRaid_FC6_DmRaidData, listed_FC4_DriverDisk_FC4_DriverDiskData, listed_F10_Firewall, listed_FC3_Firstboot, listed_FC3_DisplayMode, listed_FC6_Reboot, listed_FC3_HardDrive, listed_F8_IgnoreDisk, listed_FC3_Upgrade, listed_FC3_Interactive, listed_F10_Iscsi_F10_IscsiData, listed_FC6_IscsiName, listed_FC3_Keyboard, listed_FC3_Lang, listed_FC6_Logging, listed_F9_LogVol_F9_LogVolData, listed_FC4_MediaCheck, listed_FC6_Method, listed_F10_Monitor, listed_FC6_MultiPath_FC6_MultiPathData, listed_F9_Network_F8_NetworkData, listed_FC6_NFS, listed_F9_Partition_F9_PartData, listed_F9_Partition_F9_PartData, listed_FC6_Reboot, listed_F9_Raid_F9_RaidData, listed_FC6_Reboot, listed_F8_Repo_F8_RepoData, listed_F10_Rescue, listed_F8_RootPw, listed_FC3_SELinux, listed_FC6_Services, listed_FC6_Reboot, listed_FC3_SkipX, listed_FC3_DisplayMode, listed_FC6_Timezone, listed_F7_Updates, listed_FC3_Upgrade, listed_FC3_Url, listed_F8_User_F8_UserData, listed_F9_Vnc, listed_FC3_VolGroup_FC3_VolGroupData, listed_F10_XConfig, listed_F9_ZeroMbr, listed_FC3_ZFCP_FC3_ZFCPData, List.forall_mem_nil _⟩

theorem commandMapF11_listed : ∀ x ∈ commandMapF11, Listed x.2 := by
  unfold commandMapF11
  simp only [List.forall_mem_cons]
  exact ⟨listed_FC3_Authconfig, listed_FC3_Authconfig, listed_F9_AutoPart, listed_FC3_AutoStep, listed_F8_Bootloader, listed_FC3_Cdrom, listed_FC3_ClearPart, listed_FC3_DisplayMode, listed_F8_Device_F8_DeviceData, listed_FC3_DeviceProbe, listed_FC6_DmRaid_FC6_DmRaidData, listed_FC4_DriverDisk_FC4_DriverDiskData, listed_F10_Firewall, listed_FC3_Firstboot, listed_FC3_DisplayMode, listed_FC6_Reboot, listed_FC3_HardDrive, listed_F8_IgnoreDisk, listed_F11_Upgrade, listed_FC3_Interactive, listed_F10_Iscsi_F10_IscsiData, listed_FC6_IscsiName, listed_FC3_Keyboard, listed_FC3_Lang, listed_FC6_Logging, listed_F9_LogVol_F9_LogVolData, listed_FC4_MediaCheck, listed_FC6_Method, listed_F10_Monitor, listed_FC6_MultiPath_FC6_MultiPathData, listed_F9_Network_F8_NetworkData, listed_FC6_NFS, listed_F11_Partition_F11_PartData, listed_F11_Partition_F11_PartData, listed_FC6_Reboot, listed_F9_Raid_F9_RaidData, listed_FC6_Reboot, listed_F11_Repo_F11_RepoData, listed_F10_Rescue, listed_F8_RootPw, listed_FC3_SELinux, listed_FC6_Services, listed_FC6_Reboot, listed_FC3_SkipX, listed_FC3_DisplayMode, listed_FC6_Timezone, listed_F7_Updates, listed_F11_Upgrade, listed_FC3_Url, listed_F8_User_F8_UserData, listed_F9_Vnc, listed_FC3_VolGroup_FC3_VolGroupData, listed_F10_XConfig, listed_F9_ZeroMbr, listed_FC3_ZFCP_FC3_ZFCPData, List.forall_mem_nil _⟩

theorem commandMapF12_listed : ∀ x ∈ commandMapF12, Listed x.2 := by
  unfold commandMapF12
  simp only [List.forall_mem_cons]
  exact ⟨listed_FC3_Authconfig, listed_FC3_Authconfig, listed_F12_AutoPart, listed_FC3_AutoStep, listed_F12_Bootloader, listed_FC3_Cdrom, listed_FC3_ClearPart, listed_FC3_DisplayMode, listed_F8_Device_F8_DeviceData, listed_FC3_DeviceProbe, listed_FC6_DmRaid_FC6_DmRaidData, listed_F12_DriverDisk_F12_DriverDiskData, listed_F12_Fcoe_F12_FcoeData, listed_F10_Firewall, listed_FC3_Firstboot, listed_FC3_DisplayMode, listed_F12_Group_F12_GroupData, listed_FC6_Reboot, listed_FC3_HardDrive, listed_F8_IgnoreDisk, listed_F11_Upgrade, listed_FC3_Interactive, listed_F10_Iscsi_F10_IscsiData, listed_FC6_IscsiName, listed_FC3_Keyboard, listed_FC3_Lang, listed_FC6_Logging, listed_F12_LogVol_F12_LogVolData, listed_FC4_MediaCheck, listed_FC6_Method, listed_F10_Monitor, listed_FC6_MultiPath_FC6_MultiPathData, listed_F9_Network_F8_NetworkData, listed_FC6_NFS, listed_F12_Partition_F12_PartData, listed_F12_Partition_F12_PartData, listed_FC6_Reboot, listed_F12_Raid_F12_RaidData, listed_FC6_Reboot, listed_F11_Repo_F11_RepoData, listed_F10_Rescue, listed_F8_RootPw, listed_FC3_SELinux, listed_FC6_Services, listed_FC6_Reboot, listed_FC3_SkipX, listed_FC3_DisplayMode, listed_FC6_Timezone, listed_F7_Updates, listed_F11_Upgrade, listed_FC3_Url, listed_F12_User_F12_UserData, listed_F9_Vnc, listed_FC3_VolGroup_FC3_VolGroupData, listed_F10_XConfig, listed_F9_ZeroMbr, listed_F12_ZFCP_F12_ZFCPData, List.forall_mem_nil _⟩

theorem commandMapF13_listed : ∀ x ∈ commandMapF13, Listed x.2 := by
  unfold commandMapF13
  simp only [List.forall_mem_cons]
  exact ⟨listed_FC3_Authconfig, listed_FC3_Authconfig, listed_F12_AutoPart, listed_FC3_AutoStep, listed_F12_Bootloader, listed_FC3_Cdrom, listed_FC3_ClearPart, listed_FC3_DisplayMode, listed_F8_Device_F8_DeviceData, listed_FC3_DeviceProbe, listed_FC6_DmRaid_FC6_DmRaidData, listed_F12_DriverDisk_F12_DriverDiskData, listed_F13_Fcoe_F13_FcoeData, listed_F10_Firewall, listed_FC3_Firstboot, listed_FC3_DisplayMode, listed_F12_Group_F12_GroupData, listed_FC6_Reboot, listed_FC3_HardDrive, listed_F8_IgnoreDisk, listed_F11_Upgrade, listed_FC3_Interactive, listed_F10_Iscsi_F10_IscsiData, listed_FC6_IscsiName, listed_FC3_Keyboard, listed_FC3_Lang, listed_FC6_Logging, listed_F12_LogVol_F12_LogVolData, listed_FC4_MediaCheck, listed_F13_Method, listed_F10_Monitor, listed_FC6_MultiPath_FC6_MultiPathData, listed_F9_Network_F8_NetworkData, listed_FC6_NFS, listed_F12_Partition_F12_PartData, listed_F12_Partition_F12_PartData, listed_FC6_Reboot, listed_F13_Raid_F13_RaidData, listed_FC6_Reboot, listed_F13_Repo_F13_RepoData, listed_F10_Rescue, listed_F8_RootPw, listed_FC3_SELinux, listed_FC6_Services, listed_FC6_Reboot, listed_FC3_SkipX, listed_F13_SshPw_F13_SshPwData, listed_FC3_DisplayMode, listed_FC6_Timezone, listed_F7_Updates, listed_F11_Upgrade, listed_F13_Url, listed_F12_User_F12_UserData, listed_F9_Vnc, listed_FC3_VolGroup_FC3_VolGroupData, listed_F10_XConfig, listed_F9_ZeroMbr, listed_F12_ZFCP_F12_ZFCPData, List.forall_mem_nil _⟩

theorem commandMapF14_listed : ∀ x ∈ commandMapF14, Listed x.2 := by
  unfold commandMapF14
  simp only [List.forall_mem_cons]
  exact ⟨listed_FC3_Authconfig, listed_FC3_Authconfig, listed_F12_AutoPart, listed_FC3_AutoStep, listed_F14_Bootloader, listed_FC3_Cdrom, listed_FC3_ClearPart, listed_FC3_DisplayMode, listed_F8_Device_F8_DeviceData, listed_FC3_DeviceProbe, listed_FC6_DmRaid_FC6_DmRaidData, listed_F14_DriverDisk_F14_DriverDiskData, listed_F13_Fcoe_F13_FcoeData, listed_F14_Firewall, listed_FC3_Firstboot, listed_FC3_DisplayMode, listed_F12_Group_F12_GroupData, listed_FC6_Reboot, listed_FC3_HardDrive, listed_F14_IgnoreDisk, listed_F11_Upgrade, listed_F14_Interactive, listed_F10_Iscsi_F10_IscsiData, listed_FC6_IscsiName, listed_FC3_Keyboard, listed_FC3_Lang, listed_FC6_Logging, listed_F14_LogVol_F14_LogVolData, listed_FC4_MediaCheck, listed_F14_Method, listed_F10_Monitor, listed_FC6_MultiPath_FC6_MultiPathData, listed_F9_Network_F8_NetworkData, listed_FC6_NFS, listed_F14_Partition_F14_PartData, listed_F14_Partition_F14_PartData, listed_FC6_Reboot, listed_F14_Raid_F14_RaidData, listed_FC6_Reboot, listed_F14_Repo_F14_RepoData, listed_F10_Rescue, listed_F8_RootPw, listed_FC3_SELinux, listed_FC6_Services, listed_FC6_Reboot, listed_FC3_SkipX, listed_F13_SshPw_F13_SshPwData, listed_FC3_DisplayMode, listed_FC6_Timezone, listed_F7_Updates, listed_F11_Upgrade, listed_F14_Url, listed_F12_User_F12_UserData, listed_F9_Vnc, listed_FC3_VolGroup_FC3_VolGroupData, listed_F14_XConfig, listed_F9_ZeroMbr, listed_F14_ZFCP_F14_ZFCPData, List.forall_mem_nil _⟩

theorem commandMapF15_listed : ∀ x ∈ commandMapF15, Listed x.2 := by
  unfold commandMapF15
  simp only [List.forall_mem_cons]
  exact ⟨listed_FC3_Authconfig, listed_FC3_Authconfig, listed_F12_AutoPart, listed_FC3_AutoStep, listed_F15_Bootloader, listed_FC3_Cdrom, listed_FC3_ClearPart, listed_FC3_DisplayMode, listed_F8_Device_F8_DeviceData, listed_FC3_DeviceProbe, listed_FC6_DmRaid_FC6_DmRaidData, listed_F14_DriverDisk_F14_DriverDiskData, listed_F13_Fcoe_F13_FcoeData, listed_F14_Firewall, listed_FC3_Firstboot, listed_FC3_DisplayMode, listed_F12_Group_F12_GroupData, listed_FC6_Reboot, listed_FC3_HardDrive, listed_F14_IgnoreDisk, listed_F11_Upgrade, listed_F15_Interactive, listed_F10_Iscsi_F10_IscsiData, listed_FC6_IscsiName, listed_FC3_Keyboard, listed_FC3_Lang, listed_FC6_Logging, listed_F15_LogVol_F15_LogVolData, listed_FC4_MediaCheck, listed_F14_Method, listed_F10_Monitor, listed_FC6_MultiPath_FC6_MultiPathData, listed_F9_Network_F8_NetworkData, listed_FC6_NFS, listed_F14_Partition_F14_PartData, listed_F14_Partition_F14_PartData, listed_FC6_Reboot, listed_F15_Raid_F15_RaidData, listed_FC6_Reboot, listed_F15_Repo_F15_RepoData, listed_F10_Rescue, listed_F8_RootPw, listed_FC3_SELinux, listed_FC6_Services, listed_FC6_Reboot, listed_FC3_SkipX, listed_F13_SshPw_F13_SshPwData, listed_FC3_DisplayMode, listed_FC6_Timezone, listed_F7_Updates, listed_F11_Upgrade, listed_F14_Url, listed_F12_User_F12_UserData, listed_F9_Vnc, listed_FC3_VolGroup_FC3_VolGroupData, listed_F14_XConfig, listed_F9_ZeroMbr, listed_F14_ZFCP_F14_ZFCPData, List.forall_mem_nil _⟩

theorem commandMapF16_listed : ∀ x ∈ commandMapF16, Listed x.2 := by
  unfold commandMapF16
  simp only [List.forall_mem_cons]
  exact ⟨listed_FC3_Authconfig, listed_FC3_Authconfig, listed_F16_AutoPart, listed_FC3_AutoStep, listed_F15_Bootloader, listed_FC3_Cdrom, listed_FC3_ClearPart, listed_FC3_DisplayMode, listed_F8_Device_F8_DeviceData, listed_FC3_DeviceProbe, listed_FC6_DmRaid_FC6_DmRaidData, listed_F14_DriverDisk_F14_DriverDiskData, listed_F13_Fcoe_F13_FcoeData, listed_F14_Firewall, listed_FC3_Firstboot, listed_FC3_DisplayMode, listed_F12_Group_F12_GroupData, listed_FC6_Reboot, listed_FC3_HardDrive, listed_F14_IgnoreDisk, listed_F11_Upgrade, listed_F10_Iscsi_F10_IscsiData, listed_FC6_IscsiName, listed_FC3_Keyboard, listed_FC3_Lang, listed_FC6_Logging, listed_F15_LogVol_F17_LogVolData, listed_FC4_MediaCheck, listed_F14_Method, listed_F10_Monitor, listed_FC6_MultiPath_FC6_MultiPathData, listed_F16_Network_F16_NetworkData, listed_FC6_NFS, listed_F14_Partition_F17_PartData, listed_F14_Partition_F17_PartData, listed_FC6_Reboot, listed_F15_Raid_F15_RaidData, listed_FC6_Reboot, listed_F15_Repo_F15_RepoData, listed_F10_Rescue, listed_F8_RootPw, listed_FC3_SELinux, listed_FC6_Services, listed_FC6_Reboot, listed_FC3_SkipX, listed_F13_SshPw_F13_SshPwData, listed_FC3_DisplayMode, listed_FC6_Timezone, listed_F7_Updates, listed_F11_Upgrade, listed_F14_Url, listed_F12_User_F12_UserData, listed_F9_Vnc, listed_F16_VolGroup_F16_VolGroupData, listed_F14_XConfig, listed_F9_ZeroMbr, listed_F14_ZFCP_F14_ZFCPData, List.forall_mem_nil _⟩

theorem commandMapF17_listed : ∀ x ∈ commandMapF17, Listed x.2 := by
  unfold commandMapF17
  simp only [List.forall_mem_cons]
  exact ⟨listed_FC3_Authconfig, listed_FC3_Authconfig, listed_F17_AutoPart, listed_FC3_AutoStep, listed_F17_Bootloader, listed_F17_BTRFS_F17_BTRFSData, listed_FC3_Cdrom, listed_F17_ClearPart, listed_FC3_DisplayMode, listed_F8_Device_F8_DeviceData, listed_FC3_DeviceProbe, listed_FC6_DmRaid_FC6_DmRaidData, listed_F14_DriverDisk_F14_DriverDiskData, listed_F13_Fcoe_F13_FcoeData, listed_F14_Firewall, listed_FC3_Firstboot, listed_FC3_DisplayMode, listed_F12_Group_F12_GroupData, listed_FC6_Reboot, listed_FC3_HardDrive, listed_F14_IgnoreDisk, listed_F11_Upgrade, listed_F17_Iscsi_F17_IscsiData, listed_FC6_IscsiName, listed_FC3_Keyboard, listed_FC3_Lang, listed_FC6_Logging, listed_F17_LogVol_F17_LogVolData, listed_FC4_MediaCheck, listed_F14_Method, listed_F10_Monitor, listed_FC6_MultiPath_FC6_MultiPathData, listed_F16_Network_F16_NetworkData, listed_FC6_NFS, listed_F17_Partition_F17_PartData, listed_F17_Partition_F17_PartData, listed_FC6_Reboot, listed_F15_Raid_F15_RaidData, listed_FC6_Reboot, listed_F15_Repo_F15_RepoData, listed_F10_Rescue, listed_F8_RootPw, listed_FC3_SELinux, listed_FC6_Services, listed_FC6_Reboot, listed_FC3_SkipX, listed_F13_SshPw_F13_SshPwData, listed_FC3_DisplayMode, listed_FC6_Timezone, listed_F7_Updates, listed_F11_Upgrade, listed_F14_Url, listed_F12_User_F12_UserData, listed_F9_Vnc, listed_F16_VolGroup_F16_VolGroupData, listed_F14_XConfig, listed_F9_ZeroMbr, listed_F14_ZFCP_F14_ZFCPData, List.forall_mem_nil _⟩

theorem commandMapF18_listed : ∀ x ∈ commandMapF18, Listed x.2 := by
  unfold commandMapF18
  simp only [List.forall_mem_cons]
  exact ⟨listed_FC3_Authconfig, listed_FC3_Authconfig, listed_F18_AutoPart, listed_FC3_AutoStep, listed_F18_Bootloader, listed_F17_BTRFS_F17_BTRFSData, listed_FC3_Cdrom, listed_F17_ClearPart, listed_FC3_DisplayMode, listed_F8_Device_F8_DeviceData, listed_FC3_DeviceProbe, listed_FC6_DmRaid_FC6_DmRaidData, listed_F14_DriverDisk_F14_DriverDiskData, listed_F13_Fcoe_RHEL7_FcoeData, listed_F14_Firewall, listed_FC3_Firstboot, listed_FC3_DisplayMode, listed_F12_Group_F12_GroupData, listed_F18_Reboot, listed_FC3_HardDrive, listed_F14_IgnoreDisk, listed_F11_Upgrade, listed_F17_Iscsi_F17_IscsiData, listed_FC6_IscsiName, listed_F18_Keyboard, listed_FC3_Lang, listed_FC6_Logging, listed_F18_LogVol_F18_LogVolData, listed_FC4_MediaCheck, listed_F18_Method, listed_F18_Monitor, listed_FC6_MultiPath_FC6_MultiPathData, listed_F18_Network_F16_NetworkData, listed_FC6_NFS, listed_F18_Partition_F18_PartData, listed_F18_Partition_F18_PartData, listed_F18_Reboot, listed_F18_Raid_F18_RaidData, listed_F18_Reboot, listed_F15_Repo_F15_RepoData, listed_F10_Rescue, listed_F18_RootPw, listed_FC3_SELinux, listed_FC6_Services, listed_F18_Reboot, listed_FC3_SkipX, listed_F13_SshPw_F13_SshPwData, listed_FC3_DisplayMode, listed_F18_Timezone, listed_F7_Updates, listed_F11_Upgrade, listed_F18_Url, listed_F12_User_F12_UserData, listed_F9_Vnc, listed_F16_VolGroup_F16_VolGroupData, listed_F14_XConfig, listed_F9_ZeroMbr, listed_F14_ZFCP_F14_ZFCPData, List.forall_mem_nil _⟩

theorem commandMapF19_listed : ∀ x ∈ commandMapF19, Listed x.2 := by
  unfold commandMapF19
  simp only [List.forall_mem_cons]
  exact ⟨listed_FC3_Authconfig, listed_FC3_Authconfig, listed_F18_AutoPart, listed_FC3_AutoStep, listed_F19_Bootloader, listed_F17_BTRFS_F17_BTRFSData, listed_FC3_Cdrom, listed_F17_ClearPart, listed_FC3_DisplayMode, listed_F8_Device_F8_DeviceData, listed_FC3_DeviceProbe, listed_FC6_DmRaid_FC6_DmRaidData, listed_F14_DriverDisk_F14_DriverDiskData, listed_F13_Fcoe_F13_FcoeData, listed_F14_Firewall, listed_FC3_Firstboot, listed_FC3_DisplayMode, listed_F12_Group_F12_GroupData, listed_F18_Reboot, listed_FC3_HardDrive, listed_F14_IgnoreDisk, listed_F11_Upgrade, listed_F17_Iscsi_F17_IscsiData, listed_FC6_IscsiName, listed_F18_Keyboard, listed_F19_Lang, listed_F19_Liveimg, listed_FC6_Logging, listed_F18_LogVol_F20_LogVolData, listed_FC4_MediaCheck, listed_F19_Method, listed_FC6_MultiPath_FC6_MultiPathData, listed_F19_Network_F19_NetworkData, listed_FC6_NFS, listed_F18_Partition_F18_PartData, listed_F18_Partition_F18_PartData, listed_F18_Reboot, listed_F19_Raid_F18_RaidData, listed_F19_Realm, listed_F18_Reboot, listed_F15_Repo_F15_RepoData, listed_F10_Rescue, listed_F18_RootPw, listed_FC3_SELinux, listed_FC6_Services, listed_F18_Reboot, listed_FC3_SkipX, listed_F13_SshPw_F13_SshPwData, listed_FC3_DisplayMode, listed_F18_Timezone, listed_F7_Updates, listed_F11_Upgrade, listed_F18_Url, listed_F19_User_F19_UserData, listed_F9_Vnc, listed_F16_VolGroup_F16_VolGroupData, listed_F14_XConfig, listed_F9_ZeroMbr, listed_F14_ZFCP_F14_ZFCPData, List.forall_mem_nil _⟩

theorem commandMapF20_listed : ∀ x ∈ commandMapF20, Listed x.2 := by
  unfold commandMapF20
  simp only [List.forall_mem_cons]
  exact ⟨listed_FC3_Authconfig, listed_FC3_Authconfig, listed_F20_AutoPart, listed_FC3_AutoStep, listed_F19_Bootloader, listed_F17_BTRFS_F17_BTRFSData, listed_FC3_Cdrom, listed_F17_ClearPart, listed_FC3_DisplayMode, listed_F8_Device_F8_DeviceData, listed_FC3_DeviceProbe, listed_FC6_DmRaid_FC6_DmRaidData, listed_F14_DriverDisk_F14_DriverDiskData, listed_F20_Eula, listed_F13_Fcoe_F13_FcoeData, listed_F20_Firewall, listed_FC3_Firstboot, listed_FC3_DisplayMode, listed_F12_Group_F12_GroupData, listed_F18_Reboot, listed_FC3_HardDrive, listed_F14_IgnoreDisk, listed_F20_Install, listed_F17_Iscsi_F17_IscsiData, listed_FC6_IscsiName, listed_F18_Keyboard, listed_F19_Lang, listed_F19_Liveimg, listed_FC6_Logging, listed_F20_LogVol_F20_LogVolData, listed_FC4_MediaCheck, listed_F19_Method, listed_FC6_MultiPath_FC6_MultiPathData, listed_F20_Network_F20_NetworkData, listed_FC6_NFS, listed_F20_Partition_F18_PartData, listed_F20_Partition_F18_PartData, listed_F18_Reboot, listed_F20_Raid_F18_RaidData, listed_F19_Realm, listed_F18_Reboot, listed_F15_Repo_F15_RepoData, listed_F10_Rescue, listed_F18_RootPw, listed_FC3_SELinux, listed_FC6_Services, listed_F18_Reboot, listed_FC3_SkipX, listed_F13_SshPw_F13_SshPwData, listed_FC3_DisplayMode, listed_F18_Timezone, listed_F7_Updates, listed_F20_Upgrade, listed_F18_Url, listed_F19_User_F19_UserData, listed_F9_Vnc, listed_F16_VolGroup_F16_VolGroupData, listed_F14_XConfig, listed_F9_ZeroMbr, listed_F14_ZFCP_F14_ZFCPData, List.forall_mem_nil _⟩

theorem commandMapF21_listed : ∀ x ∈ commandMapF21, Listed x.2 := by
  unfold commandMapF21
  simp only [List.forall_mem_cons]
  exact ⟨listed_FC3_Authconfig, listed_FC3_Authconfig, listed_F21_AutoPart, listed_FC3_AutoStep, listed_F21_Bootloader, listed_F17_BTRFS_F17_BTRFSData, listed_FC3_Cdrom, listed_F21_ClearPart, listed_FC3_DisplayMode, listed_F8_Device_F8_DeviceData, listed_FC3_DeviceProbe, listed_FC6_DmRaid_FC6_DmRaidData, listed_F14_DriverDisk_F14_DriverDiskData, listed_F20_Eula, listed_F13_Fcoe_F13_FcoeData, listed_F20_Firewall, listed_FC3_Firstboot, listed_FC3_DisplayMode, listed_F12_Group_F12_GroupData, listed_F18_Reboot, listed_FC3_HardDrive, listed_F14_IgnoreDisk, listed_F20_Install, listed_F17_Iscsi_F17_IscsiData, listed_FC6_IscsiName, listed_F18_Keyboard, listed_F19_Lang, listed_F19_Liveimg, listed_FC6_Logging, listed_F21_LogVol_F21_LogVolData, listed_FC4_MediaCheck, listed_F19_Method, listed_FC6_MultiPath_FC6_MultiPathData, listed_F21_Network_F21_NetworkData, listed_FC6_NFS, listed_F21_OSTreeSetup, listed_F20_Partition_F18_PartData, listed_F20_Partition_F18_PartData, listed_F18_Reboot, listed_F20_Raid_F18_RaidData, listed_F19_Realm, listed_F18_Reboot, listed_F21_Repo_F21_RepoData, listed_F10_Rescue, listed_F18_RootPw, listed_FC3_SELinux, listed_FC6_Services, listed_F18_Reboot, listed_FC3_SkipX, listed_F13_SshPw_F13_SshPwData, listed_FC3_DisplayMode, listed_F18_Timezone, listed_F7_Updates, listed_F20_Upgrade, listed_F18_Url, listed_F19_User_F19_UserData, listed_F9_Vnc, listed_F21_VolGroup_F21_VolGroupData, listed_F14_XConfig, listed_F9_ZeroMbr, listed_F14_ZFCP_F14_ZFCPData, List.forall_mem_nil _⟩

theorem commandMapF22_listed : ∀ x ∈ commandMapF22, Listed x.2 := by
  unfold commandMapF22
  simp only [List.forall_mem_cons]
  exact ⟨listed_FC3_Authconfig, listed_FC3_Authconfig, listed_F21_AutoPart, listed_FC3_AutoStep, listed_F21_Bootloader, listed_F17_BTRFS_F17_BTRFSData, listed_FC3_Cdrom, listed_F21_ClearPart, listed_FC3_DisplayMode, listed_F8_Device_F8_DeviceData, listed_FC3_DeviceProbe, listed_FC6_DmRaid_FC6_DmRaidData, listed_F14_DriverDisk_F14_DriverDiskData, listed_F20_Eula, listed_F13_Fcoe_F13_FcoeData, listed_F20_Firewall, listed_FC3_Firstboot, listed_FC3_DisplayMode, listed_F12_Group_F12_GroupData, listed_F18_Reboot, listed_FC3_HardDrive, listed_F14_IgnoreDisk, listed_F20_Install, listed_F17_Iscsi_F17_IscsiData, listed_FC6_IscsiName, listed_F18_Keyboard, listed_F19_Lang, listed_F19_Liveimg, listed_FC6_Logging, listed_F21_LogVol_F21_LogVolData, listed_FC4_MediaCheck, listed_F19_Method, listed_FC6_MultiPath_FC6_MultiPathData, listed_F22_Network_F22_NetworkData, listed_FC6_NFS, listed_F21_OSTreeSetup, listed_F20_Partition_F18_PartData, listed_F20_Partition_F18_PartData, listed_F18_Reboot, listed_F20_Raid_F18_RaidData, listed_F19_Realm, listed_F18_Reboot, listed_F21_Repo_F21_RepoData, listed_F10_Rescue, listed_F18_RootPw, listed_FC3_SELinux, listed_FC6_Services, listed_F18_Reboot, listed_FC3_SkipX, listed_F13_SshPw_F13_SshPwData, listed_F22_SshKey_F22_SshKeyData, listed_FC3_DisplayMode, listed_F18_Timezone, listed_F7_Updates, listed_F20_Upgrade, listed_F18_Url, listed_F19_User_F19_UserData, listed_F9_Vnc, listed_F21_VolGroup_F21_VolGroupData, listed_F14_XConfig, listed_F9_ZeroMbr, listed_F14_ZFCP_F14_ZFCPData, List.forall_mem_nil _⟩

theorem commandMapF23_listed : ∀ x ∈ commandMapF23, Listed x.2 := by
  unfold commandMapF23
  simp only [List.forall_mem_cons]
  exact ⟨listed_FC3_Authconfig, listed_FC3_Authconfig, listed_F23_AutoPart, listed_FC3_AutoStep, listed_F21_Bootloader, listed_F23_BTRFS_F23_BTRFSData, listed_FC3_Cdrom, listed_F21_ClearPart, listed_FC3_DisplayMode, listed_F8_Device_F8_DeviceData, listed_FC3_DeviceProbe, listed_FC6_DmRaid_FC6_DmRaidData, listed_F14_DriverDisk_F14_DriverDiskData, listed_F20_Eula, listed_F13_Fcoe_F13_FcoeData, listed_F20_Firewall, listed_FC3_Firstboot, listed_FC3_DisplayMode, listed_F12_Group_F12_GroupData, listed_F23_Reboot, listed_FC3_HardDrive, listed_F14_IgnoreDisk, listed_F20_Install, listed_F17_Iscsi_F17_IscsiData, listed_FC6_IscsiName, listed_F18_Keyboard, listed_F19_Lang, listed_F19_Liveimg, listed_FC6_Logging, listed_F23_LogVol_F23_LogVolData, listed_FC4_MediaCheck, listed_F19_Method, listed_FC6_MultiPath_FC6_MultiPathData, listed_F22_Network_F22_NetworkData, listed_FC6_NFS, listed_F21_OSTreeSetup, listed_F23_Partition_F23_PartData, listed_F23_Partition_F23_PartData, listed_F23_Reboot, listed_F23_Raid_F23_RaidData, listed_F19_Realm, listed_F23_Reboot, listed_F21_Repo_F21_RepoData, listed_F23_ReqPart, listed_F10_Rescue, listed_F18_RootPw, listed_FC3_SELinux, listed_FC6_Services, listed_F23_Reboot, listed_FC3_SkipX, listed_F13_SshPw_F13_SshPwData, listed_F22_SshKey_F22_SshKeyData, listed_FC3_DisplayMode, listed_F23_Timezone, listed_F7_Updates, listed_F20_Upgrade, listed_F18_Url, listed_F19_User_F19_UserData, listed_F9_Vnc, listed_F21_VolGroup_F21_VolGroupData, listed_F14_XConfig, listed_F9_ZeroMbr, listed_F14_ZFCP_F14_ZFCPData, List.forall_mem_nil _⟩

theorem commandMapF24_listed : ∀ x ∈ commandMapF24, Listed x.2 := by
  unfold commandMapF24
  simp only [List.forall_mem_cons]
  exact ⟨listed_FC3_Authconfig, listed_FC3_Authconfig, listed_F23_AutoPart, listed_FC3_AutoStep, listed_F21_Bootloader, listed_F23_BTRFS_F23_BTRFSData, listed_FC3_Cdrom, listed_F21_ClearPart, listed_FC3_DisplayMode, listed_F24_Device, listed_FC3_DeviceProbe, listed_F24_DmRaid, listed_F14_DriverDisk_F14_DriverDiskData, listed_F20_Eula, listed_F13_Fcoe_F13_FcoeData, listed_F20_Firewall, listed_FC3_Firstboot, listed_FC3_DisplayMode, listed_F12_Group_F12_GroupData, listed_F23_Reboot, listed_FC3_HardDrive, listed_F14_IgnoreDisk, listed_F20_Install, listed_F17_Iscsi_F17_IscsiData, listed_FC6_IscsiName, listed_F18_Keyboard, listed_F19_Lang, listed_F19_Liveimg, listed_FC6_Logging, listed_F23_LogVol_F23_LogVolData, listed_FC4_MediaCheck, listed_F19_Method, listed_F24_MultiPath, listed_F24_Network_F22_NetworkData, listed_FC6_NFS, listed_F21_OSTreeSetup, listed_F23_Partition_F23_PartData, listed_F23_Partition_F23_PartData, listed_F23_Reboot, listed_F23_Raid_F23_RaidData, listed_F19_Realm, listed_F23_Reboot, listed_F21_Repo_F21_RepoData, listed_F23_ReqPart, listed_F10_Rescue, listed_F18_RootPw, listed_FC3_SELinux, listed_FC6_Services, listed_F23_Reboot, listed_FC3_SkipX, listed_F24_SshPw_F24_SshPwData, listed_F22_SshKey_F22_SshKeyData, listed_FC3_DisplayMode, listed_F23_Timezone, listed_F7_Updates, listed_F20_Upgrade, listed_F18_Url, listed_F24_User_F19_UserData, listed_F9_Vnc, listed_F21_VolGroup_F21_VolGroupData, listed_F14_XConfig, listed_F9_ZeroMbr, listed_F14_ZFCP_F14_ZFCPData, List.forall_mem_nil _⟩

theorem commandMapF25_listed : ∀ x ∈ commandMapF25, Listed x.2 := by
  unfold commandMapF25
  simp only [List.forall_mem_cons]
  exact ⟨listed_FC3_Authconfig, listed_FC3_Authconfig, listed_F23_AutoPart, listed_FC3_AutoStep, listed_F21_Bootloader, listed_F23_BTRFS_F23_BTRFSData, listed_FC3_Cdrom, listed_F21_ClearPart, listed_FC3_DisplayMode, listed_F24_Device, listed_FC3_DeviceProbe, listed_F24_DmRaid, listed_F14_DriverDisk_F14_DriverDiskData, listed_F20_Eula, listed_F13_Fcoe_F13_FcoeData, listed_F20_Firewall, listed_FC3_Firstboot, listed_FC3_DisplayMode, listed_F12_Group_F12_GroupData, listed_F23_Reboot, listed_FC3_HardDrive, listed_F14_IgnoreDisk, listed_F20_Install, listed_F17_Iscsi_F17_IscsiData, listed_FC6_IscsiName, listed_F18_Keyboard, listed_F19_Lang, listed_F19_Liveimg, listed_FC6_Logging, listed_F23_LogVol_F23_LogVolData, listed_FC4_MediaCheck, listed_F19_Method, listed_F24_MultiPath, listed_F25_Network_F25_NetworkData, listed_FC6_NFS, listed_F21_OSTreeSetup, listed_F23_Partition_F23_PartData, listed_F23_Partition_F23_PartData, listed_F23_Reboot, listed_F25_Raid_F25_RaidData, listed_F19_Realm, listed_F23_Reboot, listed_F21_Repo_F21_RepoData, listed_F23_ReqPart, listed_F10_Rescue, listed_F18_RootPw, listed_FC3_SELinux, listed_FC6_Services, listed_F23_Reboot, listed_FC3_SkipX, listed_F24_SshPw_F24_SshPwData, listed_F22_SshKey_F22_SshKeyData, listed_FC3_DisplayMode, listed_F25_Timezone, listed_F7_Updates, listed_F20_Upgrade, listed_F18_Url, listed_F24_User_F19_UserData, listed_F9_Vnc, listed_F21_VolGroup_F21_VolGroupData, listed_F14_XConfig, listed_F9_ZeroMbr, listed_F14_ZFCP_F14_ZFCPData, List.forall_mem_nil _⟩

theorem commandMapF26_listed : ∀ x ∈ commandMapF26, Listed x.2 := by
  unfold commandMapF26
  simp only [List.forall_mem_cons]
  exact ⟨listed_FC3_Authconfig, listed_FC3_Authconfig, listed_F26_AutoPart, listed_FC3_AutoStep, listed_F21_Bootloader, listed_F23_BTRFS_F23_BTRFSData, listed_FC3_Cdrom, listed_F21_ClearPart, listed_F26_DisplayMode, listed_F24_Device, listed_FC3_DeviceProbe, listed_F24_DmRaid, listed_F14_DriverDisk_F14_DriverDiskData, listed_F20_Eula, listed_F13_Fcoe_F13_FcoeData, listed_F20_Firewall, listed_FC3_Firstboot, listed_F26_DisplayMode, listed_F12_Group_F12_GroupData, listed_F23_Reboot, listed_FC3_HardDrive, listed_F14_IgnoreDisk, listed_F20_Install, listed_F17_Iscsi_F17_IscsiData, listed_FC6_IscsiName, listed_F18_Keyboard, listed_F19_Lang, listed_F19_Liveimg, listed_FC6_Logging, listed_F23_LogVol_F23_LogVolData, listed_FC4_MediaCheck, listed_F19_Method, listed_F24_MultiPath, listed_F25_Network_F25_NetworkData, listed_FC6_NFS, listed_F21_OSTreeSetup, listed_F23_Partition_F23_PartData, listed_F23_Partition_F23_PartData, listed_F23_Reboot, listed_F25_Raid_F25_RaidData, listed_F19_Realm, listed_F23_Reboot, listed_F21_Repo_F21_RepoData, listed_F23_ReqPart, listed_F10_Rescue, listed_F18_RootPw, listed_FC3_SELinux, listed_FC6_Services, listed_F23_Reboot, listed_FC3_SkipX, listed_F26_Snapshot_F26_SnapshotData, listed_F24_SshPw_F24_SshPwData, listed_F22_SshKey_F22_SshKeyData, listed_F26_DisplayMode, listed_F25_Timezone, listed_F7_Updates, listed_F20_Upgrade, listed_F18_Url, listed_F24_User_F19_UserData, listed_F9_Vnc, listed_F21_VolGroup_F21_VolGroupData, listed_F14_XConfig, listed_F9_ZeroMbr, listed_F14_ZFCP_F14_ZFCPData, List.forall_mem_nil _⟩

theorem commandMapF27_listed : ∀ x ∈ commandMapF27, Listed x.2 := by
  unfold commandMapF27
  simp only [List.forall_mem_cons]
  exact ⟨listed_FC3_Authconfig, listed_FC3_Authconfig, listed_F26_AutoPart, listed_FC3_AutoStep, listed_F21_Bootloader, listed_F23_BTRFS_F23_BTRFSData, listed_FC3_Cdrom, listed_F21_ClearPart, listed_F26_DisplayMode, listed_F24_Device, listed_FC3_DeviceProbe, listed_F24_DmRaid, listed_F14_DriverDisk_F14_DriverDiskData, listed_F20_Eula, listed_F13_Fcoe_F13_FcoeData, listed_F20_Firewall, listed_FC3_Firstboot, listed_F26_DisplayMode, listed_F12_Group_F12_GroupData, listed_F23_Reboot, listed_FC3_HardDrive, listed_F14_IgnoreDisk, listed_F20_Install, listed_F17_Iscsi_F17_IscsiData, listed_FC6_IscsiName, listed_F18_Keyboard, listed_F19_Lang, listed_F19_Liveimg, listed_FC6_Logging, listed_F23_LogVol_F23_LogVolData, listed_FC4_MediaCheck, listed_F19_Method, listed_F27_Mount_F27_MountData, listed_F24_MultiPath, listed_F27_Network_F27_NetworkData, listed_FC6_NFS, listed_F21_OSTreeSetup, listed_F23_Partition_F23_PartData, listed_F23_Partition_F23_PartData, listed_F23_Reboot, listed_F25_Raid_F25_RaidData, listed_F19_Realm, listed_F23_Reboot, listed_F27_Repo_F27_RepoData, listed_F23_ReqPart, listed_F10_Rescue, listed_F18_RootPw, listed_FC3_SELinux, listed_FC6_Services, listed_F23_Reboot, listed_FC3_SkipX, listed_F26_Snapshot_F26_SnapshotData, listed_F24_SshPw_F24_SshPwData, listed_F22_SshKey_F22_SshKeyData, listed_F26_DisplayMode, listed_F25_Timezone, listed_F7_Updates, listed_F20_Upgrade, listed_F27_Url, listed_F24_User_F19_UserData, listed_F9_Vnc, listed_F21_VolGroup_F21_VolGroupData, listed_F14_XConfig, listed_F9_ZeroMbr, listed_F14_ZFCP_F14_ZFCPData, List.forall_mem_nil _⟩

theorem commandMapF28_listed : ∀ x ∈ commandMapF28, Listed x.2 := by
  unfold commandMapF28
  simp only [List.forall_mem_cons]
  exact ⟨listed_F28_Authconfig, listed_F28_Authconfig, listed_F28_Authselect, listed_F26_AutoPart, listed_FC3_AutoStep, listed_F21_Bootloader, listed_F23_BTRFS_F23_BTRFSData, listed_FC3_Cdrom, listed_F28_ClearPart, listed_F26_DisplayMode, listed_F24_Device, listed_FC3_DeviceProbe, listed_F24_DmRaid, listed_F14_DriverDisk_F14_DriverDiskData, listed_F20_Eula, listed_F28_Fcoe_F28_FcoeData, listed_F28_Firewall, listed_FC3_Firstboot, listed_F26_DisplayMode, listed_F12_Group_F12_GroupData, listed_F23_Reboot, listed_FC3_HardDrive, listed_F28_Hmc, listed_F14_IgnoreDisk, listed_F20_Install, listed_F17_Iscsi_F17_IscsiData, listed_FC6_IscsiName, listed_F18_Keyboard, listed_F19_Lang, listed_F19_Liveimg, listed_FC6_Logging, listed_F23_LogVol_F23_LogVolData, listed_FC4_MediaCheck, listed_F28_Method, listed_F27_Mount_F27_MountData, listed_F24_MultiPath, listed_F27_Network_F27_NetworkData, listed_FC6_NFS, listed_F28_Nvdimm_F28_NvdimmData, listed_F21_OSTreeSetup, listed_F23_Partition_F23_PartData, listed_F23_Partition_F23_PartData, listed_F23_Reboot, listed_F25_Raid_F25_RaidData, listed_F19_Realm, listed_F23_Reboot, listed_F27_Repo_F27_RepoData, listed_F23_ReqPart, listed_F10_Rescue, listed_F18_RootPw, listed_FC3_SELinux, listed_FC6_Services, listed_F23_Reboot, listed_FC3_SkipX, listed_F26_Snapshot_F26_SnapshotData, listed_F24_SshPw_F24_SshPwData, listed_F22_SshKey_F22_SshKeyData, listed_F26_DisplayMode, listed_F25_Timezone, listed_F7_Updates, listed_F20_Upgrade, listed_F27_Url, listed_F24_User_F19_UserData, listed_F9_Vnc, listed_F21_VolGroup_F21_VolGroupData, listed_F14_XConfig, listed_F9_ZeroMbr, listed_F14_ZFCP_F14_ZFCPData, List.forall_mem_nil _⟩

theorem commandMapF29_listed : ∀ x ∈ commandMapF29, Listed x.2 := by
  unfold commandMapF29
  simp only [List.forall_mem_cons]
  exact ⟨listed_F28_Authconfig, listed_F28_Authconfig, listed_F28_Authselect, listed_F29_AutoPart, listed_FC3_AutoStep, listed_F29_Bootloader, listed_F23_BTRFS_F23_BTRFSData, listed_FC3_Cdrom, listed_F28_ClearPart, listed_F26_DisplayMode, listed_F24_Device, listed_F29_DeviceProbe, listed_F24_DmRaid, listed_F14_DriverDisk_F14_DriverDiskData, listed_F29_Module_F29_ModuleData, listed_F20_Eula, listed_F28_Fcoe_F28_FcoeData, listed_F28_Firewall, listed_FC3_Firstboot, listed_F26_DisplayMode, listed_F12_Group_F12_GroupData, listed_F23_Reboot, listed_FC3_HardDrive, listed_F28_Hmc, listed_F29_IgnoreDisk, listed_F29_Install, listed_F17_Iscsi_F17_IscsiData, listed_FC6_IscsiName, listed_F18_Keyboard, listed_F19_Lang, listed_F19_Liveimg, listed_FC6_Logging, listed_F29_LogVol_F29_LogVolData, listed_FC4_MediaCheck, listed_F28_Method, listed_F27_Mount_F27_MountData, listed_F24_MultiPath, listed_F27_Network_F27_NetworkData, listed_FC6_NFS, listed_F28_Nvdimm_F28_NvdimmData, listed_F21_OSTreeSetup, listed_F29_Partition_F29_PartData, listed_F29_Partition_F29_PartData, listed_F23_Reboot, listed_F29_Raid_F29_RaidData, listed_F19_Realm, listed_F23_Reboot, listed_F27_Repo_F27_RepoData, listed_F23_ReqPart, listed_F10_Rescue, listed_F18_RootPw, listed_FC3_SELinux, listed_FC6_Services, listed_F23_Reboot, listed_FC3_SkipX, listed_F26_Snapshot_F26_SnapshotData, listed_F24_SshPw_F24_SshPwData, listed_F22_SshKey_F22_SshKeyData, listed_F26_DisplayMode, listed_F25_Timezone, listed_F7_Updates, listed_F29_Upgrade, listed_F27_Url, listed_F24_User_F19_UserData, listed_F9_Vnc, listed_F21_VolGroup_F21_VolGroupData, listed_F14_XConfig, listed_F9_ZeroMbr, listed_F14_ZFCP_F14_ZFCPData, List.forall_mem_nil _⟩

theorem commandMapF30_listed : ∀ x ∈ commandMapF30, Listed x.2 := by
  unfold commandMapF30
  simp only [List.forall_mem_cons]
  exact ⟨listed_F28_Authconfig, listed_F28_Authconfig, listed_F28_Authselect, listed_F29_AutoPart, listed_FC3_AutoStep, listed_F29_Bootloader, listed_F23_BTRFS_F23_BTRFSData, listed_FC3_Cdrom, listed_F28_ClearPart, listed_F26_DisplayMode, listed_F24_Device, listed_F29_DeviceProbe, listed_F24_DmRaid, listed_F14_DriverDisk_F14_DriverDiskData, listed_F29_Module_F29_ModuleData, listed_F20_Eula, listed_F28_Fcoe_F28_FcoeData, listed_F28_Firewall, listed_FC3_Firstboot, listed_F26_DisplayMode, listed_F12_Group_F12_GroupData, listed_F23_Reboot, listed_FC3_HardDrive, listed_F28_Hmc, listed_F29_IgnoreDisk, listed_F29_Install, listed_F17_Iscsi_F17_IscsiData, listed_FC6_IscsiName, listed_F18_Keyboard, listed_F19_Lang, listed_F19_Liveimg, listed_FC6_Logging, listed_F29_LogVol_F29_LogVolData, listed_FC4_MediaCheck, listed_F28_Method, listed_F27_Mount_F27_MountData, listed_F24_MultiPath, listed_F27_Network_F27_NetworkData, listed_FC6_NFS, listed_F28_Nvdimm_F28_NvdimmData, listed_F21_OSTreeSetup, listed_F29_Partition_F29_PartData, listed_F29_Partition_F29_PartData, listed_F23_Reboot, listed_F29_Raid_F29_RaidData, listed_F19_Realm, listed_F23_Reboot, listed_F30_Repo_F30_RepoData, listed_F23_ReqPart, listed_F10_Rescue, listed_F18_RootPw, listed_FC3_SELinux, listed_FC6_Services, listed_F23_Reboot, listed_FC3_SkipX, listed_F26_Snapshot_F26_SnapshotData, listed_F24_SshPw_F24_SshPwData, listed_F22_SshKey_F22_SshKeyData, listed_F26_DisplayMode, listed_F25_Timezone, listed_F7_Updates, listed_F30_Url, listed_F24_User_F19_UserData, listed_F9_Vnc, listed_F21_VolGroup_F21_VolGroupData, listed_F14_XConfig, listed_F9_ZeroMbr, listed_F14_ZFCP_F14_ZFCPData, List.forall_mem_nil _⟩

theorem commandMapF31_listed : ∀ x ∈ commandMapF31, Listed x.2 := by
  unfold commandMapF31
  simp only [List.forall_mem_cons]
  exact ⟨listed_F28_Authconfig, listed_F28_Authconfig, listed_F28_Authselect, listed_F29_AutoPart, listed_FC3_AutoStep, listed_F29_Bootloader, listed_F23_BTRFS_F23_BTRFSData, listed_FC3_Cdrom, listed_F28_ClearPart, listed_F26_DisplayMode, listed_F24_Device, listed_F29_DeviceProbe, listed_F24_DmRaid, listed_F14_DriverDisk_F14_DriverDiskData, listed_F31_Module_F31_ModuleData, listed_F20_Eula, listed_F28_Fcoe_F28_FcoeData, listed_F28_Firewall, listed_FC3_Firstboot, listed_F26_DisplayMode, listed_F12_Group_F12_GroupData, listed_F23_Reboot, listed_FC3_HardDrive, listed_F28_Hmc, listed_F29_IgnoreDisk, listed_F29_Install, listed_F17_Iscsi_F17_IscsiData, listed_FC6_IscsiName, listed_F18_Keyboard, listed_F19_Lang, listed_F19_Liveimg, listed_FC6_Logging, listed_F29_LogVol_F29_LogVolData, listed_FC4_MediaCheck, listed_F28_Method, listed_F27_Mount_F27_MountData, listed_F24_MultiPath, listed_F27_Network_F27_NetworkData, listed_FC6_NFS, listed_F28_Nvdimm_F28_NvdimmData, listed_F21_OSTreeSetup, listed_F29_Partition_F29_PartData, listed_F29_Partition_F29_PartData, listed_F23_Reboot, listed_F29_Raid_F29_RaidData, listed_F19_Realm, listed_F23_Reboot, listed_F30_Repo_F30_RepoData, listed_F23_ReqPart, listed_F10_Rescue, listed_F18_RootPw, listed_FC3_SELinux, listed_FC6_Services, listed_F23_Reboot, listed_FC3_SkipX, listed_F26_Snapshot_F26_SnapshotData, listed_F24_SshPw_F24_SshPwData, listed_F22_SshKey_F22_SshKeyData, listed_F26_DisplayMode, listed_F25_Timezone, listed_F7_Updates, listed_F30_Url, listed_F24_User_F19_UserData, listed_F9_Vnc, listed_F21_VolGroup_F21_VolGroupData, listed_F14_XConfig, listed_F9_ZeroMbr, listed_F14_ZFCP_F14_ZFCPData, List.forall_mem_nil _⟩

theorem commandMapF32_listed : ∀ x ∈ commandMapF32, Listed x.2 := by
  unfold commandMapF32
  simp only [List.forall_mem_cons]
  exact ⟨listed_F28_Authconfig, listed_F28_Authconfig, listed_F28_Authselect, listed_F29_AutoPart, listed_FC3_AutoStep, listed_F29_Bootloader, listed_F23_BTRFS_F23_BTRFSData, listed_FC3_Cdrom, listed_F28_ClearPart, listed_F26_DisplayMode, listed_F24_Device, listed_F29_DeviceProbe, listed_F24_DmRaid, listed_F14_DriverDisk_F14_DriverDiskData, listed_F31_Module_F31_ModuleData, listed_F20_Eula, listed_F28_Fcoe_F28_FcoeData, listed_F28_Firewall, listed_FC3_Firstboot, listed_F26_DisplayMode, listed_F12_Group_F12_GroupData, listed_F23_Reboot, listed_FC3_HardDrive, listed_F28_Hmc, listed_F29_IgnoreDisk, listed_F29_Install, listed_F17_Iscsi_F17_IscsiData, listed_FC6_IscsiName, listed_F18_Keyboard, listed_F19_Lang, listed_F19_Liveimg, listed_FC6_Logging, listed_F29_LogVol_F29_LogVolData, listed_FC4_MediaCheck, listed_F28_Method, listed_F27_Mount_F27_MountData, listed_F24_MultiPath, listed_F27_Network_F27_NetworkData, listed_FC6_NFS, listed_F28_Nvdimm_F28_NvdimmData, listed_F21_OSTreeSetup, listed_F29_Partition_F29_PartData, listed_F29_Partition_F29_PartData, listed_F23_Reboot, listed_F29_Raid_F29_RaidData, listed_F19_Realm, listed_F23_Reboot, listed_F30_Repo_F30_RepoData, listed_F23_ReqPart, listed_F10_Rescue, listed_F18_RootPw, listed_FC3_SELinux, listed_FC6_Services, listed_F23_Reboot, listed_FC3_SkipX, listed_F26_Snapshot_F26_SnapshotData, listed_F24_SshPw_F24_SshPwData, listed_F22_SshKey_F22_SshKeyData, listed_F26_DisplayMode, listed_F32_Timezone, listed_F7_Updates, listed_F30_Url, listed_F24_User_F19_UserData, listed_F9_Vnc, listed_F21_VolGroup_F21_VolGroupData, listed_F14_XConfig, listed_F9_ZeroMbr, listed_F14_ZFCP_F14_ZFCPData, listed_F32_Zipl, List.forall_mem_nil _⟩

theorem commandMapF33_listed : ∀ x ∈ commandMapF33, Listed x.2 := by
  unfold commandMapF33
  simp only [List.forall_mem_cons]
  exact ⟨listed_F28_Authconfig, listed_F28_Authconfig, listed_F28_Authselect, listed_F29_AutoPart, listed_FC3_AutoStep, listed_F29_Bootloader, listed_F23_BTRFS_F23_BTRFSData, listed_FC3_Cdrom, listed_F28_ClearPart, listed_F26_DisplayMode, listed_F24_Device, listed_F29_DeviceProbe, listed_F24_DmRaid, listed_F14_DriverDisk_F14_DriverDiskData, listed_F31_Module_F31_ModuleData, listed_F20_Eula, listed_F28_Fcoe_F28_FcoeData, listed_F28_Firewall, listed_FC3_Firstboot, listed_F26_DisplayMode, listed_F12_Group_F12_GroupData, listed_F23_Reboot, listed_F33_HardDrive, listed_F28_Hmc, listed_F29_IgnoreDisk, listed_F29_Install, listed_F17_Iscsi_F17_IscsiData, listed_FC6_IscsiName, listed_F18_Keyboard, listed_F19_Lang, listed_F19_Liveimg, listed_FC6_Logging, listed_F29_LogVol_F29_LogVolData, listed_FC4_MediaCheck, listed_F28_Method, listed_F27_Mount_F27_MountData, listed_F24_MultiPath, listed_F27_Network_F27_NetworkData, listed_FC6_NFS, listed_F28_Nvdimm_F28_NvdimmData, listed_F33_Timesource_F33_TimesourceData, listed_F21_OSTreeSetup, listed_F29_Partition_F29_PartData, listed_F29_Partition_F29_PartData, listed_F23_Reboot, listed_F29_Raid_F29_RaidData, listed_F19_Realm, listed_F23_Reboot, listed_F33_Repo_F30_RepoData, listed_F23_ReqPart, listed_F10_Rescue, listed_F18_RootPw, listed_FC3_SELinux, listed_FC6_Services, listed_F23_Reboot, listed_FC3_SkipX, listed_F26_Snapshot_F26_SnapshotData, listed_F24_SshPw_F24_SshPwData, listed_F22_SshKey_F22_SshKeyData, listed_F26_DisplayMode, listed_F33_Timezone, listed_F7_Updates, listed_F30_Url, listed_F24_User_F19_UserData, listed_F9_Vnc, listed_F21_VolGroup_F21_VolGroupData, listed_F14_XConfig, listed_F9_ZeroMbr, listed_F14_ZFCP_F14_ZFCPData, listed_F32_Zipl, List.forall_mem_nil _⟩

theorem commandMapF34_listed : ∀ x ∈ commandMapF34, Listed x.2 := by
  unfold commandMapF34
  simp only [List.forall_mem_cons]
  exact ⟨listed_F28_Authconfig, listed_F28_Authconfig, listed_F28_Authselect, listed_F29_AutoPart, listed_F34_AutoStep, listed_F34_Bootloader, listed_F23_BTRFS_F23_BTRFSData, listed_FC3_Cdrom, listed_F28_ClearPart, listed_F26_DisplayMode, listed_F34_Device, listed_F34_DeviceProbe, listed_F34_DmRaid, listed_F14_DriverDisk_F14_DriverDiskData, listed_F31_Module_F31_ModuleData, listed_F20_Eula, listed_F28_Fcoe_F28_FcoeData, listed_F28_Firewall, listed_FC3_Firstboot, listed_F26_DisplayMode, listed_F12_Group_F12_GroupData, listed_F23_Reboot, listed_F33_HardDrive, listed_F28_Hmc, listed_F34_IgnoreDisk, listed_F34_Install, listed_F17_Iscsi_F17_IscsiData, listed_FC6_IscsiName, listed_F18_Keyboard, listed_F19_Lang, listed_F19_Liveimg, listed_F34_Logging, listed_F29_LogVol_F29_LogVolData, listed_FC4_MediaCheck, listed_F34_Method, listed_F27_Mount_F27_MountData, listed_F34_MultiPath, listed_F27_Network_F27_NetworkData, listed_FC6_NFS, listed_F28_Nvdimm_F28_NvdimmData, listed_F33_Timesource_F33_TimesourceData, listed_F21_OSTreeSetup, listed_F34_Partition_F29_PartData, listed_F34_Partition_F29_PartData, listed_F23_Reboot, listed_F29_Raid_F29_RaidData, listed_F19_Realm, listed_F23_Reboot, listed_F33_Repo_F30_RepoData, listed_F23_ReqPart, listed_F10_Rescue, listed_F18_RootPw, listed_FC3_SELinux, listed_FC6_Services, listed_F23_Reboot, listed_FC3_SkipX, listed_F26_Snapshot_F26_SnapshotData, listed_F24_SshPw_F24_SshPwData, listed_F22_SshKey_F22_SshKeyData, listed_F26_DisplayMode, listed_F33_Timezone, listed_F34_Updates, listed_F30_Url, listed_F24_User_F19_UserData, listed_F9_Vnc, listed_F21_VolGroup_F21_VolGroupData, listed_F14_XConfig, listed_F9_ZeroMbr, listed_F14_ZFCP_F14_ZFCPData, listed_F32_Zipl, List.forall_mem_nil _⟩

theorem commandMapF7_listed : ∀ x ∈ commandMapF7, Listed x.2 := by
  unfold commandMapF7
  simp only [List.forall_mem_cons]
  exact ⟨listed_FC3_Authconfig, listed_FC3_Authconfig, listed_FC3_AutoPart, listed_FC3_AutoStep, listed_FC4_Bootloader, listed_FC3_Cdrom, listed_FC3_ClearPart, listed_FC3_DisplayMode, listed_FC3_Device, listed_FC3_DeviceProbe, listed_FC6_DmRaid_FC6_DmRaidData, listed_FC4_DriverDisk_FC4_DriverDiskData, listed_FC3_Firewall, listed_FC3_Firstboot, listed_FC3_DisplayMode, listed_FC6_Reboot, listed_FC3_HardDrive, listed_FC3_IgnoreDisk, listed_FC3_Upgrade, listed_FC3_Interactive, listed_FC6_Iscsi_FC6_IscsiData, listed_FC6_IscsiName, listed_FC3_Keyboard, listed_FC3_Lang, listed_F7_LangSupport, listed_FC6_Logging, listed_FC4_LogVol_FC4_LogVolData, listed_FC4_MediaCheck, listed_FC6_Method, listed_FC6_Monitor, listed_F7_Mouse, listed_FC6_MultiPath_FC6_MultiPathData, listed_FC6_Network_FC6_NetworkData, listed_FC6_NFS, listed_FC4_Partition_FC4_PartData, listed_FC4_Partition_FC4_PartData, listed_FC6_Reboot, listed_F7_Raid_F7_RaidData, listed_FC6_Reboot, listed_FC6_Repo_FC6_RepoData, listed_FC3_RootPw, listed_FC3_SELinux, listed_FC6_Services, listed_FC6_Reboot, listed_FC3_SkipX, listed_FC3_DisplayMode, listed_FC6_Timezone, listed_F7_Updates, listed_FC3_Upgrade, listed_FC3_Url, listed_FC6_User_FC6_UserData, listed_FC6_Vnc, listed_FC3_VolGroup_FC3_VolGroupData, listed_FC6_XConfig, listed_FC3_ZeroMbr, listed_FC3_ZFCP_FC3_ZFCPData, List.forall_mem_nil _⟩

theorem commandMapF8_listed : ∀ x ∈ commandMapF8, Listed x.2 := by
  unfold commandMapF8
  simp only [List.forall_mem_cons]
  exact ⟨listed_FC3_Authconfig, listed_FC3_Authconfig, listed_FC3_AutoPart, listed_FC3_AutoStep, listed_F8_Bootloader, listed_FC3_Cdrom, listed_FC3_ClearPart, listed_FC3_DisplayMode, listed_F8_Device_F8_DeviceData, listed_FC3_DeviceProbe, listed_FC6_DmRaid_FC6_DmRaidData, listed_FC4_DriverDisk_FC4_DriverDiskData, listed_FC3_Firewall, listed_FC3_Firstboot, listed_FC3_DisplayMode, listed_FC6_Reboot, listed_FC3_HardDrive, listed_F8_IgnoreDisk, listed_FC3_Upgrade, listed_FC3_Interactive, listed_FC6_Iscsi_FC6_IscsiData, listed_FC6_IscsiName, listed_FC3_Keyboard, listed_FC3_Lang, listed_FC6_Logging, listed_FC4_LogVol_FC4_LogVolData, listed_FC4_MediaCheck, listed_FC6_Method, listed_FC6_Monitor, listed_FC6_MultiPath_FC6_MultiPathData, listed_F8_Network_F8_NetworkData, listed_FC6_NFS, listed_FC4_Partition_FC4_PartData, listed_FC4_Partition_FC4_PartData, listed_FC6_Reboot, listed_F7_Raid_F7_RaidData, listed_FC6_Reboot, listed_F8_Repo_F8_RepoData, listed_F8_RootPw, listed_FC3_SELinux, listed_FC6_Services, listed_FC6_Reboot, listed_FC3_SkipX, listed_FC3_DisplayMode, listed_FC6_Timezone, listed_F7_Updates, listed_FC3_Upgrade, listed_FC3_Url, listed_F8_User_F8_UserData, listed_FC6_Vnc, listed_FC3_VolGroup_FC3_VolGroupData, listed_FC6_XConfig, listed_FC3_ZeroMbr, listed_FC3_ZFCP_FC3_ZFCPData, List.forall_mem_nil _⟩

theorem commandMapF9_listed : ∀ x ∈ commandMapF9, Listed x.2 := by
  unfold commandMapF9
  simp only [List.forall_mem_cons]
  exact ⟨listed_FC3_Authconfig, listed_FC3_Authconfig, listed_F9_AutoPart, listed_FC3_AutoStep, listed_F8_Bootloader, listed_FC3_Cdrom, listed_FC3_ClearPart, listed_FC3_DisplayMode, listed_F8_Device_F8_DeviceData, listed_FC3_DeviceProbe, listed_FC6_DmRaid_FC6_DmRaidData, listed_FC4_DriverDisk_FC4_DriverDiskData, listed_F9_Firewall, listed_FC3_Firstboot, listed_FC3_DisplayMode, listed_FC6_Reboot, listed_FC3_HardDrive, listed_F8_IgnoreDisk, listed_FC3_Upgrade, listed_FC3_Interactive, listed_FC6_Iscsi_FC6_IscsiData, listed_FC6_IscsiName, listed_FC3_Keyboard, listed_FC3_Lang, listed_FC6_Logging, listed_F9_LogVol_F9_LogVolData, listed_FC4_MediaCheck, listed_FC6_Method, listed_FC6_Monitor, listed_FC6_MultiPath_FC6_MultiPathData, listed_F9_Network_F8_NetworkData, listed_FC6_NFS, listed_F9_Partition_F9_PartData, listed_F9_Partition_F9_PartData, listed_FC6_Reboot, listed_F9_Raid_F9_RaidData, listed_FC6_Reboot, listed_F8_Repo_F8_RepoData, listed_F8_RootPw, listed_FC3_SELinux, listed_FC6_Services, listed_FC6_Reboot, listed_FC3_SkipX, listed_FC3_DisplayMode, listed_FC6_Timezone, listed_F7_Updates, listed_FC3_Upgrade, listed_FC3_Url, listed_F8_User_F8_UserData, listed_F9_Vnc, listed_FC3_VolGroup_FC3_VolGroupData, listed_F9_XConfig, listed_F9_ZeroMbr, listed_FC3_ZFCP_FC3_ZFCPData, List.forall_mem_nil _⟩

theorem commandMapFC3_listed : ∀ x ∈ commandMapFC3, Listed x.2 := by
  unfold commandMapFC3
  simp only [List.forall_mem_cons]
  exact ⟨listed_FC3_Authconfig, listed_FC3_Authconfig, listed_FC3_AutoPart, listed_FC3_AutoStep, listed_FC3_Bootloader, listed_FC3_Cdrom, listed_FC3_ClearPart, listed_FC3_DisplayMode, listed_FC3_Device, listed_FC3_DeviceProbe, listed_FC3_DriverDisk_FC3_DriverDiskData, listed_FC3_Firewall, listed_FC3_Firstboot, listed_FC3_DisplayMode, listed_FC3_Reboot, listed_FC3_HardDrive, listed_FC3_IgnoreDisk, listed_FC3_Upgrade, listed_FC3_Interactive, listed_FC3_Keyboard, listed_FC3_Lang, listed_FC3_LangSupport, listed_FC3_Lilo, listed_FC3_LiloCheck, listed_FC3_LogVol_FC3_LogVolData, listed_FC3_Method, listed_FC3_Monitor, listed_FC3_Mouse, listed_FC3_Network_FC3_NetworkData, listed_FC3_NFS, listed_FC3_Partition_FC3_PartData, listed_FC3_Partition_FC3_PartData, listed_FC3_Reboot, listed_FC3_Raid_FC3_RaidData, listed_FC3_Reboot, listed_FC3_RootPw, listed_FC3_SELinux, listed_FC3_Reboot, listed_FC3_SkipX, listed_FC3_DisplayMode, listed_FC3_Timezone, listed_FC3_Upgrade, listed_FC3_Url, listed_FC3_Vnc, listed_FC3_VolGroup_FC3_VolGroupData, listed_FC3_XConfig, listed_FC3_ZeroMbr, listed_FC3_ZFCP_FC3_ZFCPData, List.forall_mem_nil _⟩

theorem commandMapFC4_listed : ∀ x ∈ commandMapFC4, Listed x.2 := by
  unfold commandMapFC4
  simp only [List.forall_mem_cons]
  exact ⟨listed_FC3_Authconfig, listed_FC3_Authconfig, listed_FC3_AutoPart, listed_FC3_AutoStep, listed_FC4_Bootloader, listed_FC3_Cdrom, listed_FC3_ClearPart, listed_FC3_DisplayMode, listed_FC3_Device, listed_FC3_DeviceProbe, listed_FC4_DriverDisk_FC4_DriverDiskData, listed_FC3_Firewall, listed_FC3_Firstboot, listed_FC3_DisplayMode, listed_FC3_Reboot, listed_FC3_HardDrive, listed_FC3_IgnoreDisk, listed_FC3_Upgrade, listed_FC3_Interactive, listed_FC3_Keyboard, listed_FC3_Lang, listed_FC3_LangSupport, listed_FC4_Lilo, listed_FC4_LiloCheck, listed_FC4_LogVol_FC4_LogVolData, listed_FC4_MediaCheck, listed_FC3_Method, listed_FC3_Monitor, listed_FC3_Mouse, listed_FC4_Network_FC4_NetworkData, listed_FC3_NFS, listed_FC4_Partition_FC4_PartData, listed_FC4_Partition_FC4_PartData, listed_FC3_Reboot, listed_FC4_Raid_FC4_RaidData, listed_FC3_Reboot, listed_FC3_RootPw, listed_FC3_SELinux, listed_FC3_Reboot, listed_FC3_SkipX, listed_FC3_DisplayMode, listed_FC3_Timezone, listed_FC3_Upgrade, listed_FC3_Url, listed_FC3_Vnc, listed_FC3_VolGroup_FC3_VolGroupData, listed_FC3_XConfig, listed_FC3_ZeroMbr, listed_FC3_ZFCP_FC3_ZFCPData, List.forall_mem_nil _⟩

theorem commandMapFC5_listed : ∀ x ∈ commandMapFC5, Listed x.2 := by
  unfold commandMapFC5
  simp only [List.forall_mem_cons]
  exact ⟨listed_FC3_Authconfig, listed_FC3_Authconfig, listed_FC3_AutoPart, listed_FC3_AutoStep, listed_FC4_Bootloader, listed_FC3_Cdrom, listed_FC3_ClearPart, listed_FC3_DisplayMode, listed_FC3_Device, listed_FC3_DeviceProbe, listed_FC4_DriverDisk_FC4_DriverDiskData, listed_FC3_Firewall, listed_FC3_Firstboot, listed_FC3_DisplayMode, listed_FC3_Reboot, listed_FC3_HardDrive, listed_FC3_IgnoreDisk, listed_FC3_Upgrade, listed_FC3_Interactive, listed_FC3_Keyboard, listed_FC3_Lang, listed_FC5_LangSupport, listed_FC4_LogVol_FC4_LogVolData, listed_FC4_MediaCheck, listed_FC3_Method, listed_FC3_Monitor, listed_FC3_Mouse, listed_FC4_Network_FC4_NetworkData, listed_FC3_NFS, listed_FC4_Partition_FC4_PartData, listed_FC4_Partition_FC4_PartData, listed_FC3_Reboot, listed_FC5_Raid_FC5_RaidData, listed_FC3_Reboot, listed_FC3_RootPw, listed_FC3_SELinux, listed_FC3_Reboot, listed_FC3_SkipX, listed_FC3_DisplayMode, listed_FC3_Timezone, listed_FC3_Upgrade, listed_FC3_Url, listed_FC3_Vnc, listed_FC3_VolGroup_FC3_VolGroupData, listed_FC3_XConfig, listed_FC3_ZeroMbr, listed_FC3_ZFCP_FC3_ZFCPData, List.forall_mem_nil _⟩

theorem commandMapFC6_listed : ∀ x ∈ commandMapFC6, Listed x.2 := by
  unfold commandMapFC6
  simp only [List.forall_mem_cons]
  exact ⟨listed_FC3_Authconfig, listed_FC3_Authconfig, listed_FC3_AutoPart, listed_FC3_AutoStep, listed_FC4_Bootloader, listed_FC3_Cdrom, listed_FC3_ClearPart, listed_FC3_DisplayMode, listed_FC3_Device, listed_FC3_DeviceProbe, listed_FC6_DmRaid_FC6_DmRaidData, listed_FC4_DriverDisk_FC4_DriverDiskData, listed_FC3_Firewall, listed_FC3_Firstboot, listed_FC3_DisplayMode, listed_FC6_Reboot, listed_FC3_HardDrive, listed_FC3_IgnoreDisk, listed_FC3_Upgrade, listed_FC3_Interactive, listed_FC6_Iscsi_FC6_IscsiData, listed_FC6_IscsiName, listed_FC3_Keyboard, listed_FC3_Lang, listed_FC5_LangSupport, listed_FC6_Logging, listed_FC4_LogVol_FC4_LogVolData, listed_FC4_MediaCheck, listed_FC6_Method, listed_FC6_Monitor, listed_FC3_Mouse, listed_FC6_MultiPath_FC6_MultiPathData, listed_FC6_Network_FC6_NetworkData, listed_FC6_NFS, listed_FC4_Partition_FC4_PartData, listed_FC4_Partition_FC4_PartData, listed_FC6_Reboot, listed_FC5_Raid_FC5_RaidData, listed_FC6_Reboot, listed_FC6_Repo_FC6_RepoData, listed_FC3_RootPw, listed_FC3_SELinux, listed_FC6_Services, listed_FC6_Reboot, listed_FC3_SkipX, listed_FC3_DisplayMode, listed_FC6_Timezone, listed_FC3_Upgrade, listed_FC6_User_FC6_UserData, listed_FC3_Url, listed_FC6_Vnc, listed_FC3_VolGroup_FC3_VolGroupData, listed_FC6_XConfig, listed_FC3_ZeroMbr, listed_FC3_ZFCP_FC3_ZFCPData, List.forall_mem_nil _⟩

theorem commandMapRHEL3_listed : ∀ x ∈ commandMapRHEL3, Listed x.2 := by
  unfold commandMapRHEL3
  simp only [List.forall_mem_cons]
  exact ⟨listed_FC3_Authconfig, listed_FC3_Authconfig, listed_FC3_AutoPart, listed_FC3_AutoStep, listed_FC3_Bootloader, listed_FC3_Cdrom, listed_FC3_ClearPart, listed_FC3_DisplayMode, listed_FC3_Device, listed_FC3_DeviceProbe, listed_FC3_DriverDisk_FC3_DriverDiskData, listed_FC3_Firewall, listed_FC3_Firstboot, listed_FC3_DisplayMode, listed_FC3_Reboot, listed_FC3_HardDrive, listed_FC3_IgnoreDisk, listed_FC3_Upgrade, listed_FC3_Interactive, listed_FC3_Keyboard, listed_FC3_Lang, listed_FC3_LangSupport, listed_FC3_Lilo, listed_FC3_LiloCheck, listed_FC3_LogVol_FC3_LogVolData, listed_FC3_Method, listed_FC3_Monitor, listed_RHEL3_Mouse, listed_FC3_Network_RHEL4_NetworkData, listed_FC3_NFS, listed_FC3_Partition_FC3_PartData, listed_FC3_Partition_FC3_PartData, listed_FC3_Reboot, listed_FC3_Raid_FC3_RaidData, listed_FC3_Reboot, listed_FC3_RootPw, listed_FC3_Reboot, listed_FC3_SkipX, listed_FC3_DisplayMode, listed_FC3_Timezone, listed_FC3_Upgrade, listed_FC3_Url, listed_FC3_Vnc, listed_FC3_VolGroup_FC3_VolGroupData, listed_FC3_XConfig, listed_FC3_ZeroMbr, List.forall_mem_nil _⟩

theorem commandMapRHEL4_listed : ∀ x ∈ commandMapRHEL4, Listed x.2 := by
  unfold commandMapRHEL4
  simp only [List.forall_mem_cons]
  exact ⟨listed_FC3_Authconfig, listed_FC3_Authconfig, listed_FC3_AutoPart, listed_FC3_AutoStep, listed_FC3_Bootloader, listed_FC3_Cdrom, listed_FC3_ClearPart, listed_FC3_DisplayMode, listed_FC3_Device, listed_FC3_DeviceProbe, listed_FC4_DriverDisk_FC4_DriverDiskData, listed_FC3_Firewall, listed_FC3_Firstboot, listed_FC3_DisplayMode, listed_FC3_Reboot, listed_FC3_HardDrive, listed_F8_IgnoreDisk, listed_FC3_Upgrade, listed_FC3_Interactive, listed_FC3_Keyboard, listed_FC3_Lang, listed_FC3_LangSupport, listed_FC3_Lilo, listed_FC3_LiloCheck, listed_FC3_LogVol_FC3_LogVolData, listed_FC3_Method, listed_FC3_Monitor, listed_FC3_Mouse, listed_RHEL4_Network_RHEL4_NetworkData, listed_FC3_NFS, listed_FC3_Partition_FC3_PartData, listed_FC3_Partition_FC3_PartData, listed_FC3_Reboot, listed_FC3_Raid_FC3_RaidData, listed_FC3_Reboot, listed_FC3_RootPw, listed_FC3_SELinux, listed_FC3_Reboot, listed_FC3_SkipX, listed_FC3_DisplayMode, listed_FC3_Timezone, listed_FC3_Upgrade, listed_FC3_Url, listed_FC3_Vnc, listed_FC3_VolGroup_FC3_VolGroupData, listed_FC3_XConfig, listed_FC3_ZeroMbr, listed_FC3_ZFCP_FC3_ZFCPData, List.forall_mem_nil _⟩

theorem commandMapRHEL5_listed : ∀ x ∈ commandMapRHEL5, Listed x.2 := by
  unfold commandMapRHEL5
  simp only [List.forall_mem_cons]
  exact ⟨listed_FC3_Authconfig, listed_FC3_Authconfig, listed_F9_AutoPart, listed_FC3_AutoStep, listed_RHEL5_Bootloader, listed_FC3_Cdrom, listed_FC3_ClearPart, listed_FC3_DisplayMode, listed_FC3_Device, listed_FC3_DeviceProbe, listed_FC6_DmRaid_FC6_DmRaidData, listed_F12_DriverDisk_F12_DriverDiskData, listed_FC3_Firewall, listed_FC3_Firstboot, listed_FC3_DisplayMode, listed_FC6_Reboot, listed_FC3_HardDrive, listed_F8_IgnoreDisk, listed_FC3_Upgrade, listed_FC3_Interactive, listed_FC6_Iscsi_FC6_IscsiData, listed_FC6_IscsiName, listed_RHEL5_Key, listed_FC3_Keyboard, listed_FC3_Lang, listed_FC5_LangSupport, listed_FC6_Logging, listed_RHEL5_LogVol_RHEL5_LogVolData, listed_FC4_MediaCheck, listed_FC6_Method, listed_FC6_Monitor, listed_FC3_Mouse, listed_FC6_MultiPath_FC6_MultiPathData, listed_RHEL5_Network_FC6_NetworkData, listed_FC6_NFS, listed_RHEL5_Partition_RHEL5_PartData, listed_RHEL5_Partition_RHEL5_PartData, listed_FC6_Reboot, listed_RHEL5_Raid_RHEL5_RaidData, listed_FC6_Reboot, listed_FC6_Repo_FC6_RepoData, listed_FC3_RootPw, listed_FC6_Services, listed_FC3_SELinux, listed_FC6_Reboot, listed_FC3_SkipX, listed_FC3_DisplayMode, listed_FC6_Timezone, listed_FC3_Upgrade, listed_FC6_User_FC6_UserData, listed_FC3_Url, listed_FC6_Vnc, listed_FC3_VolGroup_FC3_VolGroupData, listed_FC6_XConfig, listed_FC3_ZeroMbr, listed_FC3_ZFCP_FC3_ZFCPData, List.forall_mem_nil _⟩

theorem commandMapRHEL6_listed : ∀ x ∈ commandMapRHEL6, Listed x.2 := by
  unfold commandMapRHEL6
  simp only [List.forall_mem_cons]
  exact ⟨listed_FC3_Authconfig, listed_FC3_Authconfig, listed_RHEL6_AutoPart, listed_FC3_AutoStep, listed_RHEL6_Bootloader, listed_FC3_Cdrom, listed_FC3_ClearPart, listed_FC3_DisplayMode, listed_F8_Device_F8_DeviceData, listed_FC3_DeviceProbe, listed_FC6_DmRaid_FC6_DmRaidData, listed_F12_DriverDisk_F12_DriverDiskData, listed_F13_Fcoe_F13_FcoeData, listed_F10_Firewall, listed_FC3_Firstboot, listed_FC3_DisplayMode, listed_F12_Group_F12_GroupData, listed_FC6_Reboot, listed_FC3_HardDrive, listed_RHEL6_IgnoreDisk, listed_F11_Upgrade, listed_FC3_Interactive, listed_RHEL6_Iscsi_RHEL6_IscsiData, listed_FC6_IscsiName, listed_RHEL5_Key, listed_FC3_Keyboard, listed_FC3_Lang, listed_FC6_Logging, listed_RHEL6_LogVol_RHEL6_LogVolData, listed_FC4_MediaCheck, listed_RHEL6_Method, listed_F10_Monitor, listed_FC6_MultiPath_FC6_MultiPathData, listed_RHEL6_Network_RHEL6_NetworkData, listed_FC6_NFS, listed_RHEL6_Partition_RHEL6_PartData, listed_RHEL6_Partition_RHEL6_PartData, listed_FC6_Reboot, listed_RHEL6_Raid_RHEL6_RaidData, listed_FC6_Reboot, listed_RHEL6_Repo_RHEL6_RepoData, listed_F10_Rescue, listed_F8_RootPw, listed_FC3_SELinux, listed_FC6_Services, listed_FC6_Reboot, listed_FC3_SkipX, listed_F13_SshPw_F13_SshPwData, listed_FC3_DisplayMode, listed_FC6_Timezone, listed_RHEL6_UnsupportedHardware, listed_F7_Updates, listed_F11_Upgrade, listed_RHEL6_Url, listed_F12_User_F12_UserData, listed_F9_Vnc, listed_F16_VolGroup_F16_VolGroupData, listed_F10_XConfig, listed_F9_ZeroMbr, listed_F12_ZFCP_F12_ZFCPData, List.forall_mem_nil _⟩

theorem commandMapRHEL7_listed : ∀ x ∈ commandMapRHEL7, Listed x.2 := by
  unfold commandMapRHEL7
  simp only [List.forall_mem_cons]
  exact ⟨listed_FC3_Authconfig, listed_FC3_Authconfig, listed_RHEL7_AutoPart, listed_FC3_AutoStep, listed_RHEL7_Bootloader, listed_RHEL7_BTRFS_RHEL7_BTRFSData, listed_FC3_Cdrom, listed_RHEL7_ClearPart, listed_FC3_DisplayMode, listed_F8_Device_F8_DeviceData, listed_FC3_DeviceProbe, listed_FC6_DmRaid_FC6_DmRaidData, listed_F14_DriverDisk_F14_DriverDiskData, listed_F20_Eula, listed_RHEL7_Fcoe_RHEL7_FcoeData, listed_F20_Firewall, listed_FC3_Firstboot, listed_FC3_DisplayMode, listed_F12_Group_F12_GroupData, listed_F18_Reboot, listed_FC3_HardDrive, listed_RHEL7_Hmc, listed_F14_IgnoreDisk, listed_F11_Upgrade, listed_F17_Iscsi_F17_IscsiData, listed_FC6_IscsiName, listed_F18_Keyboard, listed_F19_Lang, listed_F19_Liveimg, listed_FC6_Logging, listed_RHEL7_LogVol_RHEL7_LogVolData, listed_FC4_MediaCheck, listed_RHEL7_Method, listed_FC6_MultiPath_FC6_MultiPathData, listed_RHEL7_Network_RHEL7_NetworkData, listed_FC6_NFS, listed_F28_Nvdimm_F28_NvdimmData, listed_RHEL7_OSTreeSetup, listed_RHEL7_Partition_RHEL7_PartData, listed_RHEL7_Partition_RHEL7_PartData, listed_F18_Reboot, listed_RHEL7_Raid_RHEL7_RaidData, listed_F19_Realm, listed_F18_Reboot, listed_RHEL7_Repo_RHEL7_RepoData, listed_RHEL7_ReqPart, listed_F10_Rescue, listed_F18_RootPw, listed_FC3_SELinux, listed_FC6_Services, listed_F18_Reboot, listed_FC3_SkipX, listed_F26_Snapshot_F26_SnapshotData, listed_F13_SshPw_F13_SshPwData, listed_FC3_DisplayMode, listed_RHEL7_Timezone, listed_RHEL6_UnsupportedHardware, listed_F7_Updates, listed_F20_Upgrade, listed_F18_Url, listed_F19_User_F19_UserData, listed_F9_Vnc, listed_RHEL7_VolGroup_RHEL7_VolGroupData, listed_F14_XConfig, listed_F9_ZeroMbr, listed_F14_ZFCP_F14_ZFCPData, List.forall_mem_nil _⟩

theorem commandMapRHEL8_listed : ∀ x ∈ commandMapRHEL8, Listed x.2 := by
  unfold commandMapRHEL8
  simp only [List.forall_mem_cons]
  exact ⟨listed_F28_Authconfig, listed_F28_Authconfig, listed_F28_Authselect, listed_RHEL8_AutoPart, listed_FC3_AutoStep, listed_RHEL8_Bootloader, listed_RHEL8_BTRFS, listed_FC3_Cdrom, listed_F28_ClearPart, listed_F26_DisplayMode, listed_F24_Device, listed_F29_DeviceProbe, listed_F24_DmRaid, listed_F14_DriverDisk_F14_DriverDiskData, listed_RHEL8_Module_RHEL8_ModuleData, listed_F20_Eula, listed_RHEL8_Fcoe_RHEL8_FcoeData, listed_F28_Firewall, listed_FC3_Firstboot, listed_F26_DisplayMode, listed_F12_Group_F12_GroupData, listed_F23_Reboot, listed_FC3_HardDrive, listed_F28_Hmc, listed_F29_IgnoreDisk, listed_F29_Install, listed_F17_Iscsi_F17_IscsiData, listed_FC6_IscsiName, listed_F18_Keyboard, listed_F19_Lang, listed_F19_Liveimg, listed_FC6_Logging, listed_RHEL8_LogVol_RHEL8_LogVolData, listed_FC4_MediaCheck, listed_F28_Method, listed_F27_Mount_F27_MountData, listed_F24_MultiPath, listed_F27_Network_F27_NetworkData, listed_FC6_NFS, listed_F28_Nvdimm_F28_NvdimmData, listed_RHEL8_OSTreeSetup, listed_RHEL8_Partition_RHEL8_PartData, listed_RHEL8_Partition_RHEL8_PartData, listed_F23_Reboot, listed_RHEL8_Raid_RHEL8_RaidData, listed_F19_Realm, listed_F23_Reboot, listed_RHEL8_Repo_RHEL8_RepoData, listed_F23_ReqPart, listed_F10_Rescue, listed_RHEL8_RHSM, listed_F18_RootPw, listed_FC3_SELinux, listed_FC6_Services, listed_F23_Reboot, listed_FC3_SkipX, listed_F26_Snapshot_F26_SnapshotData, listed_F24_SshPw_F24_SshPwData, listed_F22_SshKey_F22_SshKeyData, listed_RHEL8_Syspurpose, listed_F26_DisplayMode, listed_F25_Timezone, listed_F7_Updates, listed_RHEL8_Url, listed_F24_User_F19_UserData, listed_F9_Vnc, listed_RHEL8_VolGroup_RHEL8_VolGroupData, listed_F14_XConfig, listed_F9_ZeroMbr, listed_F14_ZFCP_F14_ZFCPData, listed_RHEL8_Zipl, List.forall_mem_nil _⟩

theorem commandMaps_listed : ∀ y ∈ commandMaps, ∀ x ∈ y.2, Listed x.2 := by
  unfold commandMaps
  simp only [List.forall_mem_cons]
  exact ⟨commandMapF10_listed, commandMapF11_listed, commandMapF12_listed, commandMapF13_listed, commandMapF14_listed, commandMapF15_listed, commandMapF16_listed, commandMapF17_listed, commandMapF18_listed, commandMapF19_listed, commandMapF20_listed, commandMapF21_listed, commandMapF22_listed, commandMapF23_listed, commandMapF24_listed, commandMapF25_listed, commandMapF26_listed, commandMapF27_listed, commandMapF28_listed, commandMapF29_listed, commandMapF30_listed, commandMapF31_listed, commandMapF32_listed, commandMapF33_listed, commandMapF34_listed, commandMapF7_listed, commandMapF8_listed, commandMapF9_listed, commandMapFC3_listed, commandMapFC4_listed, commandMapFC5_listed, commandMapFC6_listed, commandMapRHEL3_listed, commandMapRHEL4_listed, commandMapRHEL5_listed, commandMapRHEL6_listed, commandMapRHEL7_listed, commandMapRHEL8_listed, List.forall_mem_nil _⟩

end Ks.Cmd
