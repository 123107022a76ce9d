import Verif.Commands.Classes
/-!
# Which exceptions the commands of each version raise

Written by `scripts/gen_ok.py`.
-/
namespace Ks.Cmd

theorem commandMapF10_ok : ∀ x ∈ commandMapF10, ∃ I, x.2.Ok I (Allowed Version.F10 x.1) := by
  unfold commandMapF10
  simp only [List.forall_mem_cons]
  exact ⟨⟨_, allow_parse ok_FC3_Authconfig⟩,
    ⟨_, allow_parse ok_FC3_Authconfig⟩,
    ⟨_, allow_parse ok_F9_AutoPart⟩,
    ⟨_, allow_parse ok_FC3_AutoStep⟩,
    ⟨_, allow_parse ok_F8_Bootloader⟩,
    ⟨_, allow_parse ok_FC3_Cdrom⟩,
    ⟨_, allow_parse ok_FC3_ClearPart⟩,
    ⟨_, allow_parse ok_FC3_DisplayMode⟩,
    ⟨_, allow_parse ok_F8_Device_F8_DeviceData⟩,
    ⟨_, allow_parse ok_FC3_DeviceProbe⟩,
    ⟨_, allow_parse ok_FC6_DmRaid_FC6_DmRaidData⟩,
    ⟨_, allow_parse ok_FC4_DriverDisk_FC4_DriverDiskData⟩,
    ⟨_, allow_parse ok_F10_Firewall⟩,
    ⟨_, allow_parse ok_FC3_Firstboot⟩,
    ⟨_, allow_parse ok_FC3_DisplayMode⟩,
    ⟨_, allow_parse ok_FC6_Reboot⟩,
    ⟨_, allow_parse ok_FC3_HardDrive⟩,
    ⟨_, allow_parse ok_F8_IgnoreDisk⟩,
    ⟨_, allow_parse ok_FC3_Upgrade⟩,
    ⟨_, allow_parse ok_FC3_Interactive⟩,
    ⟨_, allow_parse ok_F10_Iscsi_F10_IscsiData⟩,
    ⟨_, allow_parse ok_FC6_IscsiName⟩,
    ⟨_, allow_parse ok_FC3_Keyboard⟩,
    ⟨_, allow_parse ok_FC3_Lang⟩,
    ⟨_, allow_parse ok_FC6_Logging⟩,
    ⟨_, allow_parse ok_F9_LogVol_F9_LogVolData⟩,
    ⟨_, allow_parse ok_FC4_MediaCheck⟩,
    ⟨_, allow_method (by decide) ok_FC6_Method⟩,
    ⟨_, allow_parse ok_F10_Monitor⟩,
    ⟨_, allow_multipath (by decide) ok_FC6_MultiPath_FC6_MultiPathData⟩,
    ⟨_, allow_parse ok_F9_Network_F8_NetworkData⟩,
    ⟨_, allow_parse ok_FC6_NFS⟩,
    ⟨_, allow_parse ok_F9_Partition_F9_PartData⟩,
    ⟨_, allow_parse ok_F9_Partition_F9_PartData⟩,
    ⟨_, allow_parse ok_FC6_Reboot⟩,
    ⟨_, allow_raid (by decide) ok_F9_Raid_F9_RaidData⟩,
    ⟨_, allow_parse ok_FC6_Reboot⟩,
    ⟨_, allow_parse ok_F8_Repo_F8_RepoData⟩,
    ⟨_, allow_parse ok_F10_Rescue⟩,
    ⟨_, allow_parse ok_F8_RootPw⟩,
    ⟨_, allow_parse ok_FC3_SELinux⟩,
    ⟨_, allow_parse ok_FC6_Services⟩,
    ⟨_, allow_parse ok_FC6_Reboot⟩,
    ⟨_, allow_parse ok_FC3_SkipX⟩,
    ⟨_, allow_parse ok_FC3_DisplayMode⟩,
    ⟨_, allow_parse ok_FC6_Timezone⟩,
    ⟨_, allow_parse ok_F7_Updates⟩,
    ⟨_, allow_parse ok_FC3_Upgrade⟩,
    ⟨_, allow_parse ok_FC3_Url⟩,
    ⟨_, allow_parse ok_F8_User_F8_UserData⟩,
    ⟨_, allow_parse ok_F9_Vnc⟩,
    ⟨_, allow_parse ok_FC3_VolGroup_FC3_VolGroupData⟩,
    ⟨_, allow_parse ok_F10_XConfig⟩,
    ⟨_, allow_parse ok_F9_ZeroMbr⟩,
    ⟨_, allow_parse ok_FC3_ZFCP_FC3_ZFCPData⟩,
    List.forall_mem_nil _⟩

def classesF10 : List Command := [FC3_Authconfig.cls, F9_AutoPart.cls, FC3_AutoStep.cls, F8_Bootloader.cls, FC3_Cdrom.cls, FC3_ClearPart.cls, FC3_DisplayMode.cls, F8_Device.cls F8_DeviceData.cls, FC3_DeviceProbe.cls, FC6_DmRaid.cls FC6_DmRaidData.cls, FC4_DriverDisk.cls FC4_DriverDiskData.cls, F10_Firewall.cls, FC3_Firstboot.cls, FC6_Reboot.cls, FC3_HardDrive.cls, F8_IgnoreDisk.cls, FC3_Upgrade.cls, FC3_Interactive.cls, F10_Iscsi.cls F10_IscsiData.cls, FC6_IscsiName.cls, FC3_Keyboard.cls, FC3_Lang.cls, FC6_Logging.cls, F9_LogVol.cls F9_LogVolData.cls, FC4_MediaCheck.cls, FC6_Method.cls, F10_Monitor.cls, FC6_MultiPath.cls FC6_MultiPathData.cls, F9_Network.cls F8_NetworkData.cls, FC6_NFS.cls, F9_Partition.cls F9_PartData.cls, F9_Raid.cls F9_RaidData.cls, F8_Repo.cls F8_RepoData.cls, F10_Rescue.cls, F8_RootPw.cls, FC3_SELinux.cls, FC6_Services.cls, FC3_SkipX.cls, FC6_Timezone.cls, F7_Updates.cls, FC3_Url.cls, F8_User.cls F8_UserData.cls, F9_Vnc.cls, FC3_VolGroup.cls FC3_VolGroupData.cls, F10_XConfig.cls, F9_ZeroMbr.cls, FC3_ZFCP.cls FC3_ZFCPData.cls]

theorem commandMapF10_mapOk : MapOk Version.F10 commandMapF10 where
  dict := nodup_codes (by decide +kernel)
  classes := ⟨classesF10, [c!"FC3_Authconfig", c!"F9_AutoPart", c!"FC3_AutoStep", c!"F8_Bootloader", c!"FC3_Cdrom", c!"FC3_ClearPart", c!"FC3_DisplayMode", c!"F8_Device", c!"FC3_DeviceProbe", c!"FC6_DmRaid", c!"FC4_DriverDisk", c!"F10_Firewall", c!"FC3_Firstboot", c!"FC6_Reboot", c!"FC3_HardDrive", c!"F8_IgnoreDisk", c!"FC3_Upgrade", c!"FC3_Interactive", c!"F10_Iscsi", c!"FC6_IscsiName", c!"FC3_Keyboard", c!"FC3_Lang", c!"FC6_Logging", c!"F9_LogVol", c!"FC4_MediaCheck", c!"FC6_Method", c!"F10_Monitor", c!"FC6_MultiPath", c!"F9_Network", c!"FC6_NFS", c!"F9_Partition", c!"F9_Raid", c!"F8_Repo", c!"F10_Rescue", c!"F8_RootPw", c!"FC3_SELinux", c!"FC6_Services", c!"FC3_SkipX", c!"FC6_Timezone", c!"F7_Updates", c!"FC3_Url", c!"F8_User", c!"F9_Vnc", c!"FC3_VolGroup", c!"F10_XConfig", c!"F9_ZeroMbr", c!"FC3_ZFCP"], [c!"authconfig", c!"autopart", c!"autostep", c!"bootloader", c!"cdrom", c!"clearpart", c!"displaymode", c!"device", c!"deviceprobe", c!"dmraid", c!"driverdisk", c!"firewall", c!"firstboot", c!"reboot", c!"harddrive", c!"ignoredisk", c!"upgrade", c!"interactive", c!"iscsi", c!"iscsiname", c!"keyboard", c!"lang", c!"logging", c!"logvol", c!"mediacheck", c!"method", c!"monitor", c!"multipath", c!"network", c!"nfs", c!"partition", c!"raid", c!"repo", c!"rescue", c!"rootpw", c!"selinux", c!"services", c!"skipx", c!"timezone", c!"updates", c!"url", c!"user", c!"vnc", c!"volgroup", c!"xconfig", c!"zerombr", c!"zfcp"], rfl, by decide +kernel, nodup_codes (by decide +kernel), nodup_codes (by decide +kernel), by
    unfold commandMapF10
    exact (forall_mem_cons' (mem_at 0 rfl) (forall_mem_cons' (mem_at 0 rfl) (forall_mem_cons' (mem_at 1 rfl) (forall_mem_cons' (mem_at 2 rfl) (forall_mem_cons' (mem_at 3 rfl) (forall_mem_cons' (mem_at 4 rfl) (forall_mem_cons' (mem_at 5 rfl) (forall_mem_cons' (mem_at 6 rfl) (forall_mem_cons' (mem_at 7 rfl) (forall_mem_cons' (mem_at 8 rfl) (forall_mem_cons' (mem_at 9 rfl) (forall_mem_cons' (mem_at 10 rfl) (forall_mem_cons' (mem_at 11 rfl) (forall_mem_cons' (mem_at 12 rfl) (forall_mem_cons' (mem_at 6 rfl) (forall_mem_cons' (mem_at 13 rfl) (forall_mem_cons' (mem_at 14 rfl) (forall_mem_cons' (mem_at 15 rfl) (forall_mem_cons' (mem_at 16 rfl) (forall_mem_cons' (mem_at 17 rfl) (forall_mem_cons' (mem_at 18 rfl) (forall_mem_cons' (mem_at 19 rfl) (forall_mem_cons' (mem_at 20 rfl) (forall_mem_cons' (mem_at 21 rfl) (forall_mem_cons' (mem_at 22 rfl) (forall_mem_cons' (mem_at 23 rfl) (forall_mem_cons' (mem_at 24 rfl) (forall_mem_cons' (mem_at 25 rfl) (forall_mem_cons' (mem_at 26 rfl) (forall_mem_cons' (mem_at 27 rfl) (forall_mem_cons' (mem_at 28 rfl) (forall_mem_cons' (mem_at 29 rfl) (forall_mem_cons' (mem_at 30 rfl) (forall_mem_cons' (mem_at 30 rfl) (forall_mem_cons' (mem_at 13 rfl) (forall_mem_cons' (mem_at 31 rfl) (forall_mem_cons' (mem_at 13 rfl) (forall_mem_cons' (mem_at 32 rfl) (forall_mem_cons' (mem_at 33 rfl) (forall_mem_cons' (mem_at 34 rfl) (forall_mem_cons' (mem_at 35 rfl) (forall_mem_cons' (mem_at 36 rfl) (forall_mem_cons' (mem_at 13 rfl) (forall_mem_cons' (mem_at 37 rfl) (forall_mem_cons' (mem_at 6 rfl) (forall_mem_cons' (mem_at 38 rfl) (forall_mem_cons' (mem_at 39 rfl) (forall_mem_cons' (mem_at 16 rfl) (forall_mem_cons' (mem_at 40 rfl) (forall_mem_cons' (mem_at 41 rfl) (forall_mem_cons' (mem_at 42 rfl) (forall_mem_cons' (mem_at 43 rfl) (forall_mem_cons' (mem_at 44 rfl) (forall_mem_cons' (mem_at 45 rfl) (forall_mem_cons' (mem_at 46 rfl) (List.forall_mem_nil _))))))))))))))))))))))))))))))))))))))))))))))))))))))))⟩
  storage := by decide +kernel
  ok := commandMapF10_ok

theorem commandMapF11_ok : ∀ x ∈ commandMapF11, ∃ I, x.2.Ok I (Allowed Version.F11 x.1) := by
  unfold commandMapF11
  simp only [List.forall_mem_cons]
  exact ⟨⟨_, allow_parse ok_FC3_Authconfig⟩,
    ⟨_, allow_parse ok_FC3_Authconfig⟩,
    ⟨_, allow_parse ok_F9_AutoPart⟩,
    ⟨_, allow_parse ok_FC3_AutoStep⟩,
    ⟨_, allow_parse ok_F8_Bootloader⟩,
    ⟨_, allow_parse ok_FC3_Cdrom⟩,
    ⟨_, allow_parse ok_FC3_ClearPart⟩,
    ⟨_, allow_parse ok_FC3_DisplayMode⟩,
    ⟨_, allow_parse ok_F8_Device_F8_DeviceData⟩,
    ⟨_, allow_parse ok_FC3_DeviceProbe⟩,
    ⟨_, allow_parse ok_FC6_DmRaid_FC6_DmRaidData⟩,
    ⟨_, allow_parse ok_FC4_DriverDisk_FC4_DriverDiskData⟩,
    ⟨_, allow_parse ok_F10_Firewall⟩,
    ⟨_, allow_parse ok_FC3_Firstboot⟩,
    ⟨_, allow_parse ok_FC3_DisplayMode⟩,
    ⟨_, allow_parse ok_FC6_Reboot⟩,
    ⟨_, allow_parse ok_FC3_HardDrive⟩,
    ⟨_, allow_parse ok_F8_IgnoreDisk⟩,
    ⟨_, allow_parse ok_F11_Upgrade⟩,
    ⟨_, allow_parse ok_FC3_Interactive⟩,
    ⟨_, allow_parse ok_F10_Iscsi_F10_IscsiData⟩,
    ⟨_, allow_parse ok_FC6_IscsiName⟩,
    ⟨_, allow_parse ok_FC3_Keyboard⟩,
    ⟨_, allow_parse ok_FC3_Lang⟩,
    ⟨_, allow_parse ok_FC6_Logging⟩,
    ⟨_, allow_parse ok_F9_LogVol_F9_LogVolData⟩,
    ⟨_, allow_parse ok_FC4_MediaCheck⟩,
    ⟨_, allow_method (by decide) ok_FC6_Method⟩,
    ⟨_, allow_parse ok_F10_Monitor⟩,
    ⟨_, allow_multipath (by decide) ok_FC6_MultiPath_FC6_MultiPathData⟩,
    ⟨_, allow_parse ok_F9_Network_F8_NetworkData⟩,
    ⟨_, allow_parse ok_FC6_NFS⟩,
    ⟨_, allow_parse ok_F11_Partition_F11_PartData⟩,
    ⟨_, allow_parse ok_F11_Partition_F11_PartData⟩,
    ⟨_, allow_parse ok_FC6_Reboot⟩,
    ⟨_, allow_raid (by decide) ok_F9_Raid_F9_RaidData⟩,
    ⟨_, allow_parse ok_FC6_Reboot⟩,
    ⟨_, allow_parse ok_F11_Repo_F11_RepoData⟩,
    ⟨_, allow_parse ok_F10_Rescue⟩,
    ⟨_, allow_parse ok_F8_RootPw⟩,
    ⟨_, allow_parse ok_FC3_SELinux⟩,
    ⟨_, allow_parse ok_FC6_Services⟩,
    ⟨_, allow_parse ok_FC6_Reboot⟩,
    ⟨_, allow_parse ok_FC3_SkipX⟩,
    ⟨_, allow_parse ok_FC3_DisplayMode⟩,
    ⟨_, allow_parse ok_FC6_Timezone⟩,
    ⟨_, allow_parse ok_F7_Updates⟩,
    ⟨_, allow_parse ok_F11_Upgrade⟩,
    ⟨_, allow_parse ok_FC3_Url⟩,
    ⟨_, allow_parse ok_F8_User_F8_UserData⟩,
    ⟨_, allow_parse ok_F9_Vnc⟩,
    ⟨_, allow_parse ok_FC3_VolGroup_FC3_VolGroupData⟩,
    ⟨_, allow_parse ok_F10_XConfig⟩,
    ⟨_, allow_parse ok_F9_ZeroMbr⟩,
    ⟨_, allow_parse ok_FC3_ZFCP_FC3_ZFCPData⟩,
    List.forall_mem_nil _⟩

def classesF11 : List Command := [FC3_Authconfig.cls, F9_AutoPart.cls, FC3_AutoStep.cls, F8_Bootloader.cls, FC3_Cdrom.cls, FC3_ClearPart.cls, FC3_DisplayMode.cls, F8_Device.cls F8_DeviceData.cls, FC3_DeviceProbe.cls, FC6_DmRaid.cls FC6_DmRaidData.cls, FC4_DriverDisk.cls FC4_DriverDiskData.cls, F10_Firewall.cls, FC3_Firstboot.cls, FC6_Reboot.cls, FC3_HardDrive.cls, F8_IgnoreDisk.cls, F11_Upgrade.cls, FC3_Interactive.cls, F10_Iscsi.cls F10_IscsiData.cls, FC6_IscsiName.cls, FC3_Keyboard.cls, FC3_Lang.cls, FC6_Logging.cls, F9_LogVol.cls F9_LogVolData.cls, FC4_MediaCheck.cls, FC6_Method.cls, F10_Monitor.cls, FC6_MultiPath.cls FC6_MultiPathData.cls, F9_Network.cls F8_NetworkData.cls, FC6_NFS.cls, F11_Partition.cls F11_PartData.cls, F9_Raid.cls F9_RaidData.cls, F11_Repo.cls F11_RepoData.cls, F10_Rescue.cls, F8_RootPw.cls, FC3_SELinux.cls, FC6_Services.cls, FC3_SkipX.cls, FC6_Timezone.cls, F7_Updates.cls, FC3_Url.cls, F8_User.cls F8_UserData.cls, F9_Vnc.cls, FC3_VolGroup.cls FC3_VolGroupData.cls, F10_XConfig.cls, F9_ZeroMbr.cls, FC3_ZFCP.cls FC3_ZFCPData.cls]

theorem commandMapF11_mapOk : MapOk Version.F11 commandMapF11 where
  dict := nodup_codes (by decide +kernel)
  classes := ⟨classesF11, [c!"FC3_Authconfig", c!"F9_AutoPart", c!"FC3_AutoStep", c!"F8_Bootloader", c!"FC3_Cdrom", c!"FC3_ClearPart", c!"FC3_DisplayMode", c!"F8_Device", c!"FC3_DeviceProbe", c!"FC6_DmRaid", c!"FC4_DriverDisk", c!"F10_Firewall", c!"FC3_Firstboot", c!"FC6_Reboot", c!"FC3_HardDrive", c!"F8_IgnoreDisk", c!"F11_Upgrade", c!"FC3_Interactive", c!"F10_Iscsi", c!"FC6_IscsiName", c!"FC3_Keyboard", c!"FC3_Lang", c!"FC6_Logging", c!"F9_LogVol", c!"FC4_MediaCheck", c!"FC6_Method", c!"F10_Monitor", c!"FC6_MultiPath", c!"F9_Network", c!"FC6_NFS", c!"F11_Partition", c!"F9_Raid", c!"F11_Repo", c!"F10_Rescue", c!"F8_RootPw", c!"FC3_SELinux", c!"FC6_Services", c!"FC3_SkipX", c!"FC6_Timezone", c!"F7_Updates", c!"FC3_Url", c!"F8_User", c!"F9_Vnc", c!"FC3_VolGroup", c!"F10_XConfig", c!"F9_ZeroMbr", c!"FC3_ZFCP"], [c!"authconfig", c!"autopart", c!"autostep", c!"bootloader", c!"cdrom", c!"clearpart", c!"displaymode", c!"device", c!"deviceprobe", c!"dmraid", c!"driverdisk", c!"firewall", c!"firstboot", c!"reboot", c!"harddrive", c!"ignoredisk", c!"upgrade", c!"interactive", c!"iscsi", c!"iscsiname", c!"keyboard", c!"lang", c!"logging", c!"logvol", c!"mediacheck", c!"method", c!"monitor", c!"multipath", c!"network", c!"nfs", c!"partition", c!"raid", c!"repo", c!"rescue", c!"rootpw", c!"selinux", c!"services", c!"skipx", c!"timezone", c!"updates", c!"url", c!"user", c!"vnc", c!"volgroup", c!"xconfig", c!"zerombr", c!"zfcp"], rfl, by decide +kernel, nodup_codes (by decide +kernel), nodup_codes (by decide +kernel), by
    unfold commandMapF11
    exact (forall_mem_cons' (mem_at 0 rfl) (forall_mem_cons' (mem_at 0 rfl) (forall_mem_cons' (mem_at 1 rfl) (forall_mem_cons' (mem_at 2 rfl) (forall_mem_cons' (mem_at 3 rfl) (forall_mem_cons' (mem_at 4 rfl) (forall_mem_cons' (mem_at 5 rfl) (forall_mem_cons' (mem_at 6 rfl) (forall_mem_cons' (mem_at 7 rfl) (forall_mem_cons' (mem_at 8 rfl) (forall_mem_cons' (mem_at 9 rfl) (forall_mem_cons' (mem_at 10 rfl) (forall_mem_cons' (mem_at 11 rfl) (forall_mem_cons' (mem_at 12 rfl) (forall_mem_cons' (mem_at 6 rfl) (forall_mem_cons' (mem_at 13 rfl) (forall_mem_cons' (mem_at 14 rfl) (forall_mem_cons' (mem_at 15 rfl) (forall_mem_cons' (mem_at 16 rfl) (forall_mem_cons' (mem_at 17 rfl) (forall_mem_cons' (mem_at 18 rfl) (forall_mem_cons' (mem_at 19 rfl) (forall_mem_cons' (mem_at 20 rfl) (forall_mem_cons' (mem_at 21 rfl) (forall_mem_cons' (mem_at 22 rfl) (forall_mem_cons' (mem_at 23 rfl) (forall_mem_cons' (mem_at 24 rfl) (forall_mem_cons' (mem_at 25 rfl) (forall_mem_cons' (mem_at 26 rfl) (forall_mem_cons' (mem_at 27 rfl) (forall_mem_cons' (mem_at 28 rfl) (forall_mem_cons' (mem_at 29 rfl) (forall_mem_cons' (mem_at 30 rfl) (forall_mem_cons' (mem_at 30 rfl) (forall_mem_cons' (mem_at 13 rfl) (forall_mem_cons' (mem_at 31 rfl) (forall_mem_cons' (mem_at 13 rfl) (forall_mem_cons' (mem_at 32 rfl) (forall_mem_cons' (mem_at 33 rfl) (forall_mem_cons' (mem_at 34 rfl) (forall_mem_cons' (mem_at 35 rfl) (forall_mem_cons' (mem_at 36 rfl) (forall_mem_cons' (mem_at 13 rfl) (forall_mem_cons' (mem_at 37 rfl) (forall_mem_cons' (mem_at 6 rfl) (forall_mem_cons' (mem_at 38 rfl) (forall_mem_cons' (mem_at 39 rfl) (forall_mem_cons' (mem_at 16 rfl) (forall_mem_cons' (mem_at 40 rfl) (forall_mem_cons' (mem_at 41 rfl) (forall_mem_cons' (mem_at 42 rfl) (forall_mem_cons' (mem_at 43 rfl) (forall_mem_cons' (mem_at 44 rfl) (forall_mem_cons' (mem_at 45 rfl) (forall_mem_cons' (mem_at 46 rfl) (List.forall_mem_nil _))))))))))))))))))))))))))))))))))))))))))))))))))))))))⟩
  storage := by decide +kernel
  ok := commandMapF11_ok

theorem commandMapF12_ok : ∀ x ∈ commandMapF12, ∃ I, x.2.Ok I (Allowed Version.F12 x.1) := by
  unfold commandMapF12
  simp only [List.forall_mem_cons]
  exact ⟨⟨_, allow_parse ok_FC3_Authconfig⟩,
    ⟨_, allow_parse ok_FC3_Authconfig⟩,
    ⟨_, allow_parse ok_F12_AutoPart⟩,
    ⟨_, allow_parse ok_FC3_AutoStep⟩,
    ⟨_, allow_parse ok_F12_Bootloader⟩,
    ⟨_, allow_parse ok_FC3_Cdrom⟩,
    ⟨_, allow_parse ok_FC3_ClearPart⟩,
    ⟨_, allow_parse ok_FC3_DisplayMode⟩,
    ⟨_, allow_parse ok_F8_Device_F8_DeviceData⟩,
    ⟨_, allow_parse ok_FC3_DeviceProbe⟩,
    ⟨_, allow_parse ok_FC6_DmRaid_FC6_DmRaidData⟩,
    ⟨_, allow_parse ok_F12_DriverDisk_F12_DriverDiskData⟩,
    ⟨_, allow_parse ok_F12_Fcoe_F12_FcoeData⟩,
    ⟨_, allow_parse ok_F10_Firewall⟩,
    ⟨_, allow_parse ok_FC3_Firstboot⟩,
    ⟨_, allow_parse ok_FC3_DisplayMode⟩,
    ⟨_, allow_parse ok_F12_Group_F12_GroupData⟩,
    ⟨_, allow_parse ok_FC6_Reboot⟩,
    ⟨_, allow_parse ok_FC3_HardDrive⟩,
    ⟨_, allow_parse ok_F8_IgnoreDisk⟩,
    ⟨_, allow_parse ok_F11_Upgrade⟩,
    ⟨_, allow_parse ok_FC3_Interactive⟩,
    ⟨_, allow_parse ok_F10_Iscsi_F10_IscsiData⟩,
    ⟨_, allow_parse ok_FC6_IscsiName⟩,
    ⟨_, allow_parse ok_FC3_Keyboard⟩,
    ⟨_, allow_parse ok_FC3_Lang⟩,
    ⟨_, allow_parse ok_FC6_Logging⟩,
    ⟨_, allow_parse ok_F12_LogVol_F12_LogVolData⟩,
    ⟨_, allow_parse ok_FC4_MediaCheck⟩,
    ⟨_, allow_method (by decide) ok_FC6_Method⟩,
    ⟨_, allow_parse ok_F10_Monitor⟩,
    ⟨_, allow_multipath (by decide) ok_FC6_MultiPath_FC6_MultiPathData⟩,
    ⟨_, allow_parse ok_F9_Network_F8_NetworkData⟩,
    ⟨_, allow_parse ok_FC6_NFS⟩,
    ⟨_, allow_parse ok_F12_Partition_F12_PartData⟩,
    ⟨_, allow_parse ok_F12_Partition_F12_PartData⟩,
    ⟨_, allow_parse ok_FC6_Reboot⟩,
    ⟨_, allow_raid (by decide) ok_F12_Raid_F12_RaidData⟩,
    ⟨_, allow_parse ok_FC6_Reboot⟩,
    ⟨_, allow_parse ok_F11_Repo_F11_RepoData⟩,
    ⟨_, allow_parse ok_F10_Rescue⟩,
    ⟨_, allow_parse ok_F8_RootPw⟩,
    ⟨_, allow_parse ok_FC3_SELinux⟩,
    ⟨_, allow_parse ok_FC6_Services⟩,
    ⟨_, allow_parse ok_FC6_Reboot⟩,
    ⟨_, allow_parse ok_FC3_SkipX⟩,
    ⟨_, allow_parse ok_FC3_DisplayMode⟩,
    ⟨_, allow_parse ok_FC6_Timezone⟩,
    ⟨_, allow_parse ok_F7_Updates⟩,
    ⟨_, allow_parse ok_F11_Upgrade⟩,
    ⟨_, allow_parse ok_FC3_Url⟩,
    ⟨_, allow_parse ok_F12_User_F12_UserData⟩,
    ⟨_, allow_parse ok_F9_Vnc⟩,
    ⟨_, allow_parse ok_FC3_VolGroup_FC3_VolGroupData⟩,
    ⟨_, allow_parse ok_F10_XConfig⟩,
    ⟨_, allow_parse ok_F9_ZeroMbr⟩,
    ⟨_, allow_parse ok_F12_ZFCP_F12_ZFCPData⟩,
    List.forall_mem_nil _⟩

def classesF12 : List Command := [FC3_Authconfig.cls, F12_AutoPart.cls, FC3_AutoStep.cls, F12_Bootloader.cls, FC3_Cdrom.cls, FC3_ClearPart.cls, FC3_DisplayMode.cls, F8_Device.cls F8_DeviceData.cls, FC3_DeviceProbe.cls, FC6_DmRaid.cls FC6_DmRaidData.cls, F12_DriverDisk.cls F12_DriverDiskData.cls, F12_Fcoe.cls F12_FcoeData.cls, F10_Firewall.cls, FC3_Firstboot.cls, F12_Group.cls F12_GroupData.cls, FC6_Reboot.cls, FC3_HardDrive.cls, F8_IgnoreDisk.cls, F11_Upgrade.cls, FC3_Interactive.cls, F10_Iscsi.cls F10_IscsiData.cls, FC6_IscsiName.cls, FC3_Keyboard.cls, FC3_Lang.cls, FC6_Logging.cls, F12_LogVol.cls F12_LogVolData.cls, FC4_MediaCheck.cls, FC6_Method.cls, F10_Monitor.cls, FC6_MultiPath.cls FC6_MultiPathData.cls, F9_Network.cls F8_NetworkData.cls, FC6_NFS.cls, F12_Partition.cls F12_PartData.cls, F12_Raid.cls F12_RaidData.cls, F11_Repo.cls F11_RepoData.cls, F10_Rescue.cls, F8_RootPw.cls, FC3_SELinux.cls, FC6_Services.cls, FC3_SkipX.cls, FC6_Timezone.cls, F7_Updates.cls, FC3_Url.cls, F12_User.cls F12_UserData.cls, F9_Vnc.cls, FC3_VolGroup.cls FC3_VolGroupData.cls, F10_XConfig.cls, F9_ZeroMbr.cls, F12_ZFCP.cls F12_ZFCPData.cls]

theorem commandMapF12_mapOk : MapOk Version.F12 commandMapF12 where
  dict := nodup_codes (by decide +kernel)
  classes := ⟨classesF12, [c!"FC3_Authconfig", c!"F12_AutoPart", c!"FC3_AutoStep", c!"F12_Bootloader", c!"FC3_Cdrom", c!"FC3_ClearPart", c!"FC3_DisplayMode", c!"F8_Device", c!"FC3_DeviceProbe", c!"FC6_DmRaid", c!"F12_DriverDisk", c!"F12_Fcoe", c!"F10_Firewall", c!"FC3_Firstboot", c!"F12_Group", c!"FC6_Reboot", c!"FC3_HardDrive", c!"F8_IgnoreDisk", c!"F11_Upgrade", c!"FC3_Interactive", c!"F10_Iscsi", c!"FC6_IscsiName", c!"FC3_Keyboard", c!"FC3_Lang", c!"FC6_Logging", c!"F12_LogVol", c!"FC4_MediaCheck", c!"FC6_Method", c!"F10_Monitor", c!"FC6_MultiPath", c!"F9_Network", c!"FC6_NFS", c!"F12_Partition", c!"F12_Raid", c!"F11_Repo", c!"F10_Rescue", c!"F8_RootPw", c!"FC3_SELinux", c!"FC6_Services", c!"FC3_SkipX", c!"FC6_Timezone", c!"F7_Updates", c!"FC3_Url", c!"F12_User", c!"F9_Vnc", c!"FC3_VolGroup", c!"F10_XConfig", c!"F9_ZeroMbr", c!"F12_ZFCP"], [c!"authconfig", c!"autopart", c!"autostep", c!"bootloader", c!"cdrom", c!"clearpart", c!"displaymode", c!"device", c!"deviceprobe", c!"dmraid", c!"driverdisk", c!"fcoe", c!"firewall", c!"firstboot", c!"group", c!"reboot", c!"harddrive", c!"ignoredisk", c!"upgrade", c!"interactive", c!"iscsi", c!"iscsiname", c!"keyboard", c!"lang", c!"logging", c!"logvol", c!"mediacheck", c!"method", c!"monitor", c!"multipath", c!"network", c!"nfs", c!"partition", c!"raid", c!"repo", c!"rescue", c!"rootpw", c!"selinux", c!"services", c!"skipx", c!"timezone", c!"updates", c!"url", c!"user", c!"vnc", c!"volgroup", c!"xconfig", c!"zerombr", c!"zfcp"], rfl, by decide +kernel, nodup_codes (by decide +kernel), nodup_codes (by decide +kernel), by
    unfold commandMapF12
    exact (forall_mem_cons' (mem_at 0 rfl) (forall_mem_cons' (mem_at 0 rfl) (forall_mem_cons' (mem_at 1 rfl) (forall_mem_cons' (mem_at 2 rfl) (forall_mem_cons' (mem_at 3 rfl) (forall_mem_cons' (mem_at 4 rfl) (forall_mem_cons' (mem_at 5 rfl) (forall_mem_cons' (mem_at 6 rfl) (forall_mem_cons' (mem_at 7 rfl) (forall_mem_cons' (mem_at 8 rfl) (forall_mem_cons' (mem_at 9 rfl) (forall_mem_cons' (mem_at 10 rfl) (forall_mem_cons' (mem_at 11 rfl) (forall_mem_cons' (mem_at 12 rfl) (forall_mem_cons' (mem_at 13 rfl) (forall_mem_cons' (mem_at 6 rfl) (forall_mem_cons' (mem_at 14 rfl) (forall_mem_cons' (mem_at 15 rfl) (forall_mem_cons' (mem_at 16 rfl) (forall_mem_cons' (mem_at 17 rfl) (forall_mem_cons' (mem_at 18 rfl) (forall_mem_cons' (mem_at 19 rfl) (forall_mem_cons' (mem_at 20 rfl) (forall_mem_cons' (mem_at 21 rfl) (forall_mem_cons' (mem_at 22 rfl) (forall_mem_cons' (mem_at 23 rfl) (forall_mem_cons' (mem_at 24 rfl) (forall_mem_cons' (mem_at 25 rfl) (forall_mem_cons' (mem_at 26 rfl) (forall_mem_cons' (mem_at 27 rfl) (forall_mem_cons' (mem_at 28 rfl) (forall_mem_cons' (mem_at 29 rfl) (forall_mem_cons' (mem_at 30 rfl) (forall_mem_cons' (mem_at 31 rfl) (forall_mem_cons' (mem_at 32 rfl) (forall_mem_cons' (mem_at 32 rfl) (forall_mem_cons' (mem_at 15 rfl) (forall_mem_cons' (mem_at 33 rfl) (forall_mem_cons' (mem_at 15 rfl) (forall_mem_cons' (mem_at 34 rfl) (forall_mem_cons' (mem_at 35 rfl) (forall_mem_cons' (mem_at 36 rfl) (forall_mem_cons' (mem_at 37 rfl) (forall_mem_cons' (mem_at 38 rfl) (forall_mem_cons' (mem_at 15 rfl) (forall_mem_cons' (mem_at 39 rfl) (forall_mem_cons' (mem_at 6 rfl) (forall_mem_cons' (mem_at 40 rfl) (forall_mem_cons' (mem_at 41 rfl) (forall_mem_cons' (mem_at 18 rfl) (forall_mem_cons' (mem_at 42 rfl) (forall_mem_cons' (mem_at 43 rfl) (forall_mem_cons' (mem_at 44 rfl) (forall_mem_cons' (mem_at 45 rfl) (forall_mem_cons' (mem_at 46 rfl) (forall_mem_cons' (mem_at 47 rfl) (forall_mem_cons' (mem_at 48 rfl) (List.forall_mem_nil _))))))))))))))))))))))))))))))))))))))))))))))))))))))))))⟩
  storage := by decide +kernel
  ok := commandMapF12_ok

theorem commandMapF13_ok : ∀ x ∈ commandMapF13, ∃ I, x.2.Ok I (Allowed Version.F13 x.1) := by
  unfold commandMapF13
  simp only [List.forall_mem_cons]
  exact ⟨⟨_, allow_parse ok_FC3_Authconfig⟩,
    ⟨_, allow_parse ok_FC3_Authconfig⟩,
    ⟨_, allow_parse ok_F12_AutoPart⟩,
    ⟨_, allow_parse ok_FC3_AutoStep⟩,
    ⟨_, allow_parse ok_F12_Bootloader⟩,
    ⟨_, allow_parse ok_FC3_Cdrom⟩,
    ⟨_, allow_parse ok_FC3_ClearPart⟩,
    ⟨_, allow_parse ok_FC3_DisplayMode⟩,
    ⟨_, allow_parse ok_F8_Device_F8_DeviceData⟩,
    ⟨_, allow_parse ok_FC3_DeviceProbe⟩,
    ⟨_, allow_parse ok_FC6_DmRaid_FC6_DmRaidData⟩,
    ⟨_, allow_parse ok_F12_DriverDisk_F12_DriverDiskData⟩,
    ⟨_, allow_parse ok_F13_Fcoe_F13_FcoeData⟩,
    ⟨_, allow_parse ok_F10_Firewall⟩,
    ⟨_, allow_parse ok_FC3_Firstboot⟩,
    ⟨_, allow_parse ok_FC3_DisplayMode⟩,
    ⟨_, allow_parse ok_F12_Group_F12_GroupData⟩,
    ⟨_, allow_parse ok_FC6_Reboot⟩,
    ⟨_, allow_parse ok_FC3_HardDrive⟩,
    ⟨_, allow_parse ok_F8_IgnoreDisk⟩,
    ⟨_, allow_parse ok_F11_Upgrade⟩,
    ⟨_, allow_parse ok_FC3_Interactive⟩,
    ⟨_, allow_parse ok_F10_Iscsi_F10_IscsiData⟩,
    ⟨_, allow_parse ok_FC6_IscsiName⟩,
    ⟨_, allow_parse ok_FC3_Keyboard⟩,
    ⟨_, allow_parse ok_FC3_Lang⟩,
    ⟨_, allow_parse ok_FC6_Logging⟩,
    ⟨_, allow_parse ok_F12_LogVol_F12_LogVolData⟩,
    ⟨_, allow_parse ok_FC4_MediaCheck⟩,
    ⟨_, allow_method (by decide) ok_F13_Method⟩,
    ⟨_, allow_parse ok_F10_Monitor⟩,
    ⟨_, allow_multipath (by decide) ok_FC6_MultiPath_FC6_MultiPathData⟩,
    ⟨_, allow_parse ok_F9_Network_F8_NetworkData⟩,
    ⟨_, allow_parse ok_FC6_NFS⟩,
    ⟨_, allow_parse ok_F12_Partition_F12_PartData⟩,
    ⟨_, allow_parse ok_F12_Partition_F12_PartData⟩,
    ⟨_, allow_parse ok_FC6_Reboot⟩,
    ⟨_, allow_raid (by decide) ok_F13_Raid_F13_RaidData⟩,
    ⟨_, allow_parse ok_FC6_Reboot⟩,
    ⟨_, allow_parse ok_F13_Repo_F13_RepoData⟩,
    ⟨_, allow_parse ok_F10_Rescue⟩,
    ⟨_, allow_parse ok_F8_RootPw⟩,
    ⟨_, allow_parse ok_FC3_SELinux⟩,
    ⟨_, allow_parse ok_FC6_Services⟩,
    ⟨_, allow_parse ok_FC6_Reboot⟩,
    ⟨_, allow_parse ok_FC3_SkipX⟩,
    ⟨_, allow_parse ok_F13_SshPw_F13_SshPwData⟩,
    ⟨_, allow_parse ok_FC3_DisplayMode⟩,
    ⟨_, allow_parse ok_FC6_Timezone⟩,
    ⟨_, allow_parse ok_F7_Updates⟩,
    ⟨_, allow_parse ok_F11_Upgrade⟩,
    ⟨_, allow_parse ok_F13_Url⟩,
    ⟨_, allow_parse ok_F12_User_F12_UserData⟩,
    ⟨_, allow_parse ok_F9_Vnc⟩,
    ⟨_, allow_parse ok_FC3_VolGroup_FC3_VolGroupData⟩,
    ⟨_, allow_parse ok_F10_XConfig⟩,
    ⟨_, allow_parse ok_F9_ZeroMbr⟩,
    ⟨_, allow_parse ok_F12_ZFCP_F12_ZFCPData⟩,
    List.forall_mem_nil _⟩

def classesF13 : List Command := [FC3_Authconfig.cls, F12_AutoPart.cls, FC3_AutoStep.cls, F12_Bootloader.cls, FC3_Cdrom.cls, FC3_ClearPart.cls, FC3_DisplayMode.cls, F8_Device.cls F8_DeviceData.cls, FC3_DeviceProbe.cls, FC6_DmRaid.cls FC6_DmRaidData.cls, F12_DriverDisk.cls F12_DriverDiskData.cls, F13_Fcoe.cls F13_FcoeData.cls, F10_Firewall.cls, FC3_Firstboot.cls, F12_Group.cls F12_GroupData.cls, FC6_Reboot.cls, FC3_HardDrive.cls, F8_IgnoreDisk.cls, F11_Upgrade.cls, FC3_Interactive.cls, F10_Iscsi.cls F10_IscsiData.cls, FC6_IscsiName.cls, FC3_Keyboard.cls, FC3_Lang.cls, FC6_Logging.cls, F12_LogVol.cls F12_LogVolData.cls, FC4_MediaCheck.cls, F13_Method.cls, F10_Monitor.cls, FC6_MultiPath.cls FC6_MultiPathData.cls, F9_Network.cls F8_NetworkData.cls, FC6_NFS.cls, F12_Partition.cls F12_PartData.cls, F13_Raid.cls F13_RaidData.cls, F13_Repo.cls F13_RepoData.cls, F10_Rescue.cls, F8_RootPw.cls, FC3_SELinux.cls, FC6_Services.cls, FC3_SkipX.cls, F13_SshPw.cls F13_SshPwData.cls, FC6_Timezone.cls, F7_Updates.cls, F13_Url.cls, F12_User.cls F12_UserData.cls, F9_Vnc.cls, FC3_VolGroup.cls FC3_VolGroupData.cls, F10_XConfig.cls, F9_ZeroMbr.cls, F12_ZFCP.cls F12_ZFCPData.cls]

theorem commandMapF13_mapOk : MapOk Version.F13 commandMapF13 where
  dict := nodup_codes (by decide +kernel)
  classes := ⟨classesF13, [c!"FC3_Authconfig", c!"F12_AutoPart", c!"FC3_AutoStep", c!"F12_Bootloader", c!"FC3_Cdrom", c!"FC3_ClearPart", c!"FC3_DisplayMode", c!"F8_Device", c!"FC3_DeviceProbe", c!"FC6_DmRaid", c!"F12_DriverDisk", c!"F13_Fcoe", c!"F10_Firewall", c!"FC3_Firstboot", c!"F12_Group", c!"FC6_Reboot", c!"FC3_HardDrive", c!"F8_IgnoreDisk", c!"F11_Upgrade", c!"FC3_Interactive", c!"F10_Iscsi", c!"FC6_IscsiName", c!"FC3_Keyboard", c!"FC3_Lang", c!"FC6_Logging", c!"F12_LogVol", c!"FC4_MediaCheck", c!"F13_Method", c!"F10_Monitor", c!"FC6_MultiPath", c!"F9_Network", c!"FC6_NFS", c!"F12_Partition", c!"F13_Raid", c!"F13_Repo", c!"F10_Rescue", c!"F8_RootPw", c!"FC3_SELinux", c!"FC6_Services", c!"FC3_SkipX", c!"F13_SshPw", c!"FC6_Timezone", c!"F7_Updates", c!"F13_Url", c!"F12_User", c!"F9_Vnc", c!"FC3_VolGroup", c!"F10_XConfig", c!"F9_ZeroMbr", c!"F12_ZFCP"], [c!"authconfig", c!"autopart", c!"autostep", c!"bootloader", c!"cdrom", c!"clearpart", c!"displaymode", c!"device", c!"deviceprobe", c!"dmraid", c!"driverdisk", c!"fcoe", c!"firewall", c!"firstboot", c!"group", c!"reboot", c!"harddrive", c!"ignoredisk", c!"upgrade", c!"interactive", c!"iscsi", c!"iscsiname", c!"keyboard", c!"lang", c!"logging", c!"logvol", c!"mediacheck", c!"method", c!"monitor", c!"multipath", c!"network", c!"nfs", c!"partition", c!"raid", c!"repo", c!"rescue", c!"rootpw", c!"selinux", c!"services", c!"skipx", c!"sshpw", c!"timezone", c!"updates", c!"url", c!"user", c!"vnc", c!"volgroup", c!"xconfig", c!"zerombr", c!"zfcp"], rfl, by decide +kernel, nodup_codes (by decide +kernel), nodup_codes (by decide +kernel), by
    unfold commandMapF13
    exact (forall_mem_cons' (mem_at 0 rfl) (forall_mem_cons' (mem_at 0 rfl) (forall_mem_cons' (mem_at 1 rfl) (forall_mem_cons' (mem_at 2 rfl) (forall_mem_cons' (mem_at 3 rfl) (forall_mem_cons' (mem_at 4 rfl) (forall_mem_cons' (mem_at 5 rfl) (forall_mem_cons' (mem_at 6 rfl) (forall_mem_cons' (mem_at 7 rfl) (forall_mem_cons' (mem_at 8 rfl) (forall_mem_cons' (mem_at 9 rfl) (forall_mem_cons' (mem_at 10 rfl) (forall_mem_cons' (mem_at 11 rfl) (forall_mem_cons' (mem_at 12 rfl) (forall_mem_cons' (mem_at 13 rfl) (forall_mem_cons' (mem_at 6 rfl) (forall_mem_cons' (mem_at 14 rfl) (forall_mem_cons' (mem_at 15 rfl) (forall_mem_cons' (mem_at 16 rfl) (forall_mem_cons' (mem_at 17 rfl) (forall_mem_cons' (mem_at 18 rfl) (forall_mem_cons' (mem_at 19 rfl) (forall_mem_cons' (mem_at 20 rfl) (forall_mem_cons' (mem_at 21 rfl) (forall_mem_cons' (mem_at 22 rfl) (forall_mem_cons' (mem_at 23 rfl) (forall_mem_cons' (mem_at 24 rfl) (forall_mem_cons' (mem_at 25 rfl) (forall_mem_cons' (mem_at 26 rfl) (forall_mem_cons' (mem_at 27 rfl) (forall_mem_cons' (mem_at 28 rfl) (forall_mem_cons' (mem_at 29 rfl) (forall_mem_cons' (mem_at 30 rfl) (forall_mem_cons' (mem_at 31 rfl) (forall_mem_cons' (mem_at 32 rfl) (forall_mem_cons' (mem_at 32 rfl) (forall_mem_cons' (mem_at 15 rfl) (forall_mem_cons' (mem_at 33 rfl) (forall_mem_cons' (mem_at 15 rfl) (forall_mem_cons' (mem_at 34 rfl) (forall_mem_cons' (mem_at 35 rfl) (forall_mem_cons' (mem_at 36 rfl) (forall_mem_cons' (mem_at 37 rfl) (forall_mem_cons' (mem_at 38 rfl) (forall_mem_cons' (mem_at 15 rfl) (forall_mem_cons' (mem_at 39 rfl) (forall_mem_cons' (mem_at 40 rfl) (forall_mem_cons' (mem_at 6 rfl) (forall_mem_cons' (mem_at 41 rfl) (forall_mem_cons' (mem_at 42 rfl) (forall_mem_cons' (mem_at 18 rfl) (forall_mem_cons' (mem_at 43 rfl) (forall_mem_cons' (mem_at 44 rfl) (forall_mem_cons' (mem_at 45 rfl) (forall_mem_cons' (mem_at 46 rfl) (forall_mem_cons' (mem_at 47 rfl) (forall_mem_cons' (mem_at 48 rfl) (forall_mem_cons' (mem_at 49 rfl) (List.forall_mem_nil _)))))))))))))))))))))))))))))))))))))))))))))))))))))))))))⟩
  storage := by decide +kernel
  ok := commandMapF13_ok

theorem commandMapF14_ok : ∀ x ∈ commandMapF14, ∃ I, x.2.Ok I (Allowed Version.F14 x.1) := by
  unfold commandMapF14
  simp only [List.forall_mem_cons]
  exact ⟨⟨_, allow_parse ok_FC3_Authconfig⟩,
    ⟨_, allow_parse ok_FC3_Authconfig⟩,
    ⟨_, allow_parse ok_F12_AutoPart⟩,
    ⟨_, allow_parse ok_FC3_AutoStep⟩,
    ⟨_, allow_parse ok_F14_Bootloader⟩,
    ⟨_, allow_parse ok_FC3_Cdrom⟩,
    ⟨_, allow_parse ok_FC3_ClearPart⟩,
    ⟨_, allow_parse ok_FC3_DisplayMode⟩,
    ⟨_, allow_parse ok_F8_Device_F8_DeviceData⟩,
    ⟨_, allow_parse ok_FC3_DeviceProbe⟩,
    ⟨_, allow_parse ok_FC6_DmRaid_FC6_DmRaidData⟩,
    ⟨_, allow_parse ok_F14_DriverDisk_F14_DriverDiskData⟩,
    ⟨_, allow_parse ok_F13_Fcoe_F13_FcoeData⟩,
    ⟨_, allow_parse ok_F14_Firewall⟩,
    ⟨_, allow_parse ok_FC3_Firstboot⟩,
    ⟨_, allow_parse ok_FC3_DisplayMode⟩,
    ⟨_, allow_parse ok_F12_Group_F12_GroupData⟩,
    ⟨_, allow_parse ok_FC6_Reboot⟩,
    ⟨_, allow_parse ok_FC3_HardDrive⟩,
    ⟨_, allow_parse ok_F14_IgnoreDisk⟩,
    ⟨_, allow_parse ok_F11_Upgrade⟩,
    ⟨_, allow_parse ok_F14_Interactive⟩,
    ⟨_, allow_parse ok_F10_Iscsi_F10_IscsiData⟩,
    ⟨_, allow_parse ok_FC6_IscsiName⟩,
    ⟨_, allow_parse ok_FC3_Keyboard⟩,
    ⟨_, allow_parse ok_FC3_Lang⟩,
    ⟨_, allow_parse ok_FC6_Logging⟩,
    ⟨_, allow_parse ok_F14_LogVol_F14_LogVolData⟩,
    ⟨_, allow_parse ok_FC4_MediaCheck⟩,
    ⟨_, allow_method (by decide) ok_F14_Method⟩,
    ⟨_, allow_parse ok_F10_Monitor⟩,
    ⟨_, allow_multipath (by decide) ok_FC6_MultiPath_FC6_MultiPathData⟩,
    ⟨_, allow_parse ok_F9_Network_F8_NetworkData⟩,
    ⟨_, allow_parse ok_FC6_NFS⟩,
    ⟨_, allow_parse ok_F14_Partition_F14_PartData⟩,
    ⟨_, allow_parse ok_F14_Partition_F14_PartData⟩,
    ⟨_, allow_parse ok_FC6_Reboot⟩,
    ⟨_, allow_raid (by decide) ok_F14_Raid_F14_RaidData⟩,
    ⟨_, allow_parse ok_FC6_Reboot⟩,
    ⟨_, allow_parse ok_F14_Repo_F14_RepoData⟩,
    ⟨_, allow_parse ok_F10_Rescue⟩,
    ⟨_, allow_parse ok_F8_RootPw⟩,
    ⟨_, allow_parse ok_FC3_SELinux⟩,
    ⟨_, allow_parse ok_FC6_Services⟩,
    ⟨_, allow_parse ok_FC6_Reboot⟩,
    ⟨_, allow_parse ok_FC3_SkipX⟩,
    ⟨_, allow_parse ok_F13_SshPw_F13_SshPwData⟩,
    ⟨_, allow_parse ok_FC3_DisplayMode⟩,
    ⟨_, allow_parse ok_FC6_Timezone⟩,
    ⟨_, allow_parse ok_F7_Updates⟩,
    ⟨_, allow_parse ok_F11_Upgrade⟩,
    ⟨_, allow_parse ok_F14_Url⟩,
    ⟨_, allow_parse ok_F12_User_F12_UserData⟩,
    ⟨_, allow_parse ok_F9_Vnc⟩,
    ⟨_, allow_parse ok_FC3_VolGroup_FC3_VolGroupData⟩,
    ⟨_, allow_parse ok_F14_XConfig⟩,
    ⟨_, allow_parse ok_F9_ZeroMbr⟩,
    ⟨_, allow_parse ok_F14_ZFCP_F14_ZFCPData⟩,
    List.forall_mem_nil _⟩

def classesF14 : List Command := [FC3_Authconfig.cls, F12_AutoPart.cls, FC3_AutoStep.cls, F14_Bootloader.cls, FC3_Cdrom.cls, FC3_ClearPart.cls, FC3_DisplayMode.cls, F8_Device.cls F8_DeviceData.cls, FC3_DeviceProbe.cls, FC6_DmRaid.cls FC6_DmRaidData.cls, F14_DriverDisk.cls F14_DriverDiskData.cls, F13_Fcoe.cls F13_FcoeData.cls, F14_Firewall.cls, FC3_Firstboot.cls, F12_Group.cls F12_GroupData.cls, FC6_Reboot.cls, FC3_HardDrive.cls, F14_IgnoreDisk.cls, F11_Upgrade.cls, F14_Interactive.cls, F10_Iscsi.cls F10_IscsiData.cls, FC6_IscsiName.cls, FC3_Keyboard.cls, FC3_Lang.cls, FC6_Logging.cls, F14_LogVol.cls F14_LogVolData.cls, FC4_MediaCheck.cls, F14_Method.cls, F10_Monitor.cls, FC6_MultiPath.cls FC6_MultiPathData.cls, F9_Network.cls F8_NetworkData.cls, FC6_NFS.cls, F14_Partition.cls F14_PartData.cls, F14_Raid.cls F14_RaidData.cls, F14_Repo.cls F14_RepoData.cls, F10_Rescue.cls, F8_RootPw.cls, FC3_SELinux.cls, FC6_Services.cls, FC3_SkipX.cls, F13_SshPw.cls F13_SshPwData.cls, FC6_Timezone.cls, F7_Updates.cls, F14_Url.cls, F12_User.cls F12_UserData.cls, F9_Vnc.cls, FC3_VolGroup.cls FC3_VolGroupData.cls, F14_XConfig.cls, F9_ZeroMbr.cls, F14_ZFCP.cls F14_ZFCPData.cls]

theorem commandMapF14_mapOk : MapOk Version.F14 commandMapF14 where
  dict := nodup_codes (by decide +kernel)
  classes := ⟨classesF14, [c!"FC3_Authconfig", c!"F12_AutoPart", c!"FC3_AutoStep", c!"F14_Bootloader", c!"FC3_Cdrom", c!"FC3_ClearPart", c!"FC3_DisplayMode", c!"F8_Device", c!"FC3_DeviceProbe", c!"FC6_DmRaid", c!"F14_DriverDisk", c!"F13_Fcoe", c!"F14_Firewall", c!"FC3_Firstboot", c!"F12_Group", c!"FC6_Reboot", c!"FC3_HardDrive", c!"F14_IgnoreDisk", c!"F11_Upgrade", c!"F14_Interactive", c!"F10_Iscsi", c!"FC6_IscsiName", c!"FC3_Keyboard", c!"FC3_Lang", c!"FC6_Logging", c!"F14_LogVol", c!"FC4_MediaCheck", c!"F14_Method", c!"F10_Monitor", c!"FC6_MultiPath", c!"F9_Network", c!"FC6_NFS", c!"F14_Partition", c!"F14_Raid", c!"F14_Repo", c!"F10_Rescue", c!"F8_RootPw", c!"FC3_SELinux", c!"FC6_Services", c!"FC3_SkipX", c!"F13_SshPw", c!"FC6_Timezone", c!"F7_Updates", c!"F14_Url", c!"F12_User", c!"F9_Vnc", c!"FC3_VolGroup", c!"F14_XConfig", c!"F9_ZeroMbr", c!"F14_ZFCP"], [c!"authconfig", c!"autopart", c!"autostep", c!"bootloader", c!"cdrom", c!"clearpart", c!"displaymode", c!"device", c!"deviceprobe", c!"dmraid", c!"driverdisk", c!"fcoe", c!"firewall", c!"firstboot", c!"group", c!"reboot", c!"harddrive", c!"ignoredisk", c!"upgrade", c!"interactive", c!"iscsi", c!"iscsiname", c!"keyboard", c!"lang", c!"logging", c!"logvol", c!"mediacheck", c!"method", c!"monitor", c!"multipath", c!"network", c!"nfs", c!"partition", c!"raid", c!"repo", c!"rescue", c!"rootpw", c!"selinux", c!"services", c!"skipx", c!"sshpw", c!"timezone", c!"updates", c!"url", c!"user", c!"vnc", c!"volgroup", c!"xconfig", c!"zerombr", c!"zfcp"], rfl, by decide +kernel, nodup_codes (by decide +kernel), nodup_codes (by decide +kernel), by
    unfold commandMapF14
    exact (forall_mem_cons' (mem_at 0 rfl) (forall_mem_cons' (mem_at 0 rfl) (forall_mem_cons' (mem_at 1 rfl) (forall_mem_cons' (mem_at 2 rfl) (forall_mem_cons' (mem_at 3 rfl) (forall_mem_cons' (mem_at 4 rfl) (forall_mem_cons' (mem_at 5 rfl) (forall_mem_cons' (mem_at 6 rfl) (forall_mem_cons' (mem_at 7 rfl) (forall_mem_cons' (mem_at 8 rfl) (forall_mem_cons' (mem_at 9 rfl) (forall_mem_cons' (mem_at 10 rfl) (forall_mem_cons' (mem_at 11 rfl) (forall_mem_cons' (mem_at 12 rfl) (forall_mem_cons' (mem_at 13 rfl) (forall_mem_cons' (mem_at 6 rfl) (forall_mem_cons' (mem_at 14 rfl) (forall_mem_cons' (mem_at 15 rfl) (forall_mem_cons' (mem_at 16 rfl) (forall_mem_cons' (mem_at 17 rfl) (forall_mem_cons' (mem_at 18 rfl) (forall_mem_cons' (mem_at 19 rfl) (forall_mem_cons' (mem_at 20 rfl) (forall_mem_cons' (mem_at 21 rfl) (forall_mem_cons' (mem_at 22 rfl) (forall_mem_cons' (mem_at 23 rfl) (forall_mem_cons' (mem_at 24 rfl) (forall_mem_cons' (mem_at 25 rfl) (forall_mem_cons' (mem_at 26 rfl) (forall_mem_cons' (mem_at 27 rfl) (forall_mem_cons' (mem_at 28 rfl) (forall_mem_cons' (mem_at 29 rfl) (forall_mem_cons' (mem_at 30 rfl) (forall_mem_cons' (mem_at 31 rfl) (forall_mem_cons' (mem_at 32 rfl) (forall_mem_cons' (mem_at 32 rfl) (forall_mem_cons' (mem_at 15 rfl) (forall_mem_cons' (mem_at 33 rfl) (forall_mem_cons' (mem_at 15 rfl) (forall_mem_cons' (mem_at 34 rfl) (forall_mem_cons' (mem_at 35 rfl) (forall_mem_cons' (mem_at 36 rfl) (forall_mem_cons' (mem_at 37 rfl) (forall_mem_cons' (mem_at 38 rfl) (forall_mem_cons' (mem_at 15 rfl) (forall_mem_cons' (mem_at 39 rfl) (forall_mem_cons' (mem_at 40 rfl) (forall_mem_cons' (mem_at 6 rfl) (forall_mem_cons' (mem_at 41 rfl) (forall_mem_cons' (mem_at 42 rfl) (forall_mem_cons' (mem_at 18 rfl) (forall_mem_cons' (mem_at 43 rfl) (forall_mem_cons' (mem_at 44 rfl) (forall_mem_cons' (mem_at 45 rfl) (forall_mem_cons' (mem_at 46 rfl) (forall_mem_cons' (mem_at 47 rfl) (forall_mem_cons' (mem_at 48 rfl) (forall_mem_cons' (mem_at 49 rfl) (List.forall_mem_nil _)))))))))))))))))))))))))))))))))))))))))))))))))))))))))))⟩
  storage := by decide +kernel
  ok := commandMapF14_ok

theorem commandMapF15_ok : ∀ x ∈ commandMapF15, ∃ I, x.2.Ok I (Allowed Version.F15 x.1) := by
  unfold commandMapF15
  simp only [List.forall_mem_cons]
  exact ⟨⟨_, allow_parse ok_FC3_Authconfig⟩,
    ⟨_, allow_parse ok_FC3_Authconfig⟩,
    ⟨_, allow_parse ok_F12_AutoPart⟩,
    ⟨_, allow_parse ok_FC3_AutoStep⟩,
    ⟨_, allow_parse ok_F15_Bootloader⟩,
    ⟨_, allow_parse ok_FC3_Cdrom⟩,
    ⟨_, allow_parse ok_FC3_ClearPart⟩,
    ⟨_, allow_parse ok_FC3_DisplayMode⟩,
    ⟨_, allow_parse ok_F8_Device_F8_DeviceData⟩,
    ⟨_, allow_parse ok_FC3_DeviceProbe⟩,
    ⟨_, allow_parse ok_FC6_DmRaid_FC6_DmRaidData⟩,
    ⟨_, allow_parse ok_F14_DriverDisk_F14_DriverDiskData⟩,
    ⟨_, allow_parse ok_F13_Fcoe_F13_FcoeData⟩,
    ⟨_, allow_parse ok_F14_Firewall⟩,
    ⟨_, allow_parse ok_FC3_Firstboot⟩,
    ⟨_, allow_parse ok_FC3_DisplayMode⟩,
    ⟨_, allow_parse ok_F12_Group_F12_GroupData⟩,
    ⟨_, allow_parse ok_FC6_Reboot⟩,
    ⟨_, allow_parse ok_FC3_HardDrive⟩,
    ⟨_, allow_parse ok_F14_IgnoreDisk⟩,
    ⟨_, allow_parse ok_F11_Upgrade⟩,
    ⟨_, allow_parse ok_F15_Interactive⟩,
    ⟨_, allow_parse ok_F10_Iscsi_F10_IscsiData⟩,
    ⟨_, allow_parse ok_FC6_IscsiName⟩,
    ⟨_, allow_parse ok_FC3_Keyboard⟩,
    ⟨_, allow_parse ok_FC3_Lang⟩,
    ⟨_, allow_parse ok_FC6_Logging⟩,
    ⟨_, allow_parse ok_F15_LogVol_F15_LogVolData⟩,
    ⟨_, allow_parse ok_FC4_MediaCheck⟩,
    ⟨_, allow_method (by decide) ok_F14_Method⟩,
    ⟨_, allow_parse ok_F10_Monitor⟩,
    ⟨_, allow_multipath (by decide) ok_FC6_MultiPath_FC6_MultiPathData⟩,
    ⟨_, allow_parse ok_F9_Network_F8_NetworkData⟩,
    ⟨_, allow_parse ok_FC6_NFS⟩,
    ⟨_, allow_parse ok_F14_Partition_F14_PartData⟩,
    ⟨_, allow_parse ok_F14_Partition_F14_PartData⟩,
    ⟨_, allow_parse ok_FC6_Reboot⟩,
    ⟨_, allow_raid (by decide) ok_F15_Raid_F15_RaidData⟩,
    ⟨_, allow_parse ok_FC6_Reboot⟩,
    ⟨_, allow_parse ok_F15_Repo_F15_RepoData⟩,
    ⟨_, allow_parse ok_F10_Rescue⟩,
    ⟨_, allow_parse ok_F8_RootPw⟩,
    ⟨_, allow_parse ok_FC3_SELinux⟩,
    ⟨_, allow_parse ok_FC6_Services⟩,
    ⟨_, allow_parse ok_FC6_Reboot⟩,
    ⟨_, allow_parse ok_FC3_SkipX⟩,
    ⟨_, allow_parse ok_F13_SshPw_F13_SshPwData⟩,
    ⟨_, allow_parse ok_FC3_DisplayMode⟩,
    ⟨_, allow_parse ok_FC6_Timezone⟩,
    ⟨_, allow_parse ok_F7_Updates⟩,
    ⟨_, allow_parse ok_F11_Upgrade⟩,
    ⟨_, allow_parse ok_F14_Url⟩,
    ⟨_, allow_parse ok_F12_User_F12_UserData⟩,
    ⟨_, allow_parse ok_F9_Vnc⟩,
    ⟨_, allow_parse ok_FC3_VolGroup_FC3_VolGroupData⟩,
    ⟨_, allow_parse ok_F14_XConfig⟩,
    ⟨_, allow_parse ok_F9_ZeroMbr⟩,
    ⟨_, allow_parse ok_F14_ZFCP_F14_ZFCPData⟩,
    List.forall_mem_nil _⟩

def classesF15 : List Command := [FC3_Authconfig.cls, F12_AutoPart.cls, FC3_AutoStep.cls, F15_Bootloader.cls, FC3_Cdrom.cls, FC3_ClearPart.cls, FC3_DisplayMode.cls, F8_Device.cls F8_DeviceData.cls, FC3_DeviceProbe.cls, FC6_DmRaid.cls FC6_DmRaidData.cls, F14_DriverDisk.cls F14_DriverDiskData.cls, F13_Fcoe.cls F13_FcoeData.cls, F14_Firewall.cls, FC3_Firstboot.cls, F12_Group.cls F12_GroupData.cls, FC6_Reboot.cls, FC3_HardDrive.cls, F14_IgnoreDisk.cls, F11_Upgrade.cls, F15_Interactive.cls, F10_Iscsi.cls F10_IscsiData.cls, FC6_IscsiName.cls, FC3_Keyboard.cls, FC3_Lang.cls, FC6_Logging.cls, F15_LogVol.cls F15_LogVolData.cls, FC4_MediaCheck.cls, F14_Method.cls, F10_Monitor.cls, FC6_MultiPath.cls FC6_MultiPathData.cls, F9_Network.cls F8_NetworkData.cls, FC6_NFS.cls, F14_Partition.cls F14_PartData.cls, F15_Raid.cls F15_RaidData.cls, F15_Repo.cls F15_RepoData.cls, F10_Rescue.cls, F8_RootPw.cls, FC3_SELinux.cls, FC6_Services.cls, FC3_SkipX.cls, F13_SshPw.cls F13_SshPwData.cls, FC6_Timezone.cls, F7_Updates.cls, F14_Url.cls, F12_User.cls F12_UserData.cls, F9_Vnc.cls, FC3_VolGroup.cls FC3_VolGroupData.cls, F14_XConfig.cls, F9_ZeroMbr.cls, F14_ZFCP.cls F14_ZFCPData.cls]

theorem commandMapF15_mapOk : MapOk Version.F15 commandMapF15 where
  dict := nodup_codes (by decide +kernel)
  classes := ⟨classesF15, [c!"FC3_Authconfig", c!"F12_AutoPart", c!"FC3_AutoStep", c!"F15_Bootloader", c!"FC3_Cdrom", c!"FC3_ClearPart", c!"FC3_DisplayMode", c!"F8_Device", c!"FC3_DeviceProbe", c!"FC6_DmRaid", c!"F14_DriverDisk", c!"F13_Fcoe", c!"F14_Firewall", c!"FC3_Firstboot", c!"F12_Group", c!"FC6_Reboot", c!"FC3_HardDrive", c!"F14_IgnoreDisk", c!"F11_Upgrade", c!"F15_Interactive", c!"F10_Iscsi", c!"FC6_IscsiName", c!"FC3_Keyboard", c!"FC3_Lang", c!"FC6_Logging", c!"F15_LogVol", c!"FC4_MediaCheck", c!"F14_Method", c!"F10_Monitor", c!"FC6_MultiPath", c!"F9_Network", c!"FC6_NFS", c!"F14_Partition", c!"F15_Raid", c!"F15_Repo", c!"F10_Rescue", c!"F8_RootPw", c!"FC3_SELinux", c!"FC6_Services", c!"FC3_SkipX", c!"F13_SshPw", c!"FC6_Timezone", c!"F7_Updates", c!"F14_Url", c!"F12_User", c!"F9_Vnc", c!"FC3_VolGroup", c!"F14_XConfig", c!"F9_ZeroMbr", c!"F14_ZFCP"], [c!"authconfig", c!"autopart", c!"autostep", c!"bootloader", c!"cdrom", c!"clearpart", c!"displaymode", c!"device", c!"deviceprobe", c!"dmraid", c!"driverdisk", c!"fcoe", c!"firewall", c!"firstboot", c!"group", c!"reboot", c!"harddrive", c!"ignoredisk", c!"upgrade", c!"interactive", c!"iscsi", c!"iscsiname", c!"keyboard", c!"lang", c!"logging", c!"logvol", c!"mediacheck", c!"method", c!"monitor", c!"multipath", c!"network", c!"nfs", c!"partition", c!"raid", c!"repo", c!"rescue", c!"rootpw", c!"selinux", c!"services", c!"skipx", c!"sshpw", c!"timezone", c!"updates", c!"url", c!"user", c!"vnc", c!"volgroup", c!"xconfig", c!"zerombr", c!"zfcp"], rfl, by decide +kernel, nodup_codes (by decide +kernel), nodup_codes (by decide +kernel), by
    unfold commandMapF15
    exact (forall_mem_cons' (mem_at 0 rfl) (forall_mem_cons' (mem_at 0 rfl) (forall_mem_cons' (mem_at 1 rfl) (forall_mem_cons' (mem_at 2 rfl) (forall_mem_cons' (mem_at 3 rfl) (forall_mem_cons' (mem_at 4 rfl) (forall_mem_cons' (mem_at 5 rfl) (forall_mem_cons' (mem_at 6 rfl) (forall_mem_cons' (mem_at 7 rfl) (forall_mem_cons' (mem_at 8 rfl) (forall_mem_cons' (mem_at 9 rfl) (forall_mem_cons' (mem_at 10 rfl) (forall_mem_cons' (mem_at 11 rfl) (forall_mem_cons' (mem_at 12 rfl) (forall_mem_cons' (mem_at 13 rfl) (forall_mem_cons' (mem_at 6 rfl) (forall_mem_cons' (mem_at 14 rfl) (forall_mem_cons' (mem_at 15 rfl) (forall_mem_cons' (mem_at 16 rfl) (forall_mem_cons' (mem_at 17 rfl) (forall_mem_cons' (mem_at 18 rfl) (forall_mem_cons' (mem_at 19 rfl) (forall_mem_cons' (mem_at 20 rfl) (forall_mem_cons' (mem_at 21 rfl) (forall_mem_cons' (mem_at 22 rfl) (forall_mem_cons' (mem_at 23 rfl) (forall_mem_cons' (mem_at 24 rfl) (forall_mem_cons' (mem_at 25 rfl) (forall_mem_cons' (mem_at 26 rfl) (forall_mem_cons' (mem_at 27 rfl) (forall_mem_cons' (mem_at 28 rfl) (forall_mem_cons' (mem_at 29 rfl) (forall_mem_cons' (mem_at 30 rfl) (forall_mem_cons' (mem_at 31 rfl) (forall_mem_cons' (mem_at 32 rfl) (forall_mem_cons' (mem_at 32 rfl) (forall_mem_cons' (mem_at 15 rfl) (forall_mem_cons' (mem_at 33 rfl) (forall_mem_cons' (mem_at 15 rfl) (forall_mem_cons' (mem_at 34 rfl) (forall_mem_cons' (mem_at 35 rfl) (forall_mem_cons' (mem_at 36 rfl) (forall_mem_cons' (mem_at 37 rfl) (forall_mem_cons' (mem_at 38 rfl) (forall_mem_cons' (mem_at 15 rfl) (forall_mem_cons' (mem_at 39 rfl) (forall_mem_cons' (mem_at 40 rfl) (forall_mem_cons' (mem_at 6 rfl) (forall_mem_cons' (mem_at 41 rfl) (forall_mem_cons' (mem_at 42 rfl) (forall_mem_cons' (mem_at 18 rfl) (forall_mem_cons' (mem_at 43 rfl) (forall_mem_cons' (mem_at 44 rfl) (forall_mem_cons' (mem_at 45 rfl) (forall_mem_cons' (mem_at 46 rfl) (forall_mem_cons' (mem_at 47 rfl) (forall_mem_cons' (mem_at 48 rfl) (forall_mem_cons' (mem_at 49 rfl) (List.forall_mem_nil _)))))))))))))))))))))))))))))))))))))))))))))))))))))))))))⟩
  storage := by decide +kernel
  ok := commandMapF15_ok

theorem commandMapF16_ok : ∀ x ∈ commandMapF16, ∃ I, x.2.Ok I (Allowed Version.F16 x.1) := by
  unfold commandMapF16
  simp only [List.forall_mem_cons]
  exact ⟨⟨_, allow_parse ok_FC3_Authconfig⟩,
    ⟨_, allow_parse ok_FC3_Authconfig⟩,
    ⟨_, allow_parse ok_F16_AutoPart⟩,
    ⟨_, allow_parse ok_FC3_AutoStep⟩,
    ⟨_, allow_parse ok_F15_Bootloader⟩,
    ⟨_, allow_parse ok_FC3_Cdrom⟩,
    ⟨_, allow_parse ok_FC3_ClearPart⟩,
    ⟨_, allow_parse ok_FC3_DisplayMode⟩,
    ⟨_, allow_parse ok_F8_Device_F8_DeviceData⟩,
    ⟨_, allow_parse ok_FC3_DeviceProbe⟩,
    ⟨_, allow_parse ok_FC6_DmRaid_FC6_DmRaidData⟩,
    ⟨_, allow_parse ok_F14_DriverDisk_F14_DriverDiskData⟩,
    ⟨_, allow_parse ok_F13_Fcoe_F13_FcoeData⟩,
    ⟨_, allow_parse ok_F14_Firewall⟩,
    ⟨_, allow_parse ok_FC3_Firstboot⟩,
    ⟨_, allow_parse ok_FC3_DisplayMode⟩,
    ⟨_, allow_parse ok_F12_Group_F12_GroupData⟩,
    ⟨_, allow_parse ok_FC6_Reboot⟩,
    ⟨_, allow_parse ok_FC3_HardDrive⟩,
    ⟨_, allow_parse ok_F14_IgnoreDisk⟩,
    ⟨_, allow_parse ok_F11_Upgrade⟩,
    ⟨_, allow_parse ok_F10_Iscsi_F10_IscsiData⟩,
    ⟨_, allow_parse ok_FC6_IscsiName⟩,
    ⟨_, allow_parse ok_FC3_Keyboard⟩,
    ⟨_, allow_parse ok_FC3_Lang⟩,
    ⟨_, allow_parse ok_FC6_Logging⟩,
    ⟨_, allow_parse ok_F15_LogVol_F17_LogVolData⟩,
    ⟨_, allow_parse ok_FC4_MediaCheck⟩,
    ⟨_, allow_method (by decide) ok_F14_Method⟩,
    ⟨_, allow_parse ok_F10_Monitor⟩,
    ⟨_, allow_multipath (by decide) ok_FC6_MultiPath_FC6_MultiPathData⟩,
    ⟨_, allow_parse ok_F16_Network_F16_NetworkData⟩,
    ⟨_, allow_parse ok_FC6_NFS⟩,
    ⟨_, allow_parse ok_F14_Partition_F17_PartData⟩,
    ⟨_, allow_parse ok_F14_Partition_F17_PartData⟩,
    ⟨_, allow_parse ok_FC6_Reboot⟩,
    ⟨_, allow_raid (by decide) ok_F15_Raid_F15_RaidData⟩,
    ⟨_, allow_parse ok_FC6_Reboot⟩,
    ⟨_, allow_parse ok_F15_Repo_F15_RepoData⟩,
    ⟨_, allow_parse ok_F10_Rescue⟩,
    ⟨_, allow_parse ok_F8_RootPw⟩,
    ⟨_, allow_parse ok_FC3_SELinux⟩,
    ⟨_, allow_parse ok_FC6_Services⟩,
    ⟨_, allow_parse ok_FC6_Reboot⟩,
    ⟨_, allow_parse ok_FC3_SkipX⟩,
    ⟨_, allow_parse ok_F13_SshPw_F13_SshPwData⟩,
    ⟨_, allow_parse ok_FC3_DisplayMode⟩,
    ⟨_, allow_parse ok_FC6_Timezone⟩,
    ⟨_, allow_parse ok_F7_Updates⟩,
    ⟨_, allow_parse ok_F11_Upgrade⟩,
    ⟨_, allow_parse ok_F14_Url⟩,
    ⟨_, allow_parse ok_F12_User_F12_UserData⟩,
    ⟨_, allow_parse ok_F9_Vnc⟩,
    ⟨_, allow_parse ok_F16_VolGroup_F16_VolGroupData⟩,
    ⟨_, allow_parse ok_F14_XConfig⟩,
    ⟨_, allow_parse ok_F9_ZeroMbr⟩,
    ⟨_, allow_parse ok_F14_ZFCP_F14_ZFCPData⟩,
    List.forall_mem_nil _⟩

def classesF16 : List Command := [FC3_Authconfig.cls, F16_AutoPart.cls, FC3_AutoStep.cls, F15_Bootloader.cls, FC3_Cdrom.cls, FC3_ClearPart.cls, FC3_DisplayMode.cls, F8_Device.cls F8_DeviceData.cls, FC3_DeviceProbe.cls, FC6_DmRaid.cls FC6_DmRaidData.cls, F14_DriverDisk.cls F14_DriverDiskData.cls, F13_Fcoe.cls F13_FcoeData.cls, F14_Firewall.cls, FC3_Firstboot.cls, F12_Group.cls F12_GroupData.cls, FC6_Reboot.cls, FC3_HardDrive.cls, F14_IgnoreDisk.cls, F11_Upgrade.cls, F10_Iscsi.cls F10_IscsiData.cls, FC6_IscsiName.cls, FC3_Keyboard.cls, FC3_Lang.cls, FC6_Logging.cls, F15_LogVol.cls F17_LogVolData.cls, FC4_MediaCheck.cls, F14_Method.cls, F10_Monitor.cls, FC6_MultiPath.cls FC6_MultiPathData.cls, F16_Network.cls F16_NetworkData.cls, FC6_NFS.cls, F14_Partition.cls F17_PartData.cls, F15_Raid.cls F15_RaidData.cls, F15_Repo.cls F15_RepoData.cls, F10_Rescue.cls, F8_RootPw.cls, FC3_SELinux.cls, FC6_Services.cls, FC3_SkipX.cls, F13_SshPw.cls F13_SshPwData.cls, FC6_Timezone.cls, F7_Updates.cls, F14_Url.cls, F12_User.cls F12_UserData.cls, F9_Vnc.cls, F16_VolGroup.cls F16_VolGroupData.cls, F14_XConfig.cls, F9_ZeroMbr.cls, F14_ZFCP.cls F14_ZFCPData.cls]

theorem commandMapF16_mapOk : MapOk Version.F16 commandMapF16 where
  dict := nodup_codes (by decide +kernel)
  classes := ⟨classesF16, [c!"FC3_Authconfig", c!"F16_AutoPart", c!"FC3_AutoStep", c!"F15_Bootloader", c!"FC3_Cdrom", c!"FC3_ClearPart", c!"FC3_DisplayMode", c!"F8_Device", c!"FC3_DeviceProbe", c!"FC6_DmRaid", c!"F14_DriverDisk", c!"F13_Fcoe", c!"F14_Firewall", c!"FC3_Firstboot", c!"F12_Group", c!"FC6_Reboot", c!"FC3_HardDrive", c!"F14_IgnoreDisk", c!"F11_Upgrade", c!"F10_Iscsi", c!"FC6_IscsiName", c!"FC3_Keyboard", c!"FC3_Lang", c!"FC6_Logging", c!"F15_LogVol", c!"FC4_MediaCheck", c!"F14_Method", c!"F10_Monitor", c!"FC6_MultiPath", c!"F16_Network", c!"FC6_NFS", c!"F14_Partition", c!"F15_Raid", c!"F15_Repo", c!"F10_Rescue", c!"F8_RootPw", c!"FC3_SELinux", c!"FC6_Services", c!"FC3_SkipX", c!"F13_SshPw", c!"FC6_Timezone", c!"F7_Updates", c!"F14_Url", c!"F12_User", c!"F9_Vnc", c!"F16_VolGroup", c!"F14_XConfig", c!"F9_ZeroMbr", c!"F14_ZFCP"], [c!"authconfig", c!"autopart", c!"autostep", c!"bootloader", c!"cdrom", c!"clearpart", c!"displaymode", c!"device", c!"deviceprobe", c!"dmraid", c!"driverdisk", c!"fcoe", c!"firewall", c!"firstboot", c!"group", c!"reboot", c!"harddrive", c!"ignoredisk", c!"upgrade", c!"iscsi", c!"iscsiname", c!"keyboard", c!"lang", c!"logging", c!"logvol", c!"mediacheck", c!"method", c!"monitor", c!"multipath", c!"network", c!"nfs", c!"partition", c!"raid", c!"repo", c!"rescue", c!"rootpw", c!"selinux", c!"services", c!"skipx", c!"sshpw", c!"timezone", c!"updates", c!"url", c!"user", c!"vnc", c!"volgroup", c!"xconfig", c!"zerombr", c!"zfcp"], rfl, by decide +kernel, nodup_codes (by decide +kernel), nodup_codes (by decide +kernel), by
    unfold commandMapF16
    exact (forall_mem_cons' (mem_at 0 rfl) (forall_mem_cons' (mem_at 0 rfl) (forall_mem_cons' (mem_at 1 rfl) (forall_mem_cons' (mem_at 2 rfl) (forall_mem_cons' (mem_at 3 rfl) (forall_mem_cons' (mem_at 4 rfl) (forall_mem_cons' (mem_at 5 rfl) (forall_mem_cons' (mem_at 6 rfl) (forall_mem_cons' (mem_at 7 rfl) (forall_mem_cons' (mem_at 8 rfl) (forall_mem_cons' (mem_at 9 rfl) (forall_mem_cons' (mem_at 10 rfl) (forall_mem_cons' (mem_at 11 rfl) (forall_mem_cons' (mem_at 12 rfl) (forall_mem_cons' (mem_at 13 rfl) (forall_mem_cons' (mem_at 6 rfl) (forall_mem_cons' (mem_at 14 rfl) (forall_mem_cons' (mem_at 15 rfl) (forall_mem_cons' (mem_at 16 rfl) (forall_mem_cons' (mem_at 17 rfl) (forall_mem_cons' (mem_at 18 rfl) (forall_mem_cons' (mem_at 19 rfl) (forall_mem_cons' (mem_at 20 rfl) (forall_mem_cons' (mem_at 21 rfl) (forall_mem_cons' (mem_at 22 rfl) (forall_mem_cons' (mem_at 23 rfl) (forall_mem_cons' (mem_at 24 rfl) (forall_mem_cons' (mem_at 25 rfl) (forall_mem_cons' (mem_at 26 rfl) (forall_mem_cons' (mem_at 27 rfl) (forall_mem_cons' (mem_at 28 rfl) (forall_mem_cons' (mem_at 29 rfl) (forall_mem_cons' (mem_at 30 rfl) (forall_mem_cons' (mem_at 31 rfl) (forall_mem_cons' (mem_at 31 rfl) (forall_mem_cons' (mem_at 15 rfl) (forall_mem_cons' (mem_at 32 rfl) (forall_mem_cons' (mem_at 15 rfl) (forall_mem_cons' (mem_at 33 rfl) (forall_mem_cons' (mem_at 34 rfl) (forall_mem_cons' (mem_at 35 rfl) (forall_mem_cons' (mem_at 36 rfl) (forall_mem_cons' (mem_at 37 rfl) (forall_mem_cons' (mem_at 15 rfl) (forall_mem_cons' (mem_at 38 rfl) (forall_mem_cons' (mem_at 39 rfl) (forall_mem_cons' (mem_at 6 rfl) (forall_mem_cons' (mem_at 40 rfl) (forall_mem_cons' (mem_at 41 rfl) (forall_mem_cons' (mem_at 18 rfl) (forall_mem_cons' (mem_at 42 rfl) (forall_mem_cons' (mem_at 43 rfl) (forall_mem_cons' (mem_at 44 rfl) (forall_mem_cons' (mem_at 45 rfl) (forall_mem_cons' (mem_at 46 rfl) (forall_mem_cons' (mem_at 47 rfl) (forall_mem_cons' (mem_at 48 rfl) (List.forall_mem_nil _))))))))))))))))))))))))))))))))))))))))))))))))))))))))))⟩
  storage := by decide +kernel
  ok := commandMapF16_ok

theorem commandMapF17_ok : ∀ x ∈ commandMapF17, ∃ I, x.2.Ok I (Allowed Version.F17 x.1) := by
  unfold commandMapF17
  simp only [List.forall_mem_cons]
  exact ⟨⟨_, allow_parse ok_FC3_Authconfig⟩,
    ⟨_, allow_parse ok_FC3_Authconfig⟩,
    ⟨_, allow_parse ok_F17_AutoPart⟩,
    ⟨_, allow_parse ok_FC3_AutoStep⟩,
    ⟨_, allow_parse ok_F17_Bootloader⟩,
    ⟨_, allow_parse ok_F17_BTRFS_F17_BTRFSData⟩,
    ⟨_, allow_parse ok_FC3_Cdrom⟩,
    ⟨_, allow_parse ok_F17_ClearPart⟩,
    ⟨_, allow_parse ok_FC3_DisplayMode⟩,
    ⟨_, allow_parse ok_F8_Device_F8_DeviceData⟩,
    ⟨_, allow_parse ok_FC3_DeviceProbe⟩,
    ⟨_, allow_parse ok_FC6_DmRaid_FC6_DmRaidData⟩,
    ⟨_, allow_parse ok_F14_DriverDisk_F14_DriverDiskData⟩,
    ⟨_, allow_parse ok_F13_Fcoe_F13_FcoeData⟩,
    ⟨_, allow_parse ok_F14_Firewall⟩,
    ⟨_, allow_parse ok_FC3_Firstboot⟩,
    ⟨_, allow_parse ok_FC3_DisplayMode⟩,
    ⟨_, allow_parse ok_F12_Group_F12_GroupData⟩,
    ⟨_, allow_parse ok_FC6_Reboot⟩,
    ⟨_, allow_parse ok_FC3_HardDrive⟩,
    ⟨_, allow_parse ok_F14_IgnoreDisk⟩,
    ⟨_, allow_parse ok_F11_Upgrade⟩,
    ⟨_, allow_parse ok_F17_Iscsi_F17_IscsiData⟩,
    ⟨_, allow_parse ok_FC6_IscsiName⟩,
    ⟨_, allow_parse ok_FC3_Keyboard⟩,
    ⟨_, allow_parse ok_FC3_Lang⟩,
    ⟨_, allow_parse ok_FC6_Logging⟩,
    ⟨_, allow_parse ok_F17_LogVol_F17_LogVolData⟩,
    ⟨_, allow_parse ok_FC4_MediaCheck⟩,
    ⟨_, allow_method (by decide) ok_F14_Method⟩,
    ⟨_, allow_parse ok_F10_Monitor⟩,
    ⟨_, allow_multipath (by decide) ok_FC6_MultiPath_FC6_MultiPathData⟩,
    ⟨_, allow_parse ok_F16_Network_F16_NetworkData⟩,
    ⟨_, allow_parse ok_FC6_NFS⟩,
    ⟨_, allow_parse ok_F17_Partition_F17_PartData⟩,
    ⟨_, allow_parse ok_F17_Partition_F17_PartData⟩,
    ⟨_, allow_parse ok_FC6_Reboot⟩,
    ⟨_, allow_raid (by decide) ok_F15_Raid_F15_RaidData⟩,
    ⟨_, allow_parse ok_FC6_Reboot⟩,
    ⟨_, allow_parse ok_F15_Repo_F15_RepoData⟩,
    ⟨_, allow_parse ok_F10_Rescue⟩,
    ⟨_, allow_parse ok_F8_RootPw⟩,
    ⟨_, allow_parse ok_FC3_SELinux⟩,
    ⟨_, allow_parse ok_FC6_Services⟩,
    ⟨_, allow_parse ok_FC6_Reboot⟩,
    ⟨_, allow_parse ok_FC3_SkipX⟩,
    ⟨_, allow_parse ok_F13_SshPw_F13_SshPwData⟩,
    ⟨_, allow_parse ok_FC3_DisplayMode⟩,
    ⟨_, allow_parse ok_FC6_Timezone⟩,
    ⟨_, allow_parse ok_F7_Updates⟩,
    ⟨_, allow_parse ok_F11_Upgrade⟩,
    ⟨_, allow_parse ok_F14_Url⟩,
    ⟨_, allow_parse ok_F12_User_F12_UserData⟩,
    ⟨_, allow_parse ok_F9_Vnc⟩,
    ⟨_, allow_parse ok_F16_VolGroup_F16_VolGroupData⟩,
    ⟨_, allow_parse ok_F14_XConfig⟩,
    ⟨_, allow_parse ok_F9_ZeroMbr⟩,
    ⟨_, allow_parse ok_F14_ZFCP_F14_ZFCPData⟩,
    List.forall_mem_nil _⟩

def classesF17 : List Command := [FC3_Authconfig.cls, F17_AutoPart.cls, FC3_AutoStep.cls, F17_Bootloader.cls, F17_BTRFS.cls F17_BTRFSData.cls, FC3_Cdrom.cls, F17_ClearPart.cls, FC3_DisplayMode.cls, F8_Device.cls F8_DeviceData.cls, FC3_DeviceProbe.cls, FC6_DmRaid.cls FC6_DmRaidData.cls, F14_DriverDisk.cls F14_DriverDiskData.cls, F13_Fcoe.cls F13_FcoeData.cls, F14_Firewall.cls, FC3_Firstboot.cls, F12_Group.cls F12_GroupData.cls, FC6_Reboot.cls, FC3_HardDrive.cls, F14_IgnoreDisk.cls, F11_Upgrade.cls, F17_Iscsi.cls F17_IscsiData.cls, FC6_IscsiName.cls, FC3_Keyboard.cls, FC3_Lang.cls, FC6_Logging.cls, F17_LogVol.cls F17_LogVolData.cls, FC4_MediaCheck.cls, F14_Method.cls, F10_Monitor.cls, FC6_MultiPath.cls FC6_MultiPathData.cls, F16_Network.cls F16_NetworkData.cls, FC6_NFS.cls, F17_Partition.cls F17_PartData.cls, F15_Raid.cls F15_RaidData.cls, F15_Repo.cls F15_RepoData.cls, F10_Rescue.cls, F8_RootPw.cls, FC3_SELinux.cls, FC6_Services.cls, FC3_SkipX.cls, F13_SshPw.cls F13_SshPwData.cls, FC6_Timezone.cls, F7_Updates.cls, F14_Url.cls, F12_User.cls F12_UserData.cls, F9_Vnc.cls, F16_VolGroup.cls F16_VolGroupData.cls, F14_XConfig.cls, F9_ZeroMbr.cls, F14_ZFCP.cls F14_ZFCPData.cls]

theorem commandMapF17_mapOk : MapOk Version.F17 commandMapF17 where
  dict := nodup_codes (by decide +kernel)
  classes := ⟨classesF17, [c!"FC3_Authconfig", c!"F17_AutoPart", c!"FC3_AutoStep", c!"F17_Bootloader", c!"F17_BTRFS", c!"FC3_Cdrom", c!"F17_ClearPart", c!"FC3_DisplayMode", c!"F8_Device", c!"FC3_DeviceProbe", c!"FC6_DmRaid", c!"F14_DriverDisk", c!"F13_Fcoe", c!"F14_Firewall", c!"FC3_Firstboot", c!"F12_Group", c!"FC6_Reboot", c!"FC3_HardDrive", c!"F14_IgnoreDisk", c!"F11_Upgrade", c!"F17_Iscsi", c!"FC6_IscsiName", c!"FC3_Keyboard", c!"FC3_Lang", c!"FC6_Logging", c!"F17_LogVol", c!"FC4_MediaCheck", c!"F14_Method", c!"F10_Monitor", c!"FC6_MultiPath", c!"F16_Network", c!"FC6_NFS", c!"F17_Partition", c!"F15_Raid", c!"F15_Repo", c!"F10_Rescue", c!"F8_RootPw", c!"FC3_SELinux", c!"FC6_Services", c!"FC3_SkipX", c!"F13_SshPw", c!"FC6_Timezone", c!"F7_Updates", c!"F14_Url", c!"F12_User", c!"F9_Vnc", c!"F16_VolGroup", c!"F14_XConfig", c!"F9_ZeroMbr", c!"F14_ZFCP"], [c!"authconfig", c!"autopart", c!"autostep", c!"bootloader", c!"btrfs", c!"cdrom", c!"clearpart", c!"displaymode", c!"device", c!"deviceprobe", c!"dmraid", c!"driverdisk", c!"fcoe", c!"firewall", c!"firstboot", c!"group", c!"reboot", c!"harddrive", c!"ignoredisk", c!"upgrade", c!"iscsi", c!"iscsiname", c!"keyboard", c!"lang", c!"logging", c!"logvol", c!"mediacheck", c!"method", c!"monitor", c!"multipath", c!"network", c!"nfs", c!"partition", c!"raid", c!"repo", c!"rescue", c!"rootpw", c!"selinux", c!"services", c!"skipx", c!"sshpw", c!"timezone", c!"updates", c!"url", c!"user", c!"vnc", c!"volgroup", c!"xconfig", c!"zerombr", c!"zfcp"], rfl, by decide +kernel, nodup_codes (by decide +kernel), nodup_codes (by decide +kernel), by
    unfold commandMapF17
    exact (forall_mem_cons' (mem_at 0 rfl) (forall_mem_cons' (mem_at 0 rfl) (forall_mem_cons' (mem_at 1 rfl) (forall_mem_cons' (mem_at 2 rfl) (forall_mem_cons' (mem_at 3 rfl) (forall_mem_cons' (mem_at 4 rfl) (forall_mem_cons' (mem_at 5 rfl) (forall_mem_cons' (mem_at 6 rfl) (forall_mem_cons' (mem_at 7 rfl) (forall_mem_cons' (mem_at 8 rfl) (forall_mem_cons' (mem_at 9 rfl) (forall_mem_cons' (mem_at 10 rfl) (forall_mem_cons' (mem_at 11 rfl) (forall_mem_cons' (mem_at 12 rfl) (forall_mem_cons' (mem_at 13 rfl) (forall_mem_cons' (mem_at 14 rfl) (forall_mem_cons' (mem_at 7 rfl) (forall_mem_cons' (mem_at 15 rfl) (forall_mem_cons' (mem_at 16 rfl) (forall_mem_cons' (mem_at 17 rfl) (forall_mem_cons' (mem_at 18 rfl) (forall_mem_cons' (mem_at 19 rfl) (forall_mem_cons' (mem_at 20 rfl) (forall_mem_cons' (mem_at 21 rfl) (forall_mem_cons' (mem_at 22 rfl) (forall_mem_cons' (mem_at 23 rfl) (forall_mem_cons' (mem_at 24 rfl) (forall_mem_cons' (mem_at 25 rfl) (forall_mem_cons' (mem_at 26 rfl) (forall_mem_cons' (mem_at 27 rfl) (forall_mem_cons' (mem_at 28 rfl) (forall_mem_cons' (mem_at 29 rfl) (forall_mem_cons' (mem_at 30 rfl) (forall_mem_cons' (mem_at 31 rfl) (forall_mem_cons' (mem_at 32 rfl) (forall_mem_cons' (mem_at 32 rfl) (forall_mem_cons' (mem_at 16 rfl) (forall_mem_cons' (mem_at 33 rfl) (forall_mem_cons' (mem_at 16 rfl) (forall_mem_cons' (mem_at 34 rfl) (forall_mem_cons' (mem_at 35 rfl) (forall_mem_cons' (mem_at 36 rfl) (forall_mem_cons' (mem_at 37 rfl) (forall_mem_cons' (mem_at 38 rfl) (forall_mem_cons' (mem_at 16 rfl) (forall_mem_cons' (mem_at 39 rfl) (forall_mem_cons' (mem_at 40 rfl) (forall_mem_cons' (mem_at 7 rfl) (forall_mem_cons' (mem_at 41 rfl) (forall_mem_cons' (mem_at 42 rfl) (forall_mem_cons' (mem_at 19 rfl) (forall_mem_cons' (mem_at 43 rfl) (forall_mem_cons' (mem_at 44 rfl) (forall_mem_cons' (mem_at 45 rfl) (forall_mem_cons' (mem_at 46 rfl) (forall_mem_cons' (mem_at 47 rfl) (forall_mem_cons' (mem_at 48 rfl) (forall_mem_cons' (mem_at 49 rfl) (List.forall_mem_nil _)))))))))))))))))))))))))))))))))))))))))))))))))))))))))))⟩
  storage := by decide +kernel
  ok := commandMapF17_ok

theorem commandMapF18_ok : ∀ x ∈ commandMapF18, ∃ I, x.2.Ok I (Allowed Version.F18 x.1) := by
  unfold commandMapF18
  simp only [List.forall_mem_cons]
  exact ⟨⟨_, allow_parse ok_FC3_Authconfig⟩,
    ⟨_, allow_parse ok_FC3_Authconfig⟩,
    ⟨_, allow_parse ok_F18_AutoPart⟩,
    ⟨_, allow_parse ok_FC3_AutoStep⟩,
    ⟨_, allow_parse ok_F18_Bootloader⟩,
    ⟨_, allow_parse ok_F17_BTRFS_F17_BTRFSData⟩,
    ⟨_, allow_parse ok_FC3_Cdrom⟩,
    ⟨_, allow_parse ok_F17_ClearPart⟩,
    ⟨_, allow_parse ok_FC3_DisplayMode⟩,
    ⟨_, allow_parse ok_F8_Device_F8_DeviceData⟩,
    ⟨_, allow_parse ok_FC3_DeviceProbe⟩,
    ⟨_, allow_parse ok_FC6_DmRaid_FC6_DmRaidData⟩,
    ⟨_, allow_parse ok_F14_DriverDisk_F14_DriverDiskData⟩,
    ⟨_, allow_parse ok_F13_Fcoe_RHEL7_FcoeData⟩,
    ⟨_, allow_parse ok_F14_Firewall⟩,
    ⟨_, allow_parse ok_FC3_Firstboot⟩,
    ⟨_, allow_parse ok_FC3_DisplayMode⟩,
    ⟨_, allow_parse ok_F12_Group_F12_GroupData⟩,
    ⟨_, allow_parse ok_F18_Reboot⟩,
    ⟨_, allow_parse ok_FC3_HardDrive⟩,
    ⟨_, allow_parse ok_F14_IgnoreDisk⟩,
    ⟨_, allow_parse ok_F11_Upgrade⟩,
    ⟨_, allow_parse ok_F17_Iscsi_F17_IscsiData⟩,
    ⟨_, allow_parse ok_FC6_IscsiName⟩,
    ⟨_, allow_parse ok_F18_Keyboard⟩,
    ⟨_, allow_parse ok_FC3_Lang⟩,
    ⟨_, allow_parse ok_FC6_Logging⟩,
    ⟨_, allow_parse ok_F18_LogVol_F18_LogVolData⟩,
    ⟨_, allow_parse ok_FC4_MediaCheck⟩,
    ⟨_, allow_method (by decide) ok_F18_Method⟩,
    ⟨_, allow_parse ok_F18_Monitor⟩,
    ⟨_, allow_multipath (by decide) ok_FC6_MultiPath_FC6_MultiPathData⟩,
    ⟨_, allow_parse ok_F18_Network_F16_NetworkData⟩,
    ⟨_, allow_parse ok_FC6_NFS⟩,
    ⟨_, allow_parse ok_F18_Partition_F18_PartData⟩,
    ⟨_, allow_parse ok_F18_Partition_F18_PartData⟩,
    ⟨_, allow_parse ok_F18_Reboot⟩,
    ⟨_, allow_raid (by decide) ok_F18_Raid_F18_RaidData⟩,
    ⟨_, allow_parse ok_F18_Reboot⟩,
    ⟨_, allow_parse ok_F15_Repo_F15_RepoData⟩,
    ⟨_, allow_parse ok_F10_Rescue⟩,
    ⟨_, allow_parse ok_F18_RootPw⟩,
    ⟨_, allow_parse ok_FC3_SELinux⟩,
    ⟨_, allow_parse ok_FC6_Services⟩,
    ⟨_, allow_parse ok_F18_Reboot⟩,
    ⟨_, allow_parse ok_FC3_SkipX⟩,
    ⟨_, allow_parse ok_F13_SshPw_F13_SshPwData⟩,
    ⟨_, allow_parse ok_FC3_DisplayMode⟩,
    ⟨_, allow_parse ok_F18_Timezone⟩,
    ⟨_, allow_parse ok_F7_Updates⟩,
    ⟨_, allow_parse ok_F11_Upgrade⟩,
    ⟨_, allow_parse ok_F18_Url⟩,
    ⟨_, allow_parse ok_F12_User_F12_UserData⟩,
    ⟨_, allow_parse ok_F9_Vnc⟩,
    ⟨_, allow_parse ok_F16_VolGroup_F16_VolGroupData⟩,
    ⟨_, allow_parse ok_F14_XConfig⟩,
    ⟨_, allow_parse ok_F9_ZeroMbr⟩,
    ⟨_, allow_parse ok_F14_ZFCP_F14_ZFCPData⟩,
    List.forall_mem_nil _⟩

def classesF18 : List Command := [FC3_Authconfig.cls, F18_AutoPart.cls, FC3_AutoStep.cls, F18_Bootloader.cls, F17_BTRFS.cls F17_BTRFSData.cls, FC3_Cdrom.cls, F17_ClearPart.cls, FC3_DisplayMode.cls, F8_Device.cls F8_DeviceData.cls, FC3_DeviceProbe.cls, FC6_DmRaid.cls FC6_DmRaidData.cls, F14_DriverDisk.cls F14_DriverDiskData.cls, F13_Fcoe.cls RHEL7_FcoeData.cls, F14_Firewall.cls, FC3_Firstboot.cls, F12_Group.cls F12_GroupData.cls, F18_Reboot.cls, FC3_HardDrive.cls, F14_IgnoreDisk.cls, F11_Upgrade.cls, F17_Iscsi.cls F17_IscsiData.cls, FC6_IscsiName.cls, F18_Keyboard.cls, FC3_Lang.cls, FC6_Logging.cls, F18_LogVol.cls F18_LogVolData.cls, FC4_MediaCheck.cls, F18_Method.cls, F18_Monitor.cls, FC6_MultiPath.cls FC6_MultiPathData.cls, F18_Network.cls F16_NetworkData.cls, FC6_NFS.cls, F18_Partition.cls F18_PartData.cls, F18_Raid.cls F18_RaidData.cls, F15_Repo.cls F15_RepoData.cls, F10_Rescue.cls, F18_RootPw.cls, FC3_SELinux.cls, FC6_Services.cls, FC3_SkipX.cls, F13_SshPw.cls F13_SshPwData.cls, F18_Timezone.cls, F7_Updates.cls, F18_Url.cls, F12_User.cls F12_UserData.cls, F9_Vnc.cls, F16_VolGroup.cls F16_VolGroupData.cls, F14_XConfig.cls, F9_ZeroMbr.cls, F14_ZFCP.cls F14_ZFCPData.cls]

theorem commandMapF18_mapOk : MapOk Version.F18 commandMapF18 where
  dict := nodup_codes (by decide +kernel)
  classes := ⟨classesF18, [c!"FC3_Authconfig", c!"F18_AutoPart", c!"FC3_AutoStep", c!"F18_Bootloader", c!"F17_BTRFS", c!"FC3_Cdrom", c!"F17_ClearPart", c!"FC3_DisplayMode", c!"F8_Device", c!"FC3_DeviceProbe", c!"FC6_DmRaid", c!"F14_DriverDisk", c!"F13_Fcoe", c!"F14_Firewall", c!"FC3_Firstboot", c!"F12_Group", c!"F18_Reboot", c!"FC3_HardDrive", c!"F14_IgnoreDisk", c!"F11_Upgrade", c!"F17_Iscsi", c!"FC6_IscsiName", c!"F18_Keyboard", c!"FC3_Lang", c!"FC6_Logging", c!"F18_LogVol", c!"FC4_MediaCheck", c!"F18_Method", c!"F18_Monitor", c!"FC6_MultiPath", c!"F18_Network", c!"FC6_NFS", c!"F18_Partition", c!"F18_Raid", c!"F15_Repo", c!"F10_Rescue", c!"F18_RootPw", c!"FC3_SELinux", c!"FC6_Services", c!"FC3_SkipX", c!"F13_SshPw", c!"F18_Timezone", c!"F7_Updates", c!"F18_Url", c!"F12_User", c!"F9_Vnc", c!"F16_VolGroup", c!"F14_XConfig", c!"F9_ZeroMbr", c!"F14_ZFCP"], [c!"authconfig", c!"autopart", c!"autostep", c!"bootloader", c!"btrfs", c!"cdrom", c!"clearpart", c!"displaymode", c!"device", c!"deviceprobe", c!"dmraid", c!"driverdisk", c!"fcoe", c!"firewall", c!"firstboot", c!"group", c!"reboot", c!"harddrive", c!"ignoredisk", c!"upgrade", c!"iscsi", c!"iscsiname", c!"keyboard", c!"lang", c!"logging", c!"logvol", c!"mediacheck", c!"method", c!"monitor", c!"multipath", c!"network", c!"nfs", c!"partition", c!"raid", c!"repo", c!"rescue", c!"rootpw", c!"selinux", c!"services", c!"skipx", c!"sshpw", c!"timezone", c!"updates", c!"url", c!"user", c!"vnc", c!"volgroup", c!"xconfig", c!"zerombr", c!"zfcp"], rfl, by decide +kernel, nodup_codes (by decide +kernel), nodup_codes (by decide +kernel), by
    unfold commandMapF18
    exact (forall_mem_cons' (mem_at 0 rfl) (forall_mem_cons' (mem_at 0 rfl) (forall_mem_cons' (mem_at 1 rfl) (forall_mem_cons' (mem_at 2 rfl) (forall_mem_cons' (mem_at 3 rfl) (forall_mem_cons' (mem_at 4 rfl) (forall_mem_cons' (mem_at 5 rfl) (forall_mem_cons' (mem_at 6 rfl) (forall_mem_cons' (mem_at 7 rfl) (forall_mem_cons' (mem_at 8 rfl) (forall_mem_cons' (mem_at 9 rfl) (forall_mem_cons' (mem_at 10 rfl) (forall_mem_cons' (mem_at 11 rfl) (forall_mem_cons' (mem_at 12 rfl) (forall_mem_cons' (mem_at 13 rfl) (forall_mem_cons' (mem_at 14 rfl) (forall_mem_cons' (mem_at 7 rfl) (forall_mem_cons' (mem_at 15 rfl) (forall_mem_cons' (mem_at 16 rfl) (forall_mem_cons' (mem_at 17 rfl) (forall_mem_cons' (mem_at 18 rfl) (forall_mem_cons' (mem_at 19 rfl) (forall_mem_cons' (mem_at 20 rfl) (forall_mem_cons' (mem_at 21 rfl) (forall_mem_cons' (mem_at 22 rfl) (forall_mem_cons' (mem_at 23 rfl) (forall_mem_cons' (mem_at 24 rfl) (forall_mem_cons' (mem_at 25 rfl) (forall_mem_cons' (mem_at 26 rfl) (forall_mem_cons' (mem_at 27 rfl) (forall_mem_cons' (mem_at 28 rfl) (forall_mem_cons' (mem_at 29 rfl) (forall_mem_cons' (mem_at 30 rfl) (forall_mem_cons' (mem_at 31 rfl) (forall_mem_cons' (mem_at 32 rfl) (forall_mem_cons' (mem_at 32 rfl) (forall_mem_cons' (mem_at 16 rfl) (forall_mem_cons' (mem_at 33 rfl) (forall_mem_cons' (mem_at 16 rfl) (forall_mem_cons' (mem_at 34 rfl) (forall_mem_cons' (mem_at 35 rfl) (forall_mem_cons' (mem_at 36 rfl) (forall_mem_cons' (mem_at 37 rfl) (forall_mem_cons' (mem_at 38 rfl) (forall_mem_cons' (mem_at 16 rfl) (forall_mem_cons' (mem_at 39 rfl) (forall_mem_cons' (mem_at 40 rfl) (forall_mem_cons' (mem_at 7 rfl) (forall_mem_cons' (mem_at 41 rfl) (forall_mem_cons' (mem_at 42 rfl) (forall_mem_cons' (mem_at 19 rfl) (forall_mem_cons' (mem_at 43 rfl) (forall_mem_cons' (mem_at 44 rfl) (forall_mem_cons' (mem_at 45 rfl) (forall_mem_cons' (mem_at 46 rfl) (forall_mem_cons' (mem_at 47 rfl) (forall_mem_cons' (mem_at 48 rfl) (forall_mem_cons' (mem_at 49 rfl) (List.forall_mem_nil _)))))))))))))))))))))))))))))))))))))))))))))))))))))))))))⟩
  storage := by decide +kernel
  ok := commandMapF18_ok

theorem commandMapF19_ok : ∀ x ∈ commandMapF19, ∃ I, x.2.Ok I (Allowed Version.F19 x.1) := by
  unfold commandMapF19
  simp only [List.forall_mem_cons]
  exact ⟨⟨_, allow_parse ok_FC3_Authconfig⟩,
    ⟨_, allow_parse ok_FC3_Authconfig⟩,
    ⟨_, allow_parse ok_F18_AutoPart⟩,
    ⟨_, allow_parse ok_FC3_AutoStep⟩,
    ⟨_, allow_parse ok_F19_Bootloader⟩,
    ⟨_, allow_parse ok_F17_BTRFS_F17_BTRFSData⟩,
    ⟨_, allow_parse ok_FC3_Cdrom⟩,
    ⟨_, allow_parse ok_F17_ClearPart⟩,
    ⟨_, allow_parse ok_FC3_DisplayMode⟩,
    ⟨_, allow_parse ok_F8_Device_F8_DeviceData⟩,
    ⟨_, allow_parse ok_FC3_DeviceProbe⟩,
    ⟨_, allow_parse ok_FC6_DmRaid_FC6_DmRaidData⟩,
    ⟨_, allow_parse ok_F14_DriverDisk_F14_DriverDiskData⟩,
    ⟨_, allow_parse ok_F13_Fcoe_F13_FcoeData⟩,
    ⟨_, allow_parse ok_F14_Firewall⟩,
    ⟨_, allow_parse ok_FC3_Firstboot⟩,
    ⟨_, allow_parse ok_FC3_DisplayMode⟩,
    ⟨_, allow_parse ok_F12_Group_F12_GroupData⟩,
    ⟨_, allow_parse ok_F18_Reboot⟩,
    ⟨_, allow_parse ok_FC3_HardDrive⟩,
    ⟨_, allow_parse ok_F14_IgnoreDisk⟩,
    ⟨_, allow_parse ok_F11_Upgrade⟩,
    ⟨_, allow_parse ok_F17_Iscsi_F17_IscsiData⟩,
    ⟨_, allow_parse ok_FC6_IscsiName⟩,
    ⟨_, allow_parse ok_F18_Keyboard⟩,
    ⟨_, allow_parse ok_F19_Lang⟩,
    ⟨_, allow_parse ok_F19_Liveimg⟩,
    ⟨_, allow_parse ok_FC6_Logging⟩,
    ⟨_, allow_parse ok_F18_LogVol_F20_LogVolData⟩,
    ⟨_, allow_parse ok_FC4_MediaCheck⟩,
    ⟨_, allow_method (by decide) ok_F19_Method⟩,
    ⟨_, allow_multipath (by decide) ok_FC6_MultiPath_FC6_MultiPathData⟩,
    ⟨_, allow_parse ok_F19_Network_F19_NetworkData⟩,
    ⟨_, allow_parse ok_FC6_NFS⟩,
    ⟨_, allow_parse ok_F18_Partition_F18_PartData⟩,
    ⟨_, allow_parse ok_F18_Partition_F18_PartData⟩,
    ⟨_, allow_parse ok_F18_Reboot⟩,
    ⟨_, allow_parse ok_F19_Raid_F18_RaidData⟩,
    ⟨_, allow_realm ok_F19_Realm⟩,
    ⟨_, allow_parse ok_F18_Reboot⟩,
    ⟨_, allow_parse ok_F15_Repo_F15_RepoData⟩,
    ⟨_, allow_parse ok_F10_Rescue⟩,
    ⟨_, allow_parse ok_F18_RootPw⟩,
    ⟨_, allow_parse ok_FC3_SELinux⟩,
    ⟨_, allow_parse ok_FC6_Services⟩,
    ⟨_, allow_parse ok_F18_Reboot⟩,
    ⟨_, allow_parse ok_FC3_SkipX⟩,
    ⟨_, allow_parse ok_F13_SshPw_F13_SshPwData⟩,
    ⟨_, allow_parse ok_FC3_DisplayMode⟩,
    ⟨_, allow_parse ok_F18_Timezone⟩,
    ⟨_, allow_parse ok_F7_Updates⟩,
    ⟨_, allow_parse ok_F11_Upgrade⟩,
    ⟨_, allow_parse ok_F18_Url⟩,
    ⟨_, allow_parse ok_F19_User_F19_UserData⟩,
    ⟨_, allow_parse ok_F9_Vnc⟩,
    ⟨_, allow_parse ok_F16_VolGroup_F16_VolGroupData⟩,
    ⟨_, allow_parse ok_F14_XConfig⟩,
    ⟨_, allow_parse ok_F9_ZeroMbr⟩,
    ⟨_, allow_parse ok_F14_ZFCP_F14_ZFCPData⟩,
    List.forall_mem_nil _⟩

def classesF19 : List Command := [FC3_Authconfig.cls, F18_AutoPart.cls, FC3_AutoStep.cls, F19_Bootloader.cls, F17_BTRFS.cls F17_BTRFSData.cls, FC3_Cdrom.cls, F17_ClearPart.cls, FC3_DisplayMode.cls, F8_Device.cls F8_DeviceData.cls, FC3_DeviceProbe.cls, FC6_DmRaid.cls FC6_DmRaidData.cls, F14_DriverDisk.cls F14_DriverDiskData.cls, F13_Fcoe.cls F13_FcoeData.cls, F14_Firewall.cls, FC3_Firstboot.cls, F12_Group.cls F12_GroupData.cls, F18_Reboot.cls, FC3_HardDrive.cls, F14_IgnoreDisk.cls, F11_Upgrade.cls, F17_Iscsi.cls F17_IscsiData.cls, FC6_IscsiName.cls, F18_Keyboard.cls, F19_Lang.cls, F19_Liveimg.cls, FC6_Logging.cls, F18_LogVol.cls F20_LogVolData.cls, FC4_MediaCheck.cls, F19_Method.cls, FC6_MultiPath.cls FC6_MultiPathData.cls, F19_Network.cls F19_NetworkData.cls, FC6_NFS.cls, F18_Partition.cls F18_PartData.cls, F19_Raid.cls F18_RaidData.cls, F19_Realm.cls, F15_Repo.cls F15_RepoData.cls, F10_Rescue.cls, F18_RootPw.cls, FC3_SELinux.cls, FC6_Services.cls, FC3_SkipX.cls, F13_SshPw.cls F13_SshPwData.cls, F18_Timezone.cls, F7_Updates.cls, F18_Url.cls, F19_User.cls F19_UserData.cls, F9_Vnc.cls, F16_VolGroup.cls F16_VolGroupData.cls, F14_XConfig.cls, F9_ZeroMbr.cls, F14_ZFCP.cls F14_ZFCPData.cls]

theorem commandMapF19_mapOk : MapOk Version.F19 commandMapF19 where
  dict := nodup_codes (by decide +kernel)
  classes := ⟨classesF19, [c!"FC3_Authconfig", c!"F18_AutoPart", c!"FC3_AutoStep", c!"F19_Bootloader", c!"F17_BTRFS", c!"FC3_Cdrom", c!"F17_ClearPart", c!"FC3_DisplayMode", c!"F8_Device", c!"FC3_DeviceProbe", c!"FC6_DmRaid", c!"F14_DriverDisk", c!"F13_Fcoe", c!"F14_Firewall", c!"FC3_Firstboot", c!"F12_Group", c!"F18_Reboot", c!"FC3_HardDrive", c!"F14_IgnoreDisk", c!"F11_Upgrade", c!"F17_Iscsi", c!"FC6_IscsiName", c!"F18_Keyboard", c!"F19_Lang", c!"F19_Liveimg", c!"FC6_Logging", c!"F18_LogVol", c!"FC4_MediaCheck", c!"F19_Method", c!"FC6_MultiPath", c!"F19_Network", c!"FC6_NFS", c!"F18_Partition", c!"F19_Raid", c!"F19_Realm", c!"F15_Repo", c!"F10_Rescue", c!"F18_RootPw", c!"FC3_SELinux", c!"FC6_Services", c!"FC3_SkipX", c!"F13_SshPw", c!"F18_Timezone", c!"F7_Updates", c!"F18_Url", c!"F19_User", c!"F9_Vnc", c!"F16_VolGroup", c!"F14_XConfig", c!"F9_ZeroMbr", c!"F14_ZFCP"], [c!"authconfig", c!"autopart", c!"autostep", c!"bootloader", c!"btrfs", c!"cdrom", c!"clearpart", c!"displaymode", c!"device", c!"deviceprobe", c!"dmraid", c!"driverdisk", c!"fcoe", c!"firewall", c!"firstboot", c!"group", c!"reboot", c!"harddrive", c!"ignoredisk", c!"upgrade", c!"iscsi", c!"iscsiname", c!"keyboard", c!"lang", c!"liveimg", c!"logging", c!"logvol", c!"mediacheck", c!"method", c!"multipath", c!"network", c!"nfs", c!"partition", c!"raid", c!"realm", c!"repo", c!"rescue", c!"rootpw", c!"selinux", c!"services", c!"skipx", c!"sshpw", c!"timezone", c!"updates", c!"url", c!"user", c!"vnc", c!"volgroup", c!"xconfig", c!"zerombr", c!"zfcp"], rfl, by decide +kernel, nodup_codes (by decide +kernel), nodup_codes (by decide +kernel), by
    unfold commandMapF19
    exact (forall_mem_cons' (mem_at 0 rfl) (forall_mem_cons' (mem_at 0 rfl) (forall_mem_cons' (mem_at 1 rfl) (forall_mem_cons' (mem_at 2 rfl) (forall_mem_cons' (mem_at 3 rfl) (forall_mem_cons' (mem_at 4 rfl) (forall_mem_cons' (mem_at 5 rfl) (forall_mem_cons' (mem_at 6 rfl) (forall_mem_cons' (mem_at 7 rfl) (forall_mem_cons' (mem_at 8 rfl) (forall_mem_cons' (mem_at 9 rfl) (forall_mem_cons' (mem_at 10 rfl) (forall_mem_cons' (mem_at 11 rfl) (forall_mem_cons' (mem_at 12 rfl) (forall_mem_cons' (mem_at 13 rfl) (forall_mem_cons' (mem_at 14 rfl) (forall_mem_cons' (mem_at 7 rfl) (forall_mem_cons' (mem_at 15 rfl) (forall_mem_cons' (mem_at 16 rfl) (forall_mem_cons' (mem_at 17 rfl) (forall_mem_cons' (mem_at 18 rfl) (forall_mem_cons' (mem_at 19 rfl) (forall_mem_cons' (mem_at 20 rfl) (forall_mem_cons' (mem_at 21 rfl) (forall_mem_cons' (mem_at 22 rfl) (forall_mem_cons' (mem_at 23 rfl) (forall_mem_cons' (mem_at 24 rfl) (forall_mem_cons' (mem_at 25 rfl) (forall_mem_cons' (mem_at 26 rfl) (forall_mem_cons' (mem_at 27 rfl) (forall_mem_cons' (mem_at 28 rfl) (forall_mem_cons' (mem_at 29 rfl) (forall_mem_cons' (mem_at 30 rfl) (forall_mem_cons' (mem_at 31 rfl) (forall_mem_cons' (mem_at 32 rfl) (forall_mem_cons' (mem_at 32 rfl) (forall_mem_cons' (mem_at 16 rfl) (forall_mem_cons' (mem_at 33 rfl) (forall_mem_cons' (mem_at 34 rfl) (forall_mem_cons' (mem_at 16 rfl) (forall_mem_cons' (mem_at 35 rfl) (forall_mem_cons' (mem_at 36 rfl) (forall_mem_cons' (mem_at 37 rfl) (forall_mem_cons' (mem_at 38 rfl) (forall_mem_cons' (mem_at 39 rfl) (forall_mem_cons' (mem_at 16 rfl) (forall_mem_cons' (mem_at 40 rfl) (forall_mem_cons' (mem_at 41 rfl) (forall_mem_cons' (mem_at 7 rfl) (forall_mem_cons' (mem_at 42 rfl) (forall_mem_cons' (mem_at 43 rfl) (forall_mem_cons' (mem_at 19 rfl) (forall_mem_cons' (mem_at 44 rfl) (forall_mem_cons' (mem_at 45 rfl) (forall_mem_cons' (mem_at 46 rfl) (forall_mem_cons' (mem_at 47 rfl) (forall_mem_cons' (mem_at 48 rfl) (forall_mem_cons' (mem_at 49 rfl) (forall_mem_cons' (mem_at 50 rfl) (List.forall_mem_nil _))))))))))))))))))))))))))))))))))))))))))))))))))))))))))))⟩
  storage := by decide +kernel
  ok := commandMapF19_ok

theorem commandMapF20_ok : ∀ x ∈ commandMapF20, ∃ I, x.2.Ok I (Allowed Version.F20 x.1) := by
  unfold commandMapF20
  simp only [List.forall_mem_cons]
  exact ⟨⟨_, allow_parse ok_FC3_Authconfig⟩,
    ⟨_, allow_parse ok_FC3_Authconfig⟩,
    ⟨_, allow_parse ok_F20_AutoPart⟩,
    ⟨_, allow_parse ok_FC3_AutoStep⟩,
    ⟨_, allow_parse ok_F19_Bootloader⟩,
    ⟨_, allow_parse ok_F17_BTRFS_F17_BTRFSData⟩,
    ⟨_, allow_parse ok_FC3_Cdrom⟩,
    ⟨_, allow_parse ok_F17_ClearPart⟩,
    ⟨_, allow_parse ok_FC3_DisplayMode⟩,
    ⟨_, allow_parse ok_F8_Device_F8_DeviceData⟩,
    ⟨_, allow_parse ok_FC3_DeviceProbe⟩,
    ⟨_, allow_parse ok_FC6_DmRaid_FC6_DmRaidData⟩,
    ⟨_, allow_parse ok_F14_DriverDisk_F14_DriverDiskData⟩,
    ⟨_, allow_parse ok_F20_Eula⟩,
    ⟨_, allow_parse ok_F13_Fcoe_F13_FcoeData⟩,
    ⟨_, allow_parse ok_F20_Firewall⟩,
    ⟨_, allow_parse ok_FC3_Firstboot⟩,
    ⟨_, allow_parse ok_FC3_DisplayMode⟩,
    ⟨_, allow_parse ok_F12_Group_F12_GroupData⟩,
    ⟨_, allow_parse ok_F18_Reboot⟩,
    ⟨_, allow_parse ok_FC3_HardDrive⟩,
    ⟨_, allow_parse ok_F14_IgnoreDisk⟩,
    ⟨_, allow_parse ok_F20_Install⟩,
    ⟨_, allow_parse ok_F17_Iscsi_F17_IscsiData⟩,
    ⟨_, allow_parse ok_FC6_IscsiName⟩,
    ⟨_, allow_parse ok_F18_Keyboard⟩,
    ⟨_, allow_parse ok_F19_Lang⟩,
    ⟨_, allow_parse ok_F19_Liveimg⟩,
    ⟨_, allow_parse ok_FC6_Logging⟩,
    ⟨_, allow_parse ok_F20_LogVol_F20_LogVolData⟩,
    ⟨_, allow_parse ok_FC4_MediaCheck⟩,
    ⟨_, allow_method (by decide) ok_F19_Method⟩,
    ⟨_, allow_multipath (by decide) ok_FC6_MultiPath_FC6_MultiPathData⟩,
    ⟨_, allow_parse ok_F20_Network_F20_NetworkData⟩,
    ⟨_, allow_parse ok_FC6_NFS⟩,
    ⟨_, allow_parse ok_F20_Partition_F18_PartData⟩,
    ⟨_, allow_parse ok_F20_Partition_F18_PartData⟩,
    ⟨_, allow_parse ok_F18_Reboot⟩,
    ⟨_, allow_parse ok_F20_Raid_F18_RaidData⟩,
    ⟨_, allow_realm ok_F19_Realm⟩,
    ⟨_, allow_parse ok_F18_Reboot⟩,
    ⟨_, allow_parse ok_F15_Repo_F15_RepoData⟩,
    ⟨_, allow_parse ok_F10_Rescue⟩,
    ⟨_, allow_parse ok_F18_RootPw⟩,
    ⟨_, allow_parse ok_FC3_SELinux⟩,
    ⟨_, allow_parse ok_FC6_Services⟩,
    ⟨_, allow_parse ok_F18_Reboot⟩,
    ⟨_, allow_parse ok_FC3_SkipX⟩,
    ⟨_, allow_parse ok_F13_SshPw_F13_SshPwData⟩,
    ⟨_, allow_parse ok_FC3_DisplayMode⟩,
    ⟨_, allow_parse ok_F18_Timezone⟩,
    ⟨_, allow_parse ok_F7_Updates⟩,
    ⟨_, allow_parse ok_F20_Upgrade⟩,
    ⟨_, allow_parse ok_F18_Url⟩,
    ⟨_, allow_parse ok_F19_User_F19_UserData⟩,
    ⟨_, allow_parse ok_F9_Vnc⟩,
    ⟨_, allow_parse ok_F16_VolGroup_F16_VolGroupData⟩,
    ⟨_, allow_parse ok_F14_XConfig⟩,
    ⟨_, allow_parse ok_F9_ZeroMbr⟩,
    ⟨_, allow_parse ok_F14_ZFCP_F14_ZFCPData⟩,
    List.forall_mem_nil _⟩

def classesF20 : List Command := [FC3_Authconfig.cls, F20_AutoPart.cls, FC3_AutoStep.cls, F19_Bootloader.cls, F17_BTRFS.cls F17_BTRFSData.cls, FC3_Cdrom.cls, F17_ClearPart.cls, FC3_DisplayMode.cls, F8_Device.cls F8_DeviceData.cls, FC3_DeviceProbe.cls, FC6_DmRaid.cls FC6_DmRaidData.cls, F14_DriverDisk.cls F14_DriverDiskData.cls, F20_Eula.cls, F13_Fcoe.cls F13_FcoeData.cls, F20_Firewall.cls, FC3_Firstboot.cls, F12_Group.cls F12_GroupData.cls, F18_Reboot.cls, FC3_HardDrive.cls, F14_IgnoreDisk.cls, F20_Install.cls, F17_Iscsi.cls F17_IscsiData.cls, FC6_IscsiName.cls, F18_Keyboard.cls, F19_Lang.cls, F19_Liveimg.cls, FC6_Logging.cls, F20_LogVol.cls F20_LogVolData.cls, FC4_MediaCheck.cls, F19_Method.cls, FC6_MultiPath.cls FC6_MultiPathData.cls, F20_Network.cls F20_NetworkData.cls, FC6_NFS.cls, F20_Partition.cls F18_PartData.cls, F20_Raid.cls F18_RaidData.cls, F19_Realm.cls, F15_Repo.cls F15_RepoData.cls, F10_Rescue.cls, F18_RootPw.cls, FC3_SELinux.cls, FC6_Services.cls, FC3_SkipX.cls, F13_SshPw.cls F13_SshPwData.cls, F18_Timezone.cls, F7_Updates.cls, F20_Upgrade.cls, F18_Url.cls, F19_User.cls F19_UserData.cls, F9_Vnc.cls, F16_VolGroup.cls F16_VolGroupData.cls, F14_XConfig.cls, F9_ZeroMbr.cls, F14_ZFCP.cls F14_ZFCPData.cls]

theorem commandMapF20_mapOk : MapOk Version.F20 commandMapF20 where
  dict := nodup_codes (by decide +kernel)
  classes := ⟨classesF20, [c!"FC3_Authconfig", c!"F20_AutoPart", c!"FC3_AutoStep", c!"F19_Bootloader", c!"F17_BTRFS", c!"FC3_Cdrom", c!"F17_ClearPart", c!"FC3_DisplayMode", c!"F8_Device", c!"FC3_DeviceProbe", c!"FC6_DmRaid", c!"F14_DriverDisk", c!"F20_Eula", c!"F13_Fcoe", c!"F20_Firewall", c!"FC3_Firstboot", c!"F12_Group", c!"F18_Reboot", c!"FC3_HardDrive", c!"F14_IgnoreDisk", c!"F20_Install", c!"F17_Iscsi", c!"FC6_IscsiName", c!"F18_Keyboard", c!"F19_Lang", c!"F19_Liveimg", c!"FC6_Logging", c!"F20_LogVol", c!"FC4_MediaCheck", c!"F19_Method", c!"FC6_MultiPath", c!"F20_Network", c!"FC6_NFS", c!"F20_Partition", c!"F20_Raid", c!"F19_Realm", c!"F15_Repo", c!"F10_Rescue", c!"F18_RootPw", c!"FC3_SELinux", c!"FC6_Services", c!"FC3_SkipX", c!"F13_SshPw", c!"F18_Timezone", c!"F7_Updates", c!"F20_Upgrade", c!"F18_Url", c!"F19_User", c!"F9_Vnc", c!"F16_VolGroup", c!"F14_XConfig", c!"F9_ZeroMbr", c!"F14_ZFCP"], [c!"authconfig", c!"autopart", c!"autostep", c!"bootloader", c!"btrfs", c!"cdrom", c!"clearpart", c!"displaymode", c!"device", c!"deviceprobe", c!"dmraid", c!"driverdisk", c!"eula", c!"fcoe", c!"firewall", c!"firstboot", c!"group", c!"reboot", c!"harddrive", c!"ignoredisk", c!"install", c!"iscsi", c!"iscsiname", c!"keyboard", c!"lang", c!"liveimg", c!"logging", c!"logvol", c!"mediacheck", c!"method", c!"multipath", c!"network", c!"nfs", c!"partition", c!"raid", c!"realm", c!"repo", c!"rescue", c!"rootpw", c!"selinux", c!"services", c!"skipx", c!"sshpw", c!"timezone", c!"updates", c!"upgrade", c!"url", c!"user", c!"vnc", c!"volgroup", c!"xconfig", c!"zerombr", c!"zfcp"], rfl, by decide +kernel, nodup_codes (by decide +kernel), nodup_codes (by decide +kernel), by
    unfold commandMapF20
    exact (forall_mem_cons' (mem_at 0 rfl) (forall_mem_cons' (mem_at 0 rfl) (forall_mem_cons' (mem_at 1 rfl) (forall_mem_cons' (mem_at 2 rfl) (forall_mem_cons' (mem_at 3 rfl) (forall_mem_cons' (mem_at 4 rfl) (forall_mem_cons' (mem_at 5 rfl) (forall_mem_cons' (mem_at 6 rfl) (forall_mem_cons' (mem_at 7 rfl) (forall_mem_cons' (mem_at 8 rfl) (forall_mem_cons' (mem_at 9 rfl) (forall_mem_cons' (mem_at 10 rfl) (forall_mem_cons' (mem_at 11 rfl) (forall_mem_cons' (mem_at 12 rfl) (forall_mem_cons' (mem_at 13 rfl) (forall_mem_cons' (mem_at 14 rfl) (forall_mem_cons' (mem_at 15 rfl) (forall_mem_cons' (mem_at 7 rfl) (forall_mem_cons' (mem_at 16 rfl) (forall_mem_cons' (mem_at 17 rfl) (forall_mem_cons' (mem_at 18 rfl) (forall_mem_cons' (mem_at 19 rfl) (forall_mem_cons' (mem_at 20 rfl) (forall_mem_cons' (mem_at 21 rfl) (forall_mem_cons' (mem_at 22 rfl) (forall_mem_cons' (mem_at 23 rfl) (forall_mem_cons' (mem_at 24 rfl) (forall_mem_cons' (mem_at 25 rfl) (forall_mem_cons' (mem_at 26 rfl) (forall_mem_cons' (mem_at 27 rfl) (forall_mem_cons' (mem_at 28 rfl) (forall_mem_cons' (mem_at 29 rfl) (forall_mem_cons' (mem_at 30 rfl) (forall_mem_cons' (mem_at 31 rfl) (forall_mem_cons' (mem_at 32 rfl) (forall_mem_cons' (mem_at 33 rfl) (forall_mem_cons' (mem_at 33 rfl) (forall_mem_cons' (mem_at 17 rfl) (forall_mem_cons' (mem_at 34 rfl) (forall_mem_cons' (mem_at 35 rfl) (forall_mem_cons' (mem_at 17 rfl) (forall_mem_cons' (mem_at 36 rfl) (forall_mem_cons' (mem_at 37 rfl) (forall_mem_cons' (mem_at 38 rfl) (forall_mem_cons' (mem_at 39 rfl) (forall_mem_cons' (mem_at 40 rfl) (forall_mem_cons' (mem_at 17 rfl) (forall_mem_cons' (mem_at 41 rfl) (forall_mem_cons' (mem_at 42 rfl) (forall_mem_cons' (mem_at 7 rfl) (forall_mem_cons' (mem_at 43 rfl) (forall_mem_cons' (mem_at 44 rfl) (forall_mem_cons' (mem_at 45 rfl) (forall_mem_cons' (mem_at 46 rfl) (forall_mem_cons' (mem_at 47 rfl) (forall_mem_cons' (mem_at 48 rfl) (forall_mem_cons' (mem_at 49 rfl) (forall_mem_cons' (mem_at 50 rfl) (forall_mem_cons' (mem_at 51 rfl) (forall_mem_cons' (mem_at 52 rfl) (List.forall_mem_nil _)))))))))))))))))))))))))))))))))))))))))))))))))))))))))))))⟩
  storage := by decide +kernel
  ok := commandMapF20_ok

theorem commandMapF21_ok : ∀ x ∈ commandMapF21, ∃ I, x.2.Ok I (Allowed Version.F21 x.1) := by
  unfold commandMapF21
  simp only [List.forall_mem_cons]
  exact ⟨⟨_, allow_parse ok_FC3_Authconfig⟩,
    ⟨_, allow_parse ok_FC3_Authconfig⟩,
    ⟨_, allow_parse ok_F21_AutoPart⟩,
    ⟨_, allow_parse ok_FC3_AutoStep⟩,
    ⟨_, allow_parse ok_F21_Bootloader⟩,
    ⟨_, allow_parse ok_F17_BTRFS_F17_BTRFSData⟩,
    ⟨_, allow_parse ok_FC3_Cdrom⟩,
    ⟨_, allow_parse ok_F21_ClearPart⟩,
    ⟨_, allow_parse ok_FC3_DisplayMode⟩,
    ⟨_, allow_parse ok_F8_Device_F8_DeviceData⟩,
    ⟨_, allow_parse ok_FC3_DeviceProbe⟩,
    ⟨_, allow_parse ok_FC6_DmRaid_FC6_DmRaidData⟩,
    ⟨_, allow_parse ok_F14_DriverDisk_F14_DriverDiskData⟩,
    ⟨_, allow_parse ok_F20_Eula⟩,
    ⟨_, allow_parse ok_F13_Fcoe_F13_FcoeData⟩,
    ⟨_, allow_parse ok_F20_Firewall⟩,
    ⟨_, allow_parse ok_FC3_Firstboot⟩,
    ⟨_, allow_parse ok_FC3_DisplayMode⟩,
    ⟨_, allow_parse ok_F12_Group_F12_GroupData⟩,
    ⟨_, allow_parse ok_F18_Reboot⟩,
    ⟨_, allow_parse ok_FC3_HardDrive⟩,
    ⟨_, allow_parse ok_F14_IgnoreDisk⟩,
    ⟨_, allow_parse ok_F20_Install⟩,
    ⟨_, allow_parse ok_F17_Iscsi_F17_IscsiData⟩,
    ⟨_, allow_parse ok_FC6_IscsiName⟩,
    ⟨_, allow_parse ok_F18_Keyboard⟩,
    ⟨_, allow_parse ok_F19_Lang⟩,
    ⟨_, allow_parse ok_F19_Liveimg⟩,
    ⟨_, allow_parse ok_FC6_Logging⟩,
    ⟨_, allow_parse ok_F21_LogVol_F21_LogVolData⟩,
    ⟨_, allow_parse ok_FC4_MediaCheck⟩,
    ⟨_, allow_method (by decide) ok_F19_Method⟩,
    ⟨_, allow_multipath (by decide) ok_FC6_MultiPath_FC6_MultiPathData⟩,
    ⟨_, allow_parse ok_F21_Network_F21_NetworkData⟩,
    ⟨_, allow_parse ok_FC6_NFS⟩,
    ⟨_, allow_parse ok_F21_OSTreeSetup⟩,
    ⟨_, allow_parse ok_F20_Partition_F18_PartData⟩,
    ⟨_, allow_parse ok_F20_Partition_F18_PartData⟩,
    ⟨_, allow_parse ok_F18_Reboot⟩,
    ⟨_, allow_parse ok_F20_Raid_F18_RaidData⟩,
    ⟨_, allow_realm ok_F19_Realm⟩,
    ⟨_, allow_parse ok_F18_Reboot⟩,
    ⟨_, allow_parse ok_F21_Repo_F21_RepoData⟩,
    ⟨_, allow_parse ok_F10_Rescue⟩,
    ⟨_, allow_parse ok_F18_RootPw⟩,
    ⟨_, allow_parse ok_FC3_SELinux⟩,
    ⟨_, allow_parse ok_FC6_Services⟩,
    ⟨_, allow_parse ok_F18_Reboot⟩,
    ⟨_, allow_parse ok_FC3_SkipX⟩,
    ⟨_, allow_parse ok_F13_SshPw_F13_SshPwData⟩,
    ⟨_, allow_parse ok_FC3_DisplayMode⟩,
    ⟨_, allow_parse ok_F18_Timezone⟩,
    ⟨_, allow_parse ok_F7_Updates⟩,
    ⟨_, allow_parse ok_F20_Upgrade⟩,
    ⟨_, allow_parse ok_F18_Url⟩,
    ⟨_, allow_parse ok_F19_User_F19_UserData⟩,
    ⟨_, allow_parse ok_F9_Vnc⟩,
    ⟨_, allow_parse ok_F21_VolGroup_F21_VolGroupData⟩,
    ⟨_, allow_parse ok_F14_XConfig⟩,
    ⟨_, allow_parse ok_F9_ZeroMbr⟩,
    ⟨_, allow_parse ok_F14_ZFCP_F14_ZFCPData⟩,
    List.forall_mem_nil _⟩

def classesF21 : List Command := [FC3_Authconfig.cls, F21_AutoPart.cls, FC3_AutoStep.cls, F21_Bootloader.cls, F17_BTRFS.cls F17_BTRFSData.cls, FC3_Cdrom.cls, F21_ClearPart.cls, FC3_DisplayMode.cls, F8_Device.cls F8_DeviceData.cls, FC3_DeviceProbe.cls, FC6_DmRaid.cls FC6_DmRaidData.cls, F14_DriverDisk.cls F14_DriverDiskData.cls, F20_Eula.cls, F13_Fcoe.cls F13_FcoeData.cls, F20_Firewall.cls, FC3_Firstboot.cls, F12_Group.cls F12_GroupData.cls, F18_Reboot.cls, FC3_HardDrive.cls, F14_IgnoreDisk.cls, F20_Install.cls, F17_Iscsi.cls F17_IscsiData.cls, FC6_IscsiName.cls, F18_Keyboard.cls, F19_Lang.cls, F19_Liveimg.cls, FC6_Logging.cls, F21_LogVol.cls F21_LogVolData.cls, FC4_MediaCheck.cls, F19_Method.cls, FC6_MultiPath.cls FC6_MultiPathData.cls, F21_Network.cls F21_NetworkData.cls, FC6_NFS.cls, F21_OSTreeSetup.cls, F20_Partition.cls F18_PartData.cls, F20_Raid.cls F18_RaidData.cls, F19_Realm.cls, F21_Repo.cls F21_RepoData.cls, F10_Rescue.cls, F18_RootPw.cls, FC3_SELinux.cls, FC6_Services.cls, FC3_SkipX.cls, F13_SshPw.cls F13_SshPwData.cls, F18_Timezone.cls, F7_Updates.cls, F20_Upgrade.cls, F18_Url.cls, F19_User.cls F19_UserData.cls, F9_Vnc.cls, F21_VolGroup.cls F21_VolGroupData.cls, F14_XConfig.cls, F9_ZeroMbr.cls, F14_ZFCP.cls F14_ZFCPData.cls]

theorem commandMapF21_mapOk : MapOk Version.F21 commandMapF21 where
  dict := nodup_codes (by decide +kernel)
  classes := ⟨classesF21, [c!"FC3_Authconfig", c!"F21_AutoPart", c!"FC3_AutoStep", c!"F21_Bootloader", c!"F17_BTRFS", c!"FC3_Cdrom", c!"F21_ClearPart", c!"FC3_DisplayMode", c!"F8_Device", c!"FC3_DeviceProbe", c!"FC6_DmRaid", c!"F14_DriverDisk", c!"F20_Eula", c!"F13_Fcoe", c!"F20_Firewall", c!"FC3_Firstboot", c!"F12_Group", c!"F18_Reboot", c!"FC3_HardDrive", c!"F14_IgnoreDisk", c!"F20_Install", c!"F17_Iscsi", c!"FC6_IscsiName", c!"F18_Keyboard", c!"F19_Lang", c!"F19_Liveimg", c!"FC6_Logging", c!"F21_LogVol", c!"FC4_MediaCheck", c!"F19_Method", c!"FC6_MultiPath", c!"F21_Network", c!"FC6_NFS", c!"F21_OSTreeSetup", c!"F20_Partition", c!"F20_Raid", c!"F19_Realm", c!"F21_Repo", c!"F10_Rescue", c!"F18_RootPw", c!"FC3_SELinux", c!"FC6_Services", c!"FC3_SkipX", c!"F13_SshPw", c!"F18_Timezone", c!"F7_Updates", c!"F20_Upgrade", c!"F18_Url", c!"F19_User", c!"F9_Vnc", c!"F21_VolGroup", c!"F14_XConfig", c!"F9_ZeroMbr", c!"F14_ZFCP"], [c!"authconfig", c!"autopart", c!"autostep", c!"bootloader", c!"btrfs", c!"cdrom", c!"clearpart", c!"displaymode", c!"device", c!"deviceprobe", c!"dmraid", c!"driverdisk", c!"eula", c!"fcoe", c!"firewall", c!"firstboot", c!"group", c!"reboot", c!"harddrive", c!"ignoredisk", c!"install", c!"iscsi", c!"iscsiname", c!"keyboard", c!"lang", c!"liveimg", c!"logging", c!"logvol", c!"mediacheck", c!"method", c!"multipath", c!"network", c!"nfs", c!"ostreesetup", c!"partition", c!"raid", c!"realm", c!"repo", c!"rescue", c!"rootpw", c!"selinux", c!"services", c!"skipx", c!"sshpw", c!"timezone", c!"updates", c!"upgrade", c!"url", c!"user", c!"vnc", c!"volgroup", c!"xconfig", c!"zerombr", c!"zfcp"], rfl, by decide +kernel, nodup_codes (by decide +kernel), nodup_codes (by decide +kernel), by
    unfold commandMapF21
    exact (forall_mem_cons' (mem_at 0 rfl) (forall_mem_cons' (mem_at 0 rfl) (forall_mem_cons' (mem_at 1 rfl) (forall_mem_cons' (mem_at 2 rfl) (forall_mem_cons' (mem_at 3 rfl) (forall_mem_cons' (mem_at 4 rfl) (forall_mem_cons' (mem_at 5 rfl) (forall_mem_cons' (mem_at 6 rfl) (forall_mem_cons' (mem_at 7 rfl) (forall_mem_cons' (mem_at 8 rfl) (forall_mem_cons' (mem_at 9 rfl) (forall_mem_cons' (mem_at 10 rfl) (forall_mem_cons' (mem_at 11 rfl) (forall_mem_cons' (mem_at 12 rfl) (forall_mem_cons' (mem_at 13 rfl) (forall_mem_cons' (mem_at 14 rfl) (forall_mem_cons' (mem_at 15 rfl) (forall_mem_cons' (mem_at 7 rfl) (forall_mem_cons' (mem_at 16 rfl) (forall_mem_cons' (mem_at 17 rfl) (forall_mem_cons' (mem_at 18 rfl) (forall_mem_cons' (mem_at 19 rfl) (forall_mem_cons' (mem_at 20 rfl) (forall_mem_cons' (mem_at 21 rfl) (forall_mem_cons' (mem_at 22 rfl) (forall_mem_cons' (mem_at 23 rfl) (forall_mem_cons' (mem_at 24 rfl) (forall_mem_cons' (mem_at 25 rfl) (forall_mem_cons' (mem_at 26 rfl) (forall_mem_cons' (mem_at 27 rfl) (forall_mem_cons' (mem_at 28 rfl) (forall_mem_cons' (mem_at 29 rfl) (forall_mem_cons' (mem_at 30 rfl) (forall_mem_cons' (mem_at 31 rfl) (forall_mem_cons' (mem_at 32 rfl) (forall_mem_cons' (mem_at 33 rfl) (forall_mem_cons' (mem_at 34 rfl) (forall_mem_cons' (mem_at 34 rfl) (forall_mem_cons' (mem_at 17 rfl) (forall_mem_cons' (mem_at 35 rfl) (forall_mem_cons' (mem_at 36 rfl) (forall_mem_cons' (mem_at 17 rfl) (forall_mem_cons' (mem_at 37 rfl) (forall_mem_cons' (mem_at 38 rfl) (forall_mem_cons' (mem_at 39 rfl) (forall_mem_cons' (mem_at 40 rfl) (forall_mem_cons' (mem_at 41 rfl) (forall_mem_cons' (mem_at 17 rfl) (forall_mem_cons' (mem_at 42 rfl) (forall_mem_cons' (mem_at 43 rfl) (forall_mem_cons' (mem_at 7 rfl) (forall_mem_cons' (mem_at 44 rfl) (forall_mem_cons' (mem_at 45 rfl) (forall_mem_cons' (mem_at 46 rfl) (forall_mem_cons' (mem_at 47 rfl) (forall_mem_cons' (mem_at 48 rfl) (forall_mem_cons' (mem_at 49 rfl) (forall_mem_cons' (mem_at 50 rfl) (forall_mem_cons' (mem_at 51 rfl) (forall_mem_cons' (mem_at 52 rfl) (forall_mem_cons' (mem_at 53 rfl) (List.forall_mem_nil _))))))))))))))))))))))))))))))))))))))))))))))))))))))))))))))⟩
  storage := by decide +kernel
  ok := commandMapF21_ok

theorem commandMapF22_ok : ∀ x ∈ commandMapF22, ∃ I, x.2.Ok I (Allowed Version.F22 x.1) := by
  unfold commandMapF22
  simp only [List.forall_mem_cons]
  exact ⟨⟨_, allow_parse ok_FC3_Authconfig⟩,
    ⟨_, allow_parse ok_FC3_Authconfig⟩,
    ⟨_, allow_parse ok_F21_AutoPart⟩,
    ⟨_, allow_parse ok_FC3_AutoStep⟩,
    ⟨_, allow_parse ok_F21_Bootloader⟩,
    ⟨_, allow_parse ok_F17_BTRFS_F17_BTRFSData⟩,
    ⟨_, allow_parse ok_FC3_Cdrom⟩,
    ⟨_, allow_parse ok_F21_ClearPart⟩,
    ⟨_, allow_parse ok_FC3_DisplayMode⟩,
    ⟨_, allow_parse ok_F8_Device_F8_DeviceData⟩,
    ⟨_, allow_parse ok_FC3_DeviceProbe⟩,
    ⟨_, allow_parse ok_FC6_DmRaid_FC6_DmRaidData⟩,
    ⟨_, allow_parse ok_F14_DriverDisk_F14_DriverDiskData⟩,
    ⟨_, allow_parse ok_F20_Eula⟩,
    ⟨_, allow_parse ok_F13_Fcoe_F13_FcoeData⟩,
    ⟨_, allow_parse ok_F20_Firewall⟩,
    ⟨_, allow_parse ok_FC3_Firstboot⟩,
    ⟨_, allow_parse ok_FC3_DisplayMode⟩,
    ⟨_, allow_parse ok_F12_Group_F12_GroupData⟩,
    ⟨_, allow_parse ok_F18_Reboot⟩,
    ⟨_, allow_parse ok_FC3_HardDrive⟩,
    ⟨_, allow_parse ok_F14_IgnoreDisk⟩,
    ⟨_, allow_parse ok_F20_Install⟩,
    ⟨_, allow_parse ok_F17_Iscsi_F17_IscsiData⟩,
    ⟨_, allow_parse ok_FC6_IscsiName⟩,
    ⟨_, allow_parse ok_F18_Keyboard⟩,
    ⟨_, allow_parse ok_F19_Lang⟩,
    ⟨_, allow_parse ok_F19_Liveimg⟩,
    ⟨_, allow_parse ok_FC6_Logging⟩,
    ⟨_, allow_parse ok_F21_LogVol_F21_LogVolData⟩,
    ⟨_, allow_parse ok_FC4_MediaCheck⟩,
    ⟨_, allow_method (by decide) ok_F19_Method⟩,
    ⟨_, allow_multipath (by decide) ok_FC6_MultiPath_FC6_MultiPathData⟩,
    ⟨_, allow_parse ok_F22_Network_F22_NetworkData⟩,
    ⟨_, allow_parse ok_FC6_NFS⟩,
    ⟨_, allow_parse ok_F21_OSTreeSetup⟩,
    ⟨_, allow_parse ok_F20_Partition_F18_PartData⟩,
    ⟨_, allow_parse ok_F20_Partition_F18_PartData⟩,
    ⟨_, allow_parse ok_F18_Reboot⟩,
    ⟨_, allow_parse ok_F20_Raid_F18_RaidData⟩,
    ⟨_, allow_realm ok_F19_Realm⟩,
    ⟨_, allow_parse ok_F18_Reboot⟩,
    ⟨_, allow_parse ok_F21_Repo_F21_RepoData⟩,
    ⟨_, allow_parse ok_F10_Rescue⟩,
    ⟨_, allow_parse ok_F18_RootPw⟩,
    ⟨_, allow_parse ok_FC3_SELinux⟩,
    ⟨_, allow_parse ok_FC6_Services⟩,
    ⟨_, allow_parse ok_F18_Reboot⟩,
    ⟨_, allow_parse ok_FC3_SkipX⟩,
    ⟨_, allow_parse ok_F13_SshPw_F13_SshPwData⟩,
    ⟨_, allow_parse ok_F22_SshKey_F22_SshKeyData⟩,
    ⟨_, allow_parse ok_FC3_DisplayMode⟩,
    ⟨_, allow_parse ok_F18_Timezone⟩,
    ⟨_, allow_parse ok_F7_Updates⟩,
    ⟨_, allow_parse ok_F20_Upgrade⟩,
    ⟨_, allow_parse ok_F18_Url⟩,
    ⟨_, allow_parse ok_F19_User_F19_UserData⟩,
    ⟨_, allow_parse ok_F9_Vnc⟩,
    ⟨_, allow_parse ok_F21_VolGroup_F21_VolGroupData⟩,
    ⟨_, allow_parse ok_F14_XConfig⟩,
    ⟨_, allow_parse ok_F9_ZeroMbr⟩,
    ⟨_, allow_parse ok_F14_ZFCP_F14_ZFCPData⟩,
    List.forall_mem_nil _⟩

def classesF22 : List Command := [FC3_Authconfig.cls, F21_AutoPart.cls, FC3_AutoStep.cls, F21_Bootloader.cls, F17_BTRFS.cls F17_BTRFSData.cls, FC3_Cdrom.cls, F21_ClearPart.cls, FC3_DisplayMode.cls, F8_Device.cls F8_DeviceData.cls, FC3_DeviceProbe.cls, FC6_DmRaid.cls FC6_DmRaidData.cls, F14_DriverDisk.cls F14_DriverDiskData.cls, F20_Eula.cls, F13_Fcoe.cls F13_FcoeData.cls, F20_Firewall.cls, FC3_Firstboot.cls, F12_Group.cls F12_GroupData.cls, F18_Reboot.cls, FC3_HardDrive.cls, F14_IgnoreDisk.cls, F20_Install.cls, F17_Iscsi.cls F17_IscsiData.cls, FC6_IscsiName.cls, F18_Keyboard.cls, F19_Lang.cls, F19_Liveimg.cls, FC6_Logging.cls, F21_LogVol.cls F21_LogVolData.cls, FC4_MediaCheck.cls, F19_Method.cls, FC6_MultiPath.cls FC6_MultiPathData.cls, F22_Network.cls F22_NetworkData.cls, FC6_NFS.cls, F21_OSTreeSetup.cls, F20_Partition.cls F18_PartData.cls, F20_Raid.cls F18_RaidData.cls, F19_Realm.cls, F21_Repo.cls F21_RepoData.cls, F10_Rescue.cls, F18_RootPw.cls, FC3_SELinux.cls, FC6_Services.cls, FC3_SkipX.cls, F13_SshPw.cls F13_SshPwData.cls, F22_SshKey.cls F22_SshKeyData.cls, F18_Timezone.cls, F7_Updates.cls, F20_Upgrade.cls, F18_Url.cls, F19_User.cls F19_UserData.cls, F9_Vnc.cls, F21_VolGroup.cls F21_VolGroupData.cls, F14_XConfig.cls, F9_ZeroMbr.cls, F14_ZFCP.cls F14_ZFCPData.cls]

theorem commandMapF22_mapOk : MapOk Version.F22 commandMapF22 where
  dict := nodup_codes (by decide +kernel)
  classes := ⟨classesF22, [c!"FC3_Authconfig", c!"F21_AutoPart", c!"FC3_AutoStep", c!"F21_Bootloader", c!"F17_BTRFS", c!"FC3_Cdrom", c!"F21_ClearPart", c!"FC3_DisplayMode", c!"F8_Device", c!"FC3_DeviceProbe", c!"FC6_DmRaid", c!"F14_DriverDisk", c!"F20_Eula", c!"F13_Fcoe", c!"F20_Firewall", c!"FC3_Firstboot", c!"F12_Group", c!"F18_Reboot", c!"FC3_HardDrive", c!"F14_IgnoreDisk", c!"F20_Install", c!"F17_Iscsi", c!"FC6_IscsiName", c!"F18_Keyboard", c!"F19_Lang", c!"F19_Liveimg", c!"FC6_Logging", c!"F21_LogVol", c!"FC4_MediaCheck", c!"F19_Method", c!"FC6_MultiPath", c!"F22_Network", c!"FC6_NFS", c!"F21_OSTreeSetup", c!"F20_Partition", c!"F20_Raid", c!"F19_Realm", c!"F21_Repo", c!"F10_Rescue", c!"F18_RootPw", c!"FC3_SELinux", c!"FC6_Services", c!"FC3_SkipX", c!"F13_SshPw", c!"F22_SshKey", c!"F18_Timezone", c!"F7_Updates", c!"F20_Upgrade", c!"F18_Url", c!"F19_User", c!"F9_Vnc", c!"F21_VolGroup", c!"F14_XConfig", c!"F9_ZeroMbr", c!"F14_ZFCP"], [c!"authconfig", c!"autopart", c!"autostep", c!"bootloader", c!"btrfs", c!"cdrom", c!"clearpart", c!"displaymode", c!"device", c!"deviceprobe", c!"dmraid", c!"driverdisk", c!"eula", c!"fcoe", c!"firewall", c!"firstboot", c!"group", c!"reboot", c!"harddrive", c!"ignoredisk", c!"install", c!"iscsi", c!"iscsiname", c!"keyboard", c!"lang", c!"liveimg", c!"logging", c!"logvol", c!"mediacheck", c!"method", c!"multipath", c!"network", c!"nfs", c!"ostreesetup", c!"partition", c!"raid", c!"realm", c!"repo", c!"rescue", c!"rootpw", c!"selinux", c!"services", c!"skipx", c!"sshpw", c!"sshkey", c!"timezone", c!"updates", c!"upgrade", c!"url", c!"user", c!"vnc", c!"volgroup", c!"xconfig", c!"zerombr", c!"zfcp"], rfl, by decide +kernel, nodup_codes (by decide +kernel), nodup_codes (by decide +kernel), by
    unfold commandMapF22
    exact (forall_mem_cons' (mem_at 0 rfl) (forall_mem_cons' (mem_at 0 rfl) (forall_mem_cons' (mem_at 1 rfl) (forall_mem_cons' (mem_at 2 rfl) (forall_mem_cons' (mem_at 3 rfl) (forall_mem_cons' (mem_at 4 rfl) (forall_mem_cons' (mem_at 5 rfl) (forall_mem_cons' (mem_at 6 rfl) (forall_mem_cons' (mem_at 7 rfl) (forall_mem_cons' (mem_at 8 rfl) (forall_mem_cons' (mem_at 9 rfl) (forall_mem_cons' (mem_at 10 rfl) (forall_mem_cons' (mem_at 11 rfl) (forall_mem_cons' (mem_at 12 rfl) (forall_mem_cons' (mem_at 13 rfl) (forall_mem_cons' (mem_at 14 rfl) (forall_mem_cons' (mem_at 15 rfl) (forall_mem_cons' (mem_at 7 rfl) (forall_mem_cons' (mem_at 16 rfl) (forall_mem_cons' (mem_at 17 rfl) (forall_mem_cons' (mem_at 18 rfl) (forall_mem_cons' (mem_at 19 rfl) (forall_mem_cons' (mem_at 20 rfl) (forall_mem_cons' (mem_at 21 rfl) (forall_mem_cons' (mem_at 22 rfl) (forall_mem_cons' (mem_at 23 rfl) (forall_mem_cons' (mem_at 24 rfl) (forall_mem_cons' (mem_at 25 rfl) (forall_mem_cons' (mem_at 26 rfl) (forall_mem_cons' (mem_at 27 rfl) (forall_mem_cons' (mem_at 28 rfl) (forall_mem_cons' (mem_at 29 rfl) (forall_mem_cons' (mem_at 30 rfl) (forall_mem_cons' (mem_at 31 rfl) (forall_mem_cons' (mem_at 32 rfl) (forall_mem_cons' (mem_at 33 rfl) (forall_mem_cons' (mem_at 34 rfl) (forall_mem_cons' (mem_at 34 rfl) (forall_mem_cons' (mem_at 17 rfl) (forall_mem_cons' (mem_at 35 rfl) (forall_mem_cons' (mem_at 36 rfl) (forall_mem_cons' (mem_at 17 rfl) (forall_mem_cons' (mem_at 37 rfl) (forall_mem_cons' (mem_at 38 rfl) (forall_mem_cons' (mem_at 39 rfl) (forall_mem_cons' (mem_at 40 rfl) (forall_mem_cons' (mem_at 41 rfl) (forall_mem_cons' (mem_at 17 rfl) (forall_mem_cons' (mem_at 42 rfl) (forall_mem_cons' (mem_at 43 rfl) (forall_mem_cons' (mem_at 44 rfl) (forall_mem_cons' (mem_at 7 rfl) (forall_mem_cons' (mem_at 45 rfl) (forall_mem_cons' (mem_at 46 rfl) (forall_mem_cons' (mem_at 47 rfl) (forall_mem_cons' (mem_at 48 rfl) (forall_mem_cons' (mem_at 49 rfl) (forall_mem_cons' (mem_at 50 rfl) (forall_mem_cons' (mem_at 51 rfl) (forall_mem_cons' (mem_at 52 rfl) (forall_mem_cons' (mem_at 53 rfl) (forall_mem_cons' (mem_at 54 rfl) (List.forall_mem_nil _)))))))))))))))))))))))))))))))))))))))))))))))))))))))))))))))⟩
  storage := by decide +kernel
  ok := commandMapF22_ok

theorem commandMapF23_ok : ∀ x ∈ commandMapF23, ∃ I, x.2.Ok I (Allowed Version.F23 x.1) := by
  unfold commandMapF23
  simp only [List.forall_mem_cons]
  exact ⟨⟨_, allow_parse ok_FC3_Authconfig⟩,
    ⟨_, allow_parse ok_FC3_Authconfig⟩,
    ⟨_, allow_parse ok_F23_AutoPart⟩,
    ⟨_, allow_parse ok_FC3_AutoStep⟩,
    ⟨_, allow_parse ok_F21_Bootloader⟩,
    ⟨_, allow_parse ok_F23_BTRFS_F23_BTRFSData⟩,
    ⟨_, allow_parse ok_FC3_Cdrom⟩,
    ⟨_, allow_parse ok_F21_ClearPart⟩,
    ⟨_, allow_parse ok_FC3_DisplayMode⟩,
    ⟨_, allow_parse ok_F8_Device_F8_DeviceData⟩,
    ⟨_, allow_parse ok_FC3_DeviceProbe⟩,
    ⟨_, allow_parse ok_FC6_DmRaid_FC6_DmRaidData⟩,
    ⟨_, allow_parse ok_F14_DriverDisk_F14_DriverDiskData⟩,
    ⟨_, allow_parse ok_F20_Eula⟩,
    ⟨_, allow_parse ok_F13_Fcoe_F13_FcoeData⟩,
    ⟨_, allow_parse ok_F20_Firewall⟩,
    ⟨_, allow_parse ok_FC3_Firstboot⟩,
    ⟨_, allow_parse ok_FC3_DisplayMode⟩,
    ⟨_, allow_parse ok_F12_Group_F12_GroupData⟩,
    ⟨_, allow_parse ok_F23_Reboot⟩,
    ⟨_, allow_parse ok_FC3_HardDrive⟩,
    ⟨_, allow_parse ok_F14_IgnoreDisk⟩,
    ⟨_, allow_parse ok_F20_Install⟩,
    ⟨_, allow_parse ok_F17_Iscsi_F17_IscsiData⟩,
    ⟨_, allow_parse ok_FC6_IscsiName⟩,
    ⟨_, allow_parse ok_F18_Keyboard⟩,
    ⟨_, allow_parse ok_F19_Lang⟩,
    ⟨_, allow_parse ok_F19_Liveimg⟩,
    ⟨_, allow_parse ok_FC6_Logging⟩,
    ⟨_, allow_parse ok_F23_LogVol_F23_LogVolData⟩,
    ⟨_, allow_parse ok_FC4_MediaCheck⟩,
    ⟨_, allow_method (by decide) ok_F19_Method⟩,
    ⟨_, allow_multipath (by decide) ok_FC6_MultiPath_FC6_MultiPathData⟩,
    ⟨_, allow_parse ok_F22_Network_F22_NetworkData⟩,
    ⟨_, allow_parse ok_FC6_NFS⟩,
    ⟨_, allow_parse ok_F21_OSTreeSetup⟩,
    ⟨_, allow_parse ok_F23_Partition_F23_PartData⟩,
    ⟨_, allow_parse ok_F23_Partition_F23_PartData⟩,
    ⟨_, allow_parse ok_F23_Reboot⟩,
    ⟨_, allow_parse ok_F23_Raid_F23_RaidData⟩,
    ⟨_, allow_realm ok_F19_Realm⟩,
    ⟨_, allow_parse ok_F23_Reboot⟩,
    ⟨_, allow_parse ok_F21_Repo_F21_RepoData⟩,
    ⟨_, allow_parse ok_F23_ReqPart⟩,
    ⟨_, allow_parse ok_F10_Rescue⟩,
    ⟨_, allow_parse ok_F18_RootPw⟩,
    ⟨_, allow_parse ok_FC3_SELinux⟩,
    ⟨_, allow_parse ok_FC6_Services⟩,
    ⟨_, allow_parse ok_F23_Reboot⟩,
    ⟨_, allow_parse ok_FC3_SkipX⟩,
    ⟨_, allow_parse ok_F13_SshPw_F13_SshPwData⟩,
    ⟨_, allow_parse ok_F22_SshKey_F22_SshKeyData⟩,
    ⟨_, allow_parse ok_FC3_DisplayMode⟩,
    ⟨_, allow_parse ok_F23_Timezone⟩,
    ⟨_, allow_parse ok_F7_Updates⟩,
    ⟨_, allow_parse ok_F20_Upgrade⟩,
    ⟨_, allow_parse ok_F18_Url⟩,
    ⟨_, allow_parse ok_F19_User_F19_UserData⟩,
    ⟨_, allow_parse ok_F9_Vnc⟩,
    ⟨_, allow_parse ok_F21_VolGroup_F21_VolGroupData⟩,
    ⟨_, allow_parse ok_F14_XConfig⟩,
    ⟨_, allow_parse ok_F9_ZeroMbr⟩,
    ⟨_, allow_parse ok_F14_ZFCP_F14_ZFCPData⟩,
    List.forall_mem_nil _⟩

def classesF23 : List Command := [FC3_Authconfig.cls, F23_AutoPart.cls, FC3_AutoStep.cls, F21_Bootloader.cls, F23_BTRFS.cls F23_BTRFSData.cls, FC3_Cdrom.cls, F21_ClearPart.cls, FC3_DisplayMode.cls, F8_Device.cls F8_DeviceData.cls, FC3_DeviceProbe.cls, FC6_DmRaid.cls FC6_DmRaidData.cls, F14_DriverDisk.cls F14_DriverDiskData.cls, F20_Eula.cls, F13_Fcoe.cls F13_FcoeData.cls, F20_Firewall.cls, FC3_Firstboot.cls, F12_Group.cls F12_GroupData.cls, F23_Reboot.cls, FC3_HardDrive.cls, F14_IgnoreDisk.cls, F20_Install.cls, F17_Iscsi.cls F17_IscsiData.cls, FC6_IscsiName.cls, F18_Keyboard.cls, F19_Lang.cls, F19_Liveimg.cls, FC6_Logging.cls, F23_LogVol.cls F23_LogVolData.cls, FC4_MediaCheck.cls, F19_Method.cls, FC6_MultiPath.cls FC6_MultiPathData.cls, F22_Network.cls F22_NetworkData.cls, FC6_NFS.cls, F21_OSTreeSetup.cls, F23_Partition.cls F23_PartData.cls, F23_Raid.cls F23_RaidData.cls, F19_Realm.cls, F21_Repo.cls F21_RepoData.cls, F23_ReqPart.cls, F10_Rescue.cls, F18_RootPw.cls, FC3_SELinux.cls, FC6_Services.cls, FC3_SkipX.cls, F13_SshPw.cls F13_SshPwData.cls, F22_SshKey.cls F22_SshKeyData.cls, F23_Timezone.cls, F7_Updates.cls, F20_Upgrade.cls, F18_Url.cls, F19_User.cls F19_UserData.cls, F9_Vnc.cls, F21_VolGroup.cls F21_VolGroupData.cls, F14_XConfig.cls, F9_ZeroMbr.cls, F14_ZFCP.cls F14_ZFCPData.cls]

theorem commandMapF23_mapOk : MapOk Version.F23 commandMapF23 where
  dict := nodup_codes (by decide +kernel)
  classes := ⟨classesF23, [c!"FC3_Authconfig", c!"F23_AutoPart", c!"FC3_AutoStep", c!"F21_Bootloader", c!"F23_BTRFS", c!"FC3_Cdrom", c!"F21_ClearPart", c!"FC3_DisplayMode", c!"F8_Device", c!"FC3_DeviceProbe", c!"FC6_DmRaid", c!"F14_DriverDisk", c!"F20_Eula", c!"F13_Fcoe", c!"F20_Firewall", c!"FC3_Firstboot", c!"F12_Group", c!"F23_Reboot", c!"FC3_HardDrive", c!"F14_IgnoreDisk", c!"F20_Install", c!"F17_Iscsi", c!"FC6_IscsiName", c!"F18_Keyboard", c!"F19_Lang", c!"F19_Liveimg", c!"FC6_Logging", c!"F23_LogVol", c!"FC4_MediaCheck", c!"F19_Method", c!"FC6_MultiPath", c!"F22_Network", c!"FC6_NFS", c!"F21_OSTreeSetup", c!"F23_Partition", c!"F23_Raid", c!"F19_Realm", c!"F21_Repo", c!"F23_ReqPart", c!"F10_Rescue", c!"F18_RootPw", c!"FC3_SELinux", c!"FC6_Services", c!"FC3_SkipX", c!"F13_SshPw", c!"F22_SshKey", c!"F23_Timezone", c!"F7_Updates", c!"F20_Upgrade", c!"F18_Url", c!"F19_User", c!"F9_Vnc", c!"F21_VolGroup", c!"F14_XConfig", c!"F9_ZeroMbr", c!"F14_ZFCP"], [c!"authconfig", c!"autopart", c!"autostep", c!"bootloader", c!"btrfs", c!"cdrom", c!"clearpart", c!"displaymode", c!"device", c!"deviceprobe", c!"dmraid", c!"driverdisk", c!"eula", c!"fcoe", c!"firewall", c!"firstboot", c!"group", c!"reboot", c!"harddrive", c!"ignoredisk", c!"install", c!"iscsi", c!"iscsiname", c!"keyboard", c!"lang", c!"liveimg", c!"logging", c!"logvol", c!"mediacheck", c!"method", c!"multipath", c!"network", c!"nfs", c!"ostreesetup", c!"partition", c!"raid", c!"realm", c!"repo", c!"reqpart", c!"rescue", c!"rootpw", c!"selinux", c!"services", c!"skipx", c!"sshpw", c!"sshkey", c!"timezone", c!"updates", c!"upgrade", c!"url", c!"user", c!"vnc", c!"volgroup", c!"xconfig", c!"zerombr", c!"zfcp"], rfl, by decide +kernel, nodup_codes (by decide +kernel), nodup_codes (by decide +kernel), by
    unfold commandMapF23
    exact (forall_mem_cons' (mem_at 0 rfl) (forall_mem_cons' (mem_at 0 rfl) (forall_mem_cons' (mem_at 1 rfl) (forall_mem_cons' (mem_at 2 rfl) (forall_mem_cons' (mem_at 3 rfl) (forall_mem_cons' (mem_at 4 rfl) (forall_mem_cons' (mem_at 5 rfl) (forall_mem_cons' (mem_at 6 rfl) (forall_mem_cons' (mem_at 7 rfl) (forall_mem_cons' (mem_at 8 rfl) (forall_mem_cons' (mem_at 9 rfl) (forall_mem_cons' (mem_at 10 rfl) (forall_mem_cons' (mem_at 11 rfl) (forall_mem_cons' (mem_at 12 rfl) (forall_mem_cons' (mem_at 13 rfl) (forall_mem_cons' (mem_at 14 rfl) (forall_mem_cons' (mem_at 15 rfl) (forall_mem_cons' (mem_at 7 rfl) (forall_mem_cons' (mem_at 16 rfl) (forall_mem_cons' (mem_at 17 rfl) (forall_mem_cons' (mem_at 18 rfl) (forall_mem_cons' (mem_at 19 rfl) (forall_mem_cons' (mem_at 20 rfl) (forall_mem_cons' (mem_at 21 rfl) (forall_mem_cons' (mem_at 22 rfl) (forall_mem_cons' (mem_at 23 rfl) (forall_mem_cons' (mem_at 24 rfl) (forall_mem_cons' (mem_at 25 rfl) (forall_mem_cons' (mem_at 26 rfl) (forall_mem_cons' (mem_at 27 rfl) (forall_mem_cons' (mem_at 28 rfl) (forall_mem_cons' (mem_at 29 rfl) (forall_mem_cons' (mem_at 30 rfl) (forall_mem_cons' (mem_at 31 rfl) (forall_mem_cons' (mem_at 32 rfl) (forall_mem_cons' (mem_at 33 rfl) (forall_mem_cons' (mem_at 34 rfl) (forall_mem_cons' (mem_at 34 rfl) (forall_mem_cons' (mem_at 17 rfl) (forall_mem_cons' (mem_at 35 rfl) (forall_mem_cons' (mem_at 36 rfl) (forall_mem_cons' (mem_at 17 rfl) (forall_mem_cons' (mem_at 37 rfl) (forall_mem_cons' (mem_at 38 rfl) (forall_mem_cons' (mem_at 39 rfl) (forall_mem_cons' (mem_at 40 rfl) (forall_mem_cons' (mem_at 41 rfl) (forall_mem_cons' (mem_at 42 rfl) (forall_mem_cons' (mem_at 17 rfl) (forall_mem_cons' (mem_at 43 rfl) (forall_mem_cons' (mem_at 44 rfl) (forall_mem_cons' (mem_at 45 rfl) (forall_mem_cons' (mem_at 7 rfl) (forall_mem_cons' (mem_at 46 rfl) (forall_mem_cons' (mem_at 47 rfl) (forall_mem_cons' (mem_at 48 rfl) (forall_mem_cons' (mem_at 49 rfl) (forall_mem_cons' (mem_at 50 rfl) (forall_mem_cons' (mem_at 51 rfl) (forall_mem_cons' (mem_at 52 rfl) (forall_mem_cons' (mem_at 53 rfl) (forall_mem_cons' (mem_at 54 rfl) (forall_mem_cons' (mem_at 55 rfl) (List.forall_mem_nil _))))))))))))))))))))))))))))))))))))))))))))))))))))))))))))))))⟩
  storage := by decide +kernel
  ok := commandMapF23_ok

theorem commandMapF24_ok : ∀ x ∈ commandMapF24, ∃ I, x.2.Ok I (Allowed Version.F24 x.1) := by
  unfold commandMapF24
  simp only [List.forall_mem_cons]
  exact ⟨⟨_, allow_parse ok_FC3_Authconfig⟩,
    ⟨_, allow_parse ok_FC3_Authconfig⟩,
    ⟨_, allow_parse ok_F23_AutoPart⟩,
    ⟨_, allow_parse ok_FC3_AutoStep⟩,
    ⟨_, allow_parse ok_F21_Bootloader⟩,
    ⟨_, allow_parse ok_F23_BTRFS_F23_BTRFSData⟩,
    ⟨_, allow_parse ok_FC3_Cdrom⟩,
    ⟨_, allow_parse ok_F21_ClearPart⟩,
    ⟨_, allow_parse ok_FC3_DisplayMode⟩,
    ⟨_, allow_parse ok_F24_Device⟩,
    ⟨_, allow_parse ok_FC3_DeviceProbe⟩,
    ⟨_, allow_parse ok_F24_DmRaid⟩,
    ⟨_, allow_parse ok_F14_DriverDisk_F14_DriverDiskData⟩,
    ⟨_, allow_parse ok_F20_Eula⟩,
    ⟨_, allow_parse ok_F13_Fcoe_F13_FcoeData⟩,
    ⟨_, allow_parse ok_F20_Firewall⟩,
    ⟨_, allow_parse ok_FC3_Firstboot⟩,
    ⟨_, allow_parse ok_FC3_DisplayMode⟩,
    ⟨_, allow_parse ok_F12_Group_F12_GroupData⟩,
    ⟨_, allow_parse ok_F23_Reboot⟩,
    ⟨_, allow_parse ok_FC3_HardDrive⟩,
    ⟨_, allow_parse ok_F14_IgnoreDisk⟩,
    ⟨_, allow_parse ok_F20_Install⟩,
    ⟨_, allow_parse ok_F17_Iscsi_F17_IscsiData⟩,
    ⟨_, allow_parse ok_FC6_IscsiName⟩,
    ⟨_, allow_parse ok_F18_Keyboard⟩,
    ⟨_, allow_parse ok_F19_Lang⟩,
    ⟨_, allow_parse ok_F19_Liveimg⟩,
    ⟨_, allow_parse ok_FC6_Logging⟩,
    ⟨_, allow_parse ok_F23_LogVol_F23_LogVolData⟩,
    ⟨_, allow_parse ok_FC4_MediaCheck⟩,
    ⟨_, allow_method (by decide) ok_F19_Method⟩,
    ⟨_, allow_parse ok_F24_MultiPath⟩,
    ⟨_, allow_parse ok_F24_Network_F22_NetworkData⟩,
    ⟨_, allow_parse ok_FC6_NFS⟩,
    ⟨_, allow_parse ok_F21_OSTreeSetup⟩,
    ⟨_, allow_parse ok_F23_Partition_F23_PartData⟩,
    ⟨_, allow_parse ok_F23_Partition_F23_PartData⟩,
    ⟨_, allow_parse ok_F23_Reboot⟩,
    ⟨_, allow_parse ok_F23_Raid_F23_RaidData⟩,
    ⟨_, allow_realm ok_F19_Realm⟩,
    ⟨_, allow_parse ok_F23_Reboot⟩,
    ⟨_, allow_parse ok_F21_Repo_F21_RepoData⟩,
    ⟨_, allow_parse ok_F23_ReqPart⟩,
    ⟨_, allow_parse ok_F10_Rescue⟩,
    ⟨_, allow_parse ok_F18_RootPw⟩,
    ⟨_, allow_parse ok_FC3_SELinux⟩,
    ⟨_, allow_parse ok_FC6_Services⟩,
    ⟨_, allow_parse ok_F23_Reboot⟩,
    ⟨_, allow_parse ok_FC3_SkipX⟩,
    ⟨_, allow_parse ok_F24_SshPw_F24_SshPwData⟩,
    ⟨_, allow_parse ok_F22_SshKey_F22_SshKeyData⟩,
    ⟨_, allow_parse ok_FC3_DisplayMode⟩,
    ⟨_, allow_parse ok_F23_Timezone⟩,
    ⟨_, allow_parse ok_F7_Updates⟩,
    ⟨_, allow_parse ok_F20_Upgrade⟩,
    ⟨_, allow_parse ok_F18_Url⟩,
    ⟨_, allow_parse ok_F24_User_F19_UserData⟩,
    ⟨_, allow_parse ok_F9_Vnc⟩,
    ⟨_, allow_parse ok_F21_VolGroup_F21_VolGroupData⟩,
    ⟨_, allow_parse ok_F14_XConfig⟩,
    ⟨_, allow_parse ok_F9_ZeroMbr⟩,
    ⟨_, allow_parse ok_F14_ZFCP_F14_ZFCPData⟩,
    List.forall_mem_nil _⟩

def classesF24 : List Command := [FC3_Authconfig.cls, F23_AutoPart.cls, FC3_AutoStep.cls, F21_Bootloader.cls, F23_BTRFS.cls F23_BTRFSData.cls, FC3_Cdrom.cls, F21_ClearPart.cls, FC3_DisplayMode.cls, F24_Device.cls, FC3_DeviceProbe.cls, F24_DmRaid.cls, F14_DriverDisk.cls F14_DriverDiskData.cls, F20_Eula.cls, F13_Fcoe.cls F13_FcoeData.cls, F20_Firewall.cls, FC3_Firstboot.cls, F12_Group.cls F12_GroupData.cls, F23_Reboot.cls, FC3_HardDrive.cls, F14_IgnoreDisk.cls, F20_Install.cls, F17_Iscsi.cls F17_IscsiData.cls, FC6_IscsiName.cls, F18_Keyboard.cls, F19_Lang.cls, F19_Liveimg.cls, FC6_Logging.cls, F23_LogVol.cls F23_LogVolData.cls, FC4_MediaCheck.cls, F19_Method.cls, F24_MultiPath.cls, F24_Network.cls F22_NetworkData.cls, FC6_NFS.cls, F21_OSTreeSetup.cls, F23_Partition.cls F23_PartData.cls, F23_Raid.cls F23_RaidData.cls, F19_Realm.cls, F21_Repo.cls F21_RepoData.cls, F23_ReqPart.cls, F10_Rescue.cls, F18_RootPw.cls, FC3_SELinux.cls, FC6_Services.cls, FC3_SkipX.cls, F24_SshPw.cls F24_SshPwData.cls, F22_SshKey.cls F22_SshKeyData.cls, F23_Timezone.cls, F7_Updates.cls, F20_Upgrade.cls, F18_Url.cls, F24_User.cls F19_UserData.cls, F9_Vnc.cls, F21_VolGroup.cls F21_VolGroupData.cls, F14_XConfig.cls, F9_ZeroMbr.cls, F14_ZFCP.cls F14_ZFCPData.cls]

theorem commandMapF24_mapOk : MapOk Version.F24 commandMapF24 where
  dict := nodup_codes (by decide +kernel)
  classes := ⟨classesF24, [c!"FC3_Authconfig", c!"F23_AutoPart", c!"FC3_AutoStep", c!"F21_Bootloader", c!"F23_BTRFS", c!"FC3_Cdrom", c!"F21_ClearPart", c!"FC3_DisplayMode", c!"F24_Device", c!"FC3_DeviceProbe", c!"F24_DmRaid", c!"F14_DriverDisk", c!"F20_Eula", c!"F13_Fcoe", c!"F20_Firewall", c!"FC3_Firstboot", c!"F12_Group", c!"F23_Reboot", c!"FC3_HardDrive", c!"F14_IgnoreDisk", c!"F20_Install", c!"F17_Iscsi", c!"FC6_IscsiName", c!"F18_Keyboard", c!"F19_Lang", c!"F19_Liveimg", c!"FC6_Logging", c!"F23_LogVol", c!"FC4_MediaCheck", c!"F19_Method", c!"F24_MultiPath", c!"F24_Network", c!"FC6_NFS", c!"F21_OSTreeSetup", c!"F23_Partition", c!"F23_Raid", c!"F19_Realm", c!"F21_Repo", c!"F23_ReqPart", c!"F10_Rescue", c!"F18_RootPw", c!"FC3_SELinux", c!"FC6_Services", c!"FC3_SkipX", c!"F24_SshPw", c!"F22_SshKey", c!"F23_Timezone", c!"F7_Updates", c!"F20_Upgrade", c!"F18_Url", c!"F24_User", c!"F9_Vnc", c!"F21_VolGroup", c!"F14_XConfig", c!"F9_ZeroMbr", c!"F14_ZFCP"], [c!"authconfig", c!"autopart", c!"autostep", c!"bootloader", c!"btrfs", c!"cdrom", c!"clearpart", c!"displaymode", c!"device", c!"deviceprobe", c!"dmraid", c!"driverdisk", c!"eula", c!"fcoe", c!"firewall", c!"firstboot", c!"group", c!"reboot", c!"harddrive", c!"ignoredisk", c!"install", c!"iscsi", c!"iscsiname", c!"keyboard", c!"lang", c!"liveimg", c!"logging", c!"logvol", c!"mediacheck", c!"method", c!"multipath", c!"network", c!"nfs", c!"ostreesetup", c!"partition", c!"raid", c!"realm", c!"repo", c!"reqpart", c!"rescue", c!"rootpw", c!"selinux", c!"services", c!"skipx", c!"sshpw", c!"sshkey", c!"timezone", c!"updates", c!"upgrade", c!"url", c!"user", c!"vnc", c!"volgroup", c!"xconfig", c!"zerombr", c!"zfcp"], rfl, by decide +kernel, nodup_codes (by decide +kernel), nodup_codes (by decide +kernel), by
    unfold commandMapF24
    exact (forall_mem_cons' (mem_at 0 rfl) (forall_mem_cons' (mem_at 0 rfl) (forall_mem_cons' (mem_at 1 rfl) (forall_mem_cons' (mem_at 2 rfl) (forall_mem_cons' (mem_at 3 rfl) (forall_mem_cons' (mem_at 4 rfl) (forall_mem_cons' (mem_at 5 rfl) (forall_mem_cons' (mem_at 6 rfl) (forall_mem_cons' (mem_at 7 rfl) (forall_mem_cons' (mem_at 8 rfl) (forall_mem_cons' (mem_at 9 rfl) (forall_mem_cons' (mem_at 10 rfl) (forall_mem_cons' (mem_at 11 rfl) (forall_mem_cons' (mem_at 12 rfl) (forall_mem_cons' (mem_at 13 rfl) (forall_mem_cons' (mem_at 14 rfl) (forall_mem_cons' (mem_at 15 rfl) (forall_mem_cons' (mem_at 7 rfl) (forall_mem_cons' (mem_at 16 rfl) (forall_mem_cons' (mem_at 17 rfl) (forall_mem_cons' (mem_at 18 rfl) (forall_mem_cons' (mem_at 19 rfl) (forall_mem_cons' (mem_at 20 rfl) (forall_mem_cons' (mem_at 21 rfl) (forall_mem_cons' (mem_at 22 rfl) (forall_mem_cons' (mem_at 23 rfl) (forall_mem_cons' (mem_at 24 rfl) (forall_mem_cons' (mem_at 25 rfl) (forall_mem_cons' (mem_at 26 rfl) (forall_mem_cons' (mem_at 27 rfl) (forall_mem_cons' (mem_at 28 rfl) (forall_mem_cons' (mem_at 29 rfl) (forall_mem_cons' (mem_at 30 rfl) (forall_mem_cons' (mem_at 31 rfl) (forall_mem_cons' (mem_at 32 rfl) (forall_mem_cons' (mem_at 33 rfl) (forall_mem_cons' (mem_at 34 rfl) (forall_mem_cons' (mem_at 34 rfl) (forall_mem_cons' (mem_at 17 rfl) (forall_mem_cons' (mem_at 35 rfl) (forall_mem_cons' (mem_at 36 rfl) (forall_mem_cons' (mem_at 17 rfl) (forall_mem_cons' (mem_at 37 rfl) (forall_mem_cons' (mem_at 38 rfl) (forall_mem_cons' (mem_at 39 rfl) (forall_mem_cons' (mem_at 40 rfl) (forall_mem_cons' (mem_at 41 rfl) (forall_mem_cons' (mem_at 42 rfl) (forall_mem_cons' (mem_at 17 rfl) (forall_mem_cons' (mem_at 43 rfl) (forall_mem_cons' (mem_at 44 rfl) (forall_mem_cons' (mem_at 45 rfl) (forall_mem_cons' (mem_at 7 rfl) (forall_mem_cons' (mem_at 46 rfl) (forall_mem_cons' (mem_at 47 rfl) (forall_mem_cons' (mem_at 48 rfl) (forall_mem_cons' (mem_at 49 rfl) (forall_mem_cons' (mem_at 50 rfl) (forall_mem_cons' (mem_at 51 rfl) (forall_mem_cons' (mem_at 52 rfl) (forall_mem_cons' (mem_at 53 rfl) (forall_mem_cons' (mem_at 54 rfl) (forall_mem_cons' (mem_at 55 rfl) (List.forall_mem_nil _))))))))))))))))))))))))))))))))))))))))))))))))))))))))))))))))⟩
  storage := by decide +kernel
  ok := commandMapF24_ok

theorem commandMapF25_ok : ∀ x ∈ commandMapF25, ∃ I, x.2.Ok I (Allowed Version.F25 x.1) := by
  unfold commandMapF25
  simp only [List.forall_mem_cons]
  exact ⟨⟨_, allow_parse ok_FC3_Authconfig⟩,
    ⟨_, allow_parse ok_FC3_Authconfig⟩,
    ⟨_, allow_parse ok_F23_AutoPart⟩,
    ⟨_, allow_parse ok_FC3_AutoStep⟩,
    ⟨_, allow_parse ok_F21_Bootloader⟩,
    ⟨_, allow_parse ok_F23_BTRFS_F23_BTRFSData⟩,
    ⟨_, allow_parse ok_FC3_Cdrom⟩,
    ⟨_, allow_parse ok_F21_ClearPart⟩,
    ⟨_, allow_parse ok_FC3_DisplayMode⟩,
    ⟨_, allow_parse ok_F24_Device⟩,
    ⟨_, allow_parse ok_FC3_DeviceProbe⟩,
    ⟨_, allow_parse ok_F24_DmRaid⟩,
    ⟨_, allow_parse ok_F14_DriverDisk_F14_DriverDiskData⟩,
    ⟨_, allow_parse ok_F20_Eula⟩,
    ⟨_, allow_parse ok_F13_Fcoe_F13_FcoeData⟩,
    ⟨_, allow_parse ok_F20_Firewall⟩,
    ⟨_, allow_parse ok_FC3_Firstboot⟩,
    ⟨_, allow_parse ok_FC3_DisplayMode⟩,
    ⟨_, allow_parse ok_F12_Group_F12_GroupData⟩,
    ⟨_, allow_parse ok_F23_Reboot⟩,
    ⟨_, allow_parse ok_FC3_HardDrive⟩,
    ⟨_, allow_parse ok_F14_IgnoreDisk⟩,
    ⟨_, allow_parse ok_F20_Install⟩,
    ⟨_, allow_parse ok_F17_Iscsi_F17_IscsiData⟩,
    ⟨_, allow_parse ok_FC6_IscsiName⟩,
    ⟨_, allow_parse ok_F18_Keyboard⟩,
    ⟨_, allow_parse ok_F19_Lang⟩,
    ⟨_, allow_parse ok_F19_Liveimg⟩,
    ⟨_, allow_parse ok_FC6_Logging⟩,
    ⟨_, allow_parse ok_F23_LogVol_F23_LogVolData⟩,
    ⟨_, allow_parse ok_FC4_MediaCheck⟩,
    ⟨_, allow_method (by decide) ok_F19_Method⟩,
    ⟨_, allow_parse ok_F24_MultiPath⟩,
    ⟨_, allow_parse ok_F25_Network_F25_NetworkData⟩,
    ⟨_, allow_parse ok_FC6_NFS⟩,
    ⟨_, allow_parse ok_F21_OSTreeSetup⟩,
    ⟨_, allow_parse ok_F23_Partition_F23_PartData⟩,
    ⟨_, allow_parse ok_F23_Partition_F23_PartData⟩,
    ⟨_, allow_parse ok_F23_Reboot⟩,
    ⟨_, allow_parse ok_F25_Raid_F25_RaidData⟩,
    ⟨_, allow_realm ok_F19_Realm⟩,
    ⟨_, allow_parse ok_F23_Reboot⟩,
    ⟨_, allow_parse ok_F21_Repo_F21_RepoData⟩,
    ⟨_, allow_parse ok_F23_ReqPart⟩,
    ⟨_, allow_parse ok_F10_Rescue⟩,
    ⟨_, allow_parse ok_F18_RootPw⟩,
    ⟨_, allow_parse ok_FC3_SELinux⟩,
    ⟨_, allow_parse ok_FC6_Services⟩,
    ⟨_, allow_parse ok_F23_Reboot⟩,
    ⟨_, allow_parse ok_FC3_SkipX⟩,
    ⟨_, allow_parse ok_F24_SshPw_F24_SshPwData⟩,
    ⟨_, allow_parse ok_F22_SshKey_F22_SshKeyData⟩,
    ⟨_, allow_parse ok_FC3_DisplayMode⟩,
    ⟨_, allow_parse ok_F25_Timezone⟩,
    ⟨_, allow_parse ok_F7_Updates⟩,
    ⟨_, allow_parse ok_F20_Upgrade⟩,
    ⟨_, allow_parse ok_F18_Url⟩,
    ⟨_, allow_parse ok_F24_User_F19_UserData⟩,
    ⟨_, allow_parse ok_F9_Vnc⟩,
    ⟨_, allow_parse ok_F21_VolGroup_F21_VolGroupData⟩,
    ⟨_, allow_parse ok_F14_XConfig⟩,
    ⟨_, allow_parse ok_F9_ZeroMbr⟩,
    ⟨_, allow_parse ok_F14_ZFCP_F14_ZFCPData⟩,
    List.forall_mem_nil _⟩

def classesF25 : List Command := [FC3_Authconfig.cls, F23_AutoPart.cls, FC3_AutoStep.cls, F21_Bootloader.cls, F23_BTRFS.cls F23_BTRFSData.cls, FC3_Cdrom.cls, F21_ClearPart.cls, FC3_DisplayMode.cls, F24_Device.cls, FC3_DeviceProbe.cls, F24_DmRaid.cls, F14_DriverDisk.cls F14_DriverDiskData.cls, F20_Eula.cls, F13_Fcoe.cls F13_FcoeData.cls, F20_Firewall.cls, FC3_Firstboot.cls, F12_Group.cls F12_GroupData.cls, F23_Reboot.cls, FC3_HardDrive.cls, F14_IgnoreDisk.cls, F20_Install.cls, F17_Iscsi.cls F17_IscsiData.cls, FC6_IscsiName.cls, F18_Keyboard.cls, F19_Lang.cls, F19_Liveimg.cls, FC6_Logging.cls, F23_LogVol.cls F23_LogVolData.cls, FC4_MediaCheck.cls, F19_Method.cls, F24_MultiPath.cls, F25_Network.cls F25_NetworkData.cls, FC6_NFS.cls, F21_OSTreeSetup.cls, F23_Partition.cls F23_PartData.cls, F25_Raid.cls F25_RaidData.cls, F19_Realm.cls, F21_Repo.cls F21_RepoData.cls, F23_ReqPart.cls, F10_Rescue.cls, F18_RootPw.cls, FC3_SELinux.cls, FC6_Services.cls, FC3_SkipX.cls, F24_SshPw.cls F24_SshPwData.cls, F22_SshKey.cls F22_SshKeyData.cls, F25_Timezone.cls, F7_Updates.cls, F20_Upgrade.cls, F18_Url.cls, F24_User.cls F19_UserData.cls, F9_Vnc.cls, F21_VolGroup.cls F21_VolGroupData.cls, F14_XConfig.cls, F9_ZeroMbr.cls, F14_ZFCP.cls F14_ZFCPData.cls]

theorem commandMapF25_mapOk : MapOk Version.F25 commandMapF25 where
  dict := nodup_codes (by decide +kernel)
  classes := ⟨classesF25, [c!"FC3_Authconfig", c!"F23_AutoPart", c!"FC3_AutoStep", c!"F21_Bootloader", c!"F23_BTRFS", c!"FC3_Cdrom", c!"F21_ClearPart", c!"FC3_DisplayMode", c!"F24_Device", c!"FC3_DeviceProbe", c!"F24_DmRaid", c!"F14_DriverDisk", c!"F20_Eula", c!"F13_Fcoe", c!"F20_Firewall", c!"FC3_Firstboot", c!"F12_Group", c!"F23_Reboot", c!"FC3_HardDrive", c!"F14_IgnoreDisk", c!"F20_Install", c!"F17_Iscsi", c!"FC6_IscsiName", c!"F18_Keyboard", c!"F19_Lang", c!"F19_Liveimg", c!"FC6_Logging", c!"F23_LogVol", c!"FC4_MediaCheck", c!"F19_Method", c!"F24_MultiPath", c!"F25_Network", c!"FC6_NFS", c!"F21_OSTreeSetup", c!"F23_Partition", c!"F25_Raid", c!"F19_Realm", c!"F21_Repo", c!"F23_ReqPart", c!"F10_Rescue", c!"F18_RootPw", c!"FC3_SELinux", c!"FC6_Services", c!"FC3_SkipX", c!"F24_SshPw", c!"F22_SshKey", c!"F25_Timezone", c!"F7_Updates", c!"F20_Upgrade", c!"F18_Url", c!"F24_User", c!"F9_Vnc", c!"F21_VolGroup", c!"F14_XConfig", c!"F9_ZeroMbr", c!"F14_ZFCP"], [c!"authconfig", c!"autopart", c!"autostep", c!"bootloader", c!"btrfs", c!"cdrom", c!"clearpart", c!"displaymode", c!"device", c!"deviceprobe", c!"dmraid", c!"driverdisk", c!"eula", c!"fcoe", c!"firewall", c!"firstboot", c!"group", c!"reboot", c!"harddrive", c!"ignoredisk", c!"install", c!"iscsi", c!"iscsiname", c!"keyboard", c!"lang", c!"liveimg", c!"logging", c!"logvol", c!"mediacheck", c!"method", c!"multipath", c!"network", c!"nfs", c!"ostreesetup", c!"partition", c!"raid", c!"realm", c!"repo", c!"reqpart", c!"rescue", c!"rootpw", c!"selinux", c!"services", c!"skipx", c!"sshpw", c!"sshkey", c!"timezone", c!"updates", c!"upgrade", c!"url", c!"user", c!"vnc", c!"volgroup", c!"xconfig", c!"zerombr", c!"zfcp"], rfl, by decide +kernel, nodup_codes (by decide +kernel), nodup_codes (by decide +kernel), by
    unfold commandMapF25
    exact (forall_mem_cons' (mem_at 0 rfl) (forall_mem_cons' (mem_at 0 rfl) (forall_mem_cons' (mem_at 1 rfl) (forall_mem_cons' (mem_at 2 rfl) (forall_mem_cons' (mem_at 3 rfl) (forall_mem_cons' (mem_at 4 rfl) (forall_mem_cons' (mem_at 5 rfl) (forall_mem_cons' (mem_at 6 rfl) (forall_mem_cons' (mem_at 7 rfl) (forall_mem_cons' (mem_at 8 rfl) (forall_mem_cons' (mem_at 9 rfl) (forall_mem_cons' (mem_at 10 rfl) (forall_mem_cons' (mem_at 11 rfl) (forall_mem_cons' (mem_at 12 rfl) (forall_mem_cons' (mem_at 13 rfl) (forall_mem_cons' (mem_at 14 rfl) (forall_mem_cons' (mem_at 15 rfl) (forall_mem_cons' (mem_at 7 rfl) (forall_mem_cons' (mem_at 16 rfl) (forall_mem_cons' (mem_at 17 rfl) (forall_mem_cons' (mem_at 18 rfl) (forall_mem_cons' (mem_at 19 rfl) (forall_mem_cons' (mem_at 20 rfl) (forall_mem_cons' (mem_at 21 rfl) (forall_mem_cons' (mem_at 22 rfl) (forall_mem_cons' (mem_at 23 rfl) (forall_mem_cons' (mem_at 24 rfl) (forall_mem_cons' (mem_at 25 rfl) (forall_mem_cons' (mem_at 26 rfl) (forall_mem_cons' (mem_at 27 rfl) (forall_mem_cons' (mem_at 28 rfl) (forall_mem_cons' (mem_at 29 rfl) (forall_mem_cons' (mem_at 30 rfl) (forall_mem_cons' (mem_at 31 rfl) (forall_mem_cons' (mem_at 32 rfl) (forall_mem_cons' (mem_at 33 rfl) (forall_mem_cons' (mem_at 34 rfl) (forall_mem_cons' (mem_at 34 rfl) (forall_mem_cons' (mem_at 17 rfl) (forall_mem_cons' (mem_at 35 rfl) (forall_mem_cons' (mem_at 36 rfl) (forall_mem_cons' (mem_at 17 rfl) (forall_mem_cons' (mem_at 37 rfl) (forall_mem_cons' (mem_at 38 rfl) (forall_mem_cons' (mem_at 39 rfl) (forall_mem_cons' (mem_at 40 rfl) (forall_mem_cons' (mem_at 41 rfl) (forall_mem_cons' (mem_at 42 rfl) (forall_mem_cons' (mem_at 17 rfl) (forall_mem_cons' (mem_at 43 rfl) (forall_mem_cons' (mem_at 44 rfl) (forall_mem_cons' (mem_at 45 rfl) (forall_mem_cons' (mem_at 7 rfl) (forall_mem_cons' (mem_at 46 rfl) (forall_mem_cons' (mem_at 47 rfl) (forall_mem_cons' (mem_at 48 rfl) (forall_mem_cons' (mem_at 49 rfl) (forall_mem_cons' (mem_at 50 rfl) (forall_mem_cons' (mem_at 51 rfl) (forall_mem_cons' (mem_at 52 rfl) (forall_mem_cons' (mem_at 53 rfl) (forall_mem_cons' (mem_at 54 rfl) (forall_mem_cons' (mem_at 55 rfl) (List.forall_mem_nil _))))))))))))))))))))))))))))))))))))))))))))))))))))))))))))))))⟩
  storage := by decide +kernel
  ok := commandMapF25_ok

theorem commandMapF26_ok : ∀ x ∈ commandMapF26, ∃ I, x.2.Ok I (Allowed Version.F26 x.1) := by
  unfold commandMapF26
  simp only [List.forall_mem_cons]
  exact ⟨⟨_, allow_parse ok_FC3_Authconfig⟩,
    ⟨_, allow_parse ok_FC3_Authconfig⟩,
    ⟨_, allow_parse ok_F26_AutoPart⟩,
    ⟨_, allow_parse ok_FC3_AutoStep⟩,
    ⟨_, allow_parse ok_F21_Bootloader⟩,
    ⟨_, allow_parse ok_F23_BTRFS_F23_BTRFSData⟩,
    ⟨_, allow_parse ok_FC3_Cdrom⟩,
    ⟨_, allow_parse ok_F21_ClearPart⟩,
    ⟨_, allow_parse ok_F26_DisplayMode⟩,
    ⟨_, allow_parse ok_F24_Device⟩,
    ⟨_, allow_parse ok_FC3_DeviceProbe⟩,
    ⟨_, allow_parse ok_F24_DmRaid⟩,
    ⟨_, allow_parse ok_F14_DriverDisk_F14_DriverDiskData⟩,
    ⟨_, allow_parse ok_F20_Eula⟩,
    ⟨_, allow_parse ok_F13_Fcoe_F13_FcoeData⟩,
    ⟨_, allow_parse ok_F20_Firewall⟩,
    ⟨_, allow_parse ok_FC3_Firstboot⟩,
    ⟨_, allow_parse ok_F26_DisplayMode⟩,
    ⟨_, allow_parse ok_F12_Group_F12_GroupData⟩,
    ⟨_, allow_parse ok_F23_Reboot⟩,
    ⟨_, allow_parse ok_FC3_HardDrive⟩,
    ⟨_, allow_parse ok_F14_IgnoreDisk⟩,
    ⟨_, allow_parse ok_F20_Install⟩,
    ⟨_, allow_parse ok_F17_Iscsi_F17_IscsiData⟩,
    ⟨_, allow_parse ok_FC6_IscsiName⟩,
    ⟨_, allow_parse ok_F18_Keyboard⟩,
    ⟨_, allow_parse ok_F19_Lang⟩,
    ⟨_, allow_parse ok_F19_Liveimg⟩,
    ⟨_, allow_parse ok_FC6_Logging⟩,
    ⟨_, allow_parse ok_F23_LogVol_F23_LogVolData⟩,
    ⟨_, allow_parse ok_FC4_MediaCheck⟩,
    ⟨_, allow_method (by decide) ok_F19_Method⟩,
    ⟨_, allow_parse ok_F24_MultiPath⟩,
    ⟨_, allow_parse ok_F25_Network_F25_NetworkData⟩,
    ⟨_, allow_parse ok_FC6_NFS⟩,
    ⟨_, allow_parse ok_F21_OSTreeSetup⟩,
    ⟨_, allow_parse ok_F23_Partition_F23_PartData⟩,
    ⟨_, allow_parse ok_F23_Partition_F23_PartData⟩,
    ⟨_, allow_parse ok_F23_Reboot⟩,
    ⟨_, allow_parse ok_F25_Raid_F25_RaidData⟩,
    ⟨_, allow_realm ok_F19_Realm⟩,
    ⟨_, allow_parse ok_F23_Reboot⟩,
    ⟨_, allow_parse ok_F21_Repo_F21_RepoData⟩,
    ⟨_, allow_parse ok_F23_ReqPart⟩,
    ⟨_, allow_parse ok_F10_Rescue⟩,
    ⟨_, allow_parse ok_F18_RootPw⟩,
    ⟨_, allow_parse ok_FC3_SELinux⟩,
    ⟨_, allow_parse ok_FC6_Services⟩,
    ⟨_, allow_parse ok_F23_Reboot⟩,
    ⟨_, allow_parse ok_FC3_SkipX⟩,
    ⟨_, allow_parse ok_F26_Snapshot_F26_SnapshotData⟩,
    ⟨_, allow_parse ok_F24_SshPw_F24_SshPwData⟩,
    ⟨_, allow_parse ok_F22_SshKey_F22_SshKeyData⟩,
    ⟨_, allow_parse ok_F26_DisplayMode⟩,
    ⟨_, allow_parse ok_F25_Timezone⟩,
    ⟨_, allow_parse ok_F7_Updates⟩,
    ⟨_, allow_parse ok_F20_Upgrade⟩,
    ⟨_, allow_parse ok_F18_Url⟩,
    ⟨_, allow_parse ok_F24_User_F19_UserData⟩,
    ⟨_, allow_parse ok_F9_Vnc⟩,
    ⟨_, allow_parse ok_F21_VolGroup_F21_VolGroupData⟩,
    ⟨_, allow_parse ok_F14_XConfig⟩,
    ⟨_, allow_parse ok_F9_ZeroMbr⟩,
    ⟨_, allow_parse ok_F14_ZFCP_F14_ZFCPData⟩,
    List.forall_mem_nil _⟩

def classesF26 : List Command := [FC3_Authconfig.cls, F26_AutoPart.cls, FC3_AutoStep.cls, F21_Bootloader.cls, F23_BTRFS.cls F23_BTRFSData.cls, FC3_Cdrom.cls, F21_ClearPart.cls, F26_DisplayMode.cls, F24_Device.cls, FC3_DeviceProbe.cls, F24_DmRaid.cls, F14_DriverDisk.cls F14_DriverDiskData.cls, F20_Eula.cls, F13_Fcoe.cls F13_FcoeData.cls, F20_Firewall.cls, FC3_Firstboot.cls, F12_Group.cls F12_GroupData.cls, F23_Reboot.cls, FC3_HardDrive.cls, F14_IgnoreDisk.cls, F20_Install.cls, F17_Iscsi.cls F17_IscsiData.cls, FC6_IscsiName.cls, F18_Keyboard.cls, F19_Lang.cls, F19_Liveimg.cls, FC6_Logging.cls, F23_LogVol.cls F23_LogVolData.cls, FC4_MediaCheck.cls, F19_Method.cls, F24_MultiPath.cls, F25_Network.cls F25_NetworkData.cls, FC6_NFS.cls, F21_OSTreeSetup.cls, F23_Partition.cls F23_PartData.cls, F25_Raid.cls F25_RaidData.cls, F19_Realm.cls, F21_Repo.cls F21_RepoData.cls, F23_ReqPart.cls, F10_Rescue.cls, F18_RootPw.cls, FC3_SELinux.cls, FC6_Services.cls, FC3_SkipX.cls, F26_Snapshot.cls F26_SnapshotData.cls, F24_SshPw.cls F24_SshPwData.cls, F22_SshKey.cls F22_SshKeyData.cls, F25_Timezone.cls, F7_Updates.cls, F20_Upgrade.cls, F18_Url.cls, F24_User.cls F19_UserData.cls, F9_Vnc.cls, F21_VolGroup.cls F21_VolGroupData.cls, F14_XConfig.cls, F9_ZeroMbr.cls, F14_ZFCP.cls F14_ZFCPData.cls]

theorem commandMapF26_mapOk : MapOk Version.F26 commandMapF26 where
  dict := nodup_codes (by decide +kernel)
  classes := ⟨classesF26, [c!"FC3_Authconfig", c!"F26_AutoPart", c!"FC3_AutoStep", c!"F21_Bootloader", c!"F23_BTRFS", c!"FC3_Cdrom", c!"F21_ClearPart", c!"F26_DisplayMode", c!"F24_Device", c!"FC3_DeviceProbe", c!"F24_DmRaid", c!"F14_DriverDisk", c!"F20_Eula", c!"F13_Fcoe", c!"F20_Firewall", c!"FC3_Firstboot", c!"F12_Group", c!"F23_Reboot", c!"FC3_HardDrive", c!"F14_IgnoreDisk", c!"F20_Install", c!"F17_Iscsi", c!"FC6_IscsiName", c!"F18_Keyboard", c!"F19_Lang", c!"F19_Liveimg", c!"FC6_Logging", c!"F23_LogVol", c!"FC4_MediaCheck", c!"F19_Method", c!"F24_MultiPath", c!"F25_Network", c!"FC6_NFS", c!"F21_OSTreeSetup", c!"F23_Partition", c!"F25_Raid", c!"F19_Realm", c!"F21_Repo", c!"F23_ReqPart", c!"F10_Rescue", c!"F18_RootPw", c!"FC3_SELinux", c!"FC6_Services", c!"FC3_SkipX", c!"F26_Snapshot", c!"F24_SshPw", c!"F22_SshKey", c!"F25_Timezone", c!"F7_Updates", c!"F20_Upgrade", c!"F18_Url", c!"F24_User", c!"F9_Vnc", c!"F21_VolGroup", c!"F14_XConfig", c!"F9_ZeroMbr", c!"F14_ZFCP"], [c!"authconfig", c!"autopart", c!"autostep", c!"bootloader", c!"btrfs", c!"cdrom", c!"clearpart", c!"displaymode", c!"device", c!"deviceprobe", c!"dmraid", c!"driverdisk", c!"eula", c!"fcoe", c!"firewall", c!"firstboot", c!"group", c!"reboot", c!"harddrive", c!"ignoredisk", c!"install", c!"iscsi", c!"iscsiname", c!"keyboard", c!"lang", c!"liveimg", c!"logging", c!"logvol", c!"mediacheck", c!"method", c!"multipath", c!"network", c!"nfs", c!"ostreesetup", c!"partition", c!"raid", c!"realm", c!"repo", c!"reqpart", c!"rescue", c!"rootpw", c!"selinux", c!"services", c!"skipx", c!"snapshot", c!"sshpw", c!"sshkey", c!"timezone", c!"updates", c!"upgrade", c!"url", c!"user", c!"vnc", c!"volgroup", c!"xconfig", c!"zerombr", c!"zfcp"], rfl, by decide +kernel, nodup_codes (by decide +kernel), nodup_codes (by decide +kernel), by
    unfold commandMapF26
    exact (forall_mem_cons' (mem_at 0 rfl) (forall_mem_cons' (mem_at 0 rfl) (forall_mem_cons' (mem_at 1 rfl) (forall_mem_cons' (mem_at 2 rfl) (forall_mem_cons' (mem_at 3 rfl) (forall_mem_cons' (mem_at 4 rfl) (forall_mem_cons' (mem_at 5 rfl) (forall_mem_cons' (mem_at 6 rfl) (forall_mem_cons' (mem_at 7 rfl) (forall_mem_cons' (mem_at 8 rfl) (forall_mem_cons' (mem_at 9 rfl) (forall_mem_cons' (mem_at 10 rfl) (forall_mem_cons' (mem_at 11 rfl) (forall_mem_cons' (mem_at 12 rfl) (forall_mem_cons' (mem_at 13 rfl) (forall_mem_cons' (mem_at 14 rfl) (forall_mem_cons' (mem_at 15 rfl) (forall_mem_cons' (mem_at 7 rfl) (forall_mem_cons' (mem_at 16 rfl) (forall_mem_cons' (mem_at 17 rfl) (forall_mem_cons' (mem_at 18 rfl) (forall_mem_cons' (mem_at 19 rfl) (forall_mem_cons' (mem_at 20 rfl) (forall_mem_cons' (mem_at 21 rfl) (forall_mem_cons' (mem_at 22 rfl) (forall_mem_cons' (mem_at 23 rfl) (forall_mem_cons' (mem_at 24 rfl) (forall_mem_cons' (mem_at 25 rfl) (forall_mem_cons' (mem_at 26 rfl) (forall_mem_cons' (mem_at 27 rfl) (forall_mem_cons' (mem_at 28 rfl) (forall_mem_cons' (mem_at 29 rfl) (forall_mem_cons' (mem_at 30 rfl) (forall_mem_cons' (mem_at 31 rfl) (forall_mem_cons' (mem_at 32 rfl) (forall_mem_cons' (mem_at 33 rfl) (forall_mem_cons' (mem_at 34 rfl) (forall_mem_cons' (mem_at 34 rfl) (forall_mem_cons' (mem_at 17 rfl) (forall_mem_cons' (mem_at 35 rfl) (forall_mem_cons' (mem_at 36 rfl) (forall_mem_cons' (mem_at 17 rfl) (forall_mem_cons' (mem_at 37 rfl) (forall_mem_cons' (mem_at 38 rfl) (forall_mem_cons' (mem_at 39 rfl) (forall_mem_cons' (mem_at 40 rfl) (forall_mem_cons' (mem_at 41 rfl) (forall_mem_cons' (mem_at 42 rfl) (forall_mem_cons' (mem_at 17 rfl) (forall_mem_cons' (mem_at 43 rfl) (forall_mem_cons' (mem_at 44 rfl) (forall_mem_cons' (mem_at 45 rfl) (forall_mem_cons' (mem_at 46 rfl) (forall_mem_cons' (mem_at 7 rfl) (forall_mem_cons' (mem_at 47 rfl) (forall_mem_cons' (mem_at 48 rfl) (forall_mem_cons' (mem_at 49 rfl) (forall_mem_cons' (mem_at 50 rfl) (forall_mem_cons' (mem_at 51 rfl) (forall_mem_cons' (mem_at 52 rfl) (forall_mem_cons' (mem_at 53 rfl) (forall_mem_cons' (mem_at 54 rfl) (forall_mem_cons' (mem_at 55 rfl) (forall_mem_cons' (mem_at 56 rfl) (List.forall_mem_nil _)))))))))))))))))))))))))))))))))))))))))))))))))))))))))))))))))⟩
  storage := by decide +kernel
  ok := commandMapF26_ok

theorem commandMapF27_ok : ∀ x ∈ commandMapF27, ∃ I, x.2.Ok I (Allowed Version.F27 x.1) := by
  unfold commandMapF27
  simp only [List.forall_mem_cons]
  exact ⟨⟨_, allow_parse ok_FC3_Authconfig⟩,
    ⟨_, allow_parse ok_FC3_Authconfig⟩,
    ⟨_, allow_parse ok_F26_AutoPart⟩,
    ⟨_, allow_parse ok_FC3_AutoStep⟩,
    ⟨_, allow_parse ok_F21_Bootloader⟩,
    ⟨_, allow_parse ok_F23_BTRFS_F23_BTRFSData⟩,
    ⟨_, allow_parse ok_FC3_Cdrom⟩,
    ⟨_, allow_parse ok_F21_ClearPart⟩,
    ⟨_, allow_parse ok_F26_DisplayMode⟩,
    ⟨_, allow_parse ok_F24_Device⟩,
    ⟨_, allow_parse ok_FC3_DeviceProbe⟩,
    ⟨_, allow_parse ok_F24_DmRaid⟩,
    ⟨_, allow_parse ok_F14_DriverDisk_F14_DriverDiskData⟩,
    ⟨_, allow_parse ok_F20_Eula⟩,
    ⟨_, allow_parse ok_F13_Fcoe_F13_FcoeData⟩,
    ⟨_, allow_parse ok_F20_Firewall⟩,
    ⟨_, allow_parse ok_FC3_Firstboot⟩,
    ⟨_, allow_parse ok_F26_DisplayMode⟩,
    ⟨_, allow_parse ok_F12_Group_F12_GroupData⟩,
    ⟨_, allow_parse ok_F23_Reboot⟩,
    ⟨_, allow_parse ok_FC3_HardDrive⟩,
    ⟨_, allow_parse ok_F14_IgnoreDisk⟩,
    ⟨_, allow_parse ok_F20_Install⟩,
    ⟨_, allow_parse ok_F17_Iscsi_F17_IscsiData⟩,
    ⟨_, allow_parse ok_FC6_IscsiName⟩,
    ⟨_, allow_parse ok_F18_Keyboard⟩,
    ⟨_, allow_parse ok_F19_Lang⟩,
    ⟨_, allow_parse ok_F19_Liveimg⟩,
    ⟨_, allow_parse ok_FC6_Logging⟩,
    ⟨_, allow_parse ok_F23_LogVol_F23_LogVolData⟩,
    ⟨_, allow_parse ok_FC4_MediaCheck⟩,
    ⟨_, allow_method (by decide) ok_F19_Method⟩,
    ⟨_, allow_mount ok_F27_Mount_F27_MountData⟩,
    ⟨_, allow_parse ok_F24_MultiPath⟩,
    ⟨_, allow_parse ok_F27_Network_F27_NetworkData⟩,
    ⟨_, allow_parse ok_FC6_NFS⟩,
    ⟨_, allow_parse ok_F21_OSTreeSetup⟩,
    ⟨_, allow_parse ok_F23_Partition_F23_PartData⟩,
    ⟨_, allow_parse ok_F23_Partition_F23_PartData⟩,
    ⟨_, allow_parse ok_F23_Reboot⟩,
    ⟨_, allow_parse ok_F25_Raid_F25_RaidData⟩,
    ⟨_, allow_realm ok_F19_Realm⟩,
    ⟨_, allow_parse ok_F23_Reboot⟩,
    ⟨_, allow_parse ok_F27_Repo_F27_RepoData⟩,
    ⟨_, allow_parse ok_F23_ReqPart⟩,
    ⟨_, allow_parse ok_F10_Rescue⟩,
    ⟨_, allow_parse ok_F18_RootPw⟩,
    ⟨_, allow_parse ok_FC3_SELinux⟩,
    ⟨_, allow_parse ok_FC6_Services⟩,
    ⟨_, allow_parse ok_F23_Reboot⟩,
    ⟨_, allow_parse ok_FC3_SkipX⟩,
    ⟨_, allow_parse ok_F26_Snapshot_F26_SnapshotData⟩,
    ⟨_, allow_parse ok_F24_SshPw_F24_SshPwData⟩,
    ⟨_, allow_parse ok_F22_SshKey_F22_SshKeyData⟩,
    ⟨_, allow_parse ok_F26_DisplayMode⟩,
    ⟨_, allow_parse ok_F25_Timezone⟩,
    ⟨_, allow_parse ok_F7_Updates⟩,
    ⟨_, allow_parse ok_F20_Upgrade⟩,
    ⟨_, allow_parse ok_F27_Url⟩,
    ⟨_, allow_parse ok_F24_User_F19_UserData⟩,
    ⟨_, allow_parse ok_F9_Vnc⟩,
    ⟨_, allow_parse ok_F21_VolGroup_F21_VolGroupData⟩,
    ⟨_, allow_parse ok_F14_XConfig⟩,
    ⟨_, allow_parse ok_F9_ZeroMbr⟩,
    ⟨_, allow_parse ok_F14_ZFCP_F14_ZFCPData⟩,
    List.forall_mem_nil _⟩

def classesF27 : List Command := [FC3_Authconfig.cls, F26_AutoPart.cls, FC3_AutoStep.cls, F21_Bootloader.cls, F23_BTRFS.cls F23_BTRFSData.cls, FC3_Cdrom.cls, F21_ClearPart.cls, F26_DisplayMode.cls, F24_Device.cls, FC3_DeviceProbe.cls, F24_DmRaid.cls, F14_DriverDisk.cls F14_DriverDiskData.cls, F20_Eula.cls, F13_Fcoe.cls F13_FcoeData.cls, F20_Firewall.cls, FC3_Firstboot.cls, F12_Group.cls F12_GroupData.cls, F23_Reboot.cls, FC3_HardDrive.cls, F14_IgnoreDisk.cls, F20_Install.cls, F17_Iscsi.cls F17_IscsiData.cls, FC6_IscsiName.cls, F18_Keyboard.cls, F19_Lang.cls, F19_Liveimg.cls, FC6_Logging.cls, F23_LogVol.cls F23_LogVolData.cls, FC4_MediaCheck.cls, F19_Method.cls, F27_Mount.cls F27_MountData.cls, F24_MultiPath.cls, F27_Network.cls F27_NetworkData.cls, FC6_NFS.cls, F21_OSTreeSetup.cls, F23_Partition.cls F23_PartData.cls, F25_Raid.cls F25_RaidData.cls, F19_Realm.cls, F27_Repo.cls F27_RepoData.cls, F23_ReqPart.cls, F10_Rescue.cls, F18_RootPw.cls, FC3_SELinux.cls, FC6_Services.cls, FC3_SkipX.cls, F26_Snapshot.cls F26_SnapshotData.cls, F24_SshPw.cls F24_SshPwData.cls, F22_SshKey.cls F22_SshKeyData.cls, F25_Timezone.cls, F7_Updates.cls, F20_Upgrade.cls, F27_Url.cls, F24_User.cls F19_UserData.cls, F9_Vnc.cls, F21_VolGroup.cls F21_VolGroupData.cls, F14_XConfig.cls, F9_ZeroMbr.cls, F14_ZFCP.cls F14_ZFCPData.cls]

theorem commandMapF27_mapOk : MapOk Version.F27 commandMapF27 where
  dict := nodup_codes (by decide +kernel)
  classes := ⟨classesF27, [c!"FC3_Authconfig", c!"F26_AutoPart", c!"FC3_AutoStep", c!"F21_Bootloader", c!"F23_BTRFS", c!"FC3_Cdrom", c!"F21_ClearPart", c!"F26_DisplayMode", c!"F24_Device", c!"FC3_DeviceProbe", c!"F24_DmRaid", c!"F14_DriverDisk", c!"F20_Eula", c!"F13_Fcoe", c!"F20_Firewall", c!"FC3_Firstboot", c!"F12_Group", c!"F23_Reboot", c!"FC3_HardDrive", c!"F14_IgnoreDisk", c!"F20_Install", c!"F17_Iscsi", c!"FC6_IscsiName", c!"F18_Keyboard", c!"F19_Lang", c!"F19_Liveimg", c!"FC6_Logging", c!"F23_LogVol", c!"FC4_MediaCheck", c!"F19_Method", c!"F27_Mount", c!"F24_MultiPath", c!"F27_Network", c!"FC6_NFS", c!"F21_OSTreeSetup", c!"F23_Partition", c!"F25_Raid", c!"F19_Realm", c!"F27_Repo", c!"F23_ReqPart", c!"F10_Rescue", c!"F18_RootPw", c!"FC3_SELinux", c!"FC6_Services", c!"FC3_SkipX", c!"F26_Snapshot", c!"F24_SshPw", c!"F22_SshKey", c!"F25_Timezone", c!"F7_Updates", c!"F20_Upgrade", c!"F27_Url", c!"F24_User", c!"F9_Vnc", c!"F21_VolGroup", c!"F14_XConfig", c!"F9_ZeroMbr", c!"F14_ZFCP"], [c!"authconfig", c!"autopart", c!"autostep", c!"bootloader", c!"btrfs", c!"cdrom", c!"clearpart", c!"displaymode", c!"device", c!"deviceprobe", c!"dmraid", c!"driverdisk", c!"eula", c!"fcoe", c!"firewall", c!"firstboot", c!"group", c!"reboot", c!"harddrive", c!"ignoredisk", c!"install", c!"iscsi", c!"iscsiname", c!"keyboard", c!"lang", c!"liveimg", c!"logging", c!"logvol", c!"mediacheck", c!"method", c!"mount", c!"multipath", c!"network", c!"nfs", c!"ostreesetup", c!"partition", c!"raid", c!"realm", c!"repo", c!"reqpart", c!"rescue", c!"rootpw", c!"selinux", c!"services", c!"skipx", c!"snapshot", c!"sshpw", c!"sshkey", c!"timezone", c!"updates", c!"upgrade", c!"url", c!"user", c!"vnc", c!"volgroup", c!"xconfig", c!"zerombr", c!"zfcp"], rfl, by decide +kernel, nodup_codes (by decide +kernel), nodup_codes (by decide +kernel), by
    unfold commandMapF27
    exact (forall_mem_cons' (mem_at 0 rfl) (forall_mem_cons' (mem_at 0 rfl) (forall_mem_cons' (mem_at 1 rfl) (forall_mem_cons' (mem_at 2 rfl) (forall_mem_cons' (mem_at 3 rfl) (forall_mem_cons' (mem_at 4 rfl) (forall_mem_cons' (mem_at 5 rfl) (forall_mem_cons' (mem_at 6 rfl) (forall_mem_cons' (mem_at 7 rfl) (forall_mem_cons' (mem_at 8 rfl) (forall_mem_cons' (mem_at 9 rfl) (forall_mem_cons' (mem_at 10 rfl) (forall_mem_cons' (mem_at 11 rfl) (forall_mem_cons' (mem_at 12 rfl) (forall_mem_cons' (mem_at 13 rfl) (forall_mem_cons' (mem_at 14 rfl) (forall_mem_cons' (mem_at 15 rfl) (forall_mem_cons' (mem_at 7 rfl) (forall_mem_cons' (mem_at 16 rfl) (forall_mem_cons' (mem_at 17 rfl) (forall_mem_cons' (mem_at 18 rfl) (forall_mem_cons' (mem_at 19 rfl) (forall_mem_cons' (mem_at 20 rfl) (forall_mem_cons' (mem_at 21 rfl) (forall_mem_cons' (mem_at 22 rfl) (forall_mem_cons' (mem_at 23 rfl) (forall_mem_cons' (mem_at 24 rfl) (forall_mem_cons' (mem_at 25 rfl) (forall_mem_cons' (mem_at 26 rfl) (forall_mem_cons' (mem_at 27 rfl) (forall_mem_cons' (mem_at 28 rfl) (forall_mem_cons' (mem_at 29 rfl) (forall_mem_cons' (mem_at 30 rfl) (forall_mem_cons' (mem_at 31 rfl) (forall_mem_cons' (mem_at 32 rfl) (forall_mem_cons' (mem_at 33 rfl) (forall_mem_cons' (mem_at 34 rfl) (forall_mem_cons' (mem_at 35 rfl) (forall_mem_cons' (mem_at 35 rfl) (forall_mem_cons' (mem_at 17 rfl) (forall_mem_cons' (mem_at 36 rfl) (forall_mem_cons' (mem_at 37 rfl) (forall_mem_cons' (mem_at 17 rfl) (forall_mem_cons' (mem_at 38 rfl) (forall_mem_cons' (mem_at 39 rfl) (forall_mem_cons' (mem_at 40 rfl) (forall_mem_cons' (mem_at 41 rfl) (forall_mem_cons' (mem_at 42 rfl) (forall_mem_cons' (mem_at 43 rfl) (forall_mem_cons' (mem_at 17 rfl) (forall_mem_cons' (mem_at 44 rfl) (forall_mem_cons' (mem_at 45 rfl) (forall_mem_cons' (mem_at 46 rfl) (forall_mem_cons' (mem_at 47 rfl) (forall_mem_cons' (mem_at 7 rfl) (forall_mem_cons' (mem_at 48 rfl) (forall_mem_cons' (mem_at 49 rfl) (forall_mem_cons' (mem_at 50 rfl) (forall_mem_cons' (mem_at 51 rfl) (forall_mem_cons' (mem_at 52 rfl) (forall_mem_cons' (mem_at 53 rfl) (forall_mem_cons' (mem_at 54 rfl) (forall_mem_cons' (mem_at 55 rfl) (forall_mem_cons' (mem_at 56 rfl) (forall_mem_cons' (mem_at 57 rfl) (List.forall_mem_nil _))))))))))))))))))))))))))))))))))))))))))))))))))))))))))))))))))⟩
  storage := by decide +kernel
  ok := commandMapF27_ok

theorem commandMapF28_ok : ∀ x ∈ commandMapF28, ∃ I, x.2.Ok I (Allowed Version.F28 x.1) := by
  unfold commandMapF28
  simp only [List.forall_mem_cons]
  exact ⟨⟨_, allow_parse ok_F28_Authconfig⟩,
    ⟨_, allow_parse ok_F28_Authconfig⟩,
    ⟨_, allow_parse ok_F28_Authselect⟩,
    ⟨_, allow_parse ok_F26_AutoPart⟩,
    ⟨_, allow_parse ok_FC3_AutoStep⟩,
    ⟨_, allow_parse ok_F21_Bootloader⟩,
    ⟨_, allow_parse ok_F23_BTRFS_F23_BTRFSData⟩,
    ⟨_, allow_parse ok_FC3_Cdrom⟩,
    ⟨_, allow_parse ok_F28_ClearPart⟩,
    ⟨_, allow_parse ok_F26_DisplayMode⟩,
    ⟨_, allow_parse ok_F24_Device⟩,
    ⟨_, allow_parse ok_FC3_DeviceProbe⟩,
    ⟨_, allow_parse ok_F24_DmRaid⟩,
    ⟨_, allow_parse ok_F14_DriverDisk_F14_DriverDiskData⟩,
    ⟨_, allow_parse ok_F20_Eula⟩,
    ⟨_, allow_parse ok_F28_Fcoe_F28_FcoeData⟩,
    ⟨_, allow_parse ok_F28_Firewall⟩,
    ⟨_, allow_parse ok_FC3_Firstboot⟩,
    ⟨_, allow_parse ok_F26_DisplayMode⟩,
    ⟨_, allow_parse ok_F12_Group_F12_GroupData⟩,
    ⟨_, allow_parse ok_F23_Reboot⟩,
    ⟨_, allow_parse ok_FC3_HardDrive⟩,
    ⟨_, allow_parse ok_F28_Hmc⟩,
    ⟨_, allow_parse ok_F14_IgnoreDisk⟩,
    ⟨_, allow_parse ok_F20_Install⟩,
    ⟨_, allow_parse ok_F17_Iscsi_F17_IscsiData⟩,
    ⟨_, allow_parse ok_FC6_IscsiName⟩,
    ⟨_, allow_parse ok_F18_Keyboard⟩,
    ⟨_, allow_parse ok_F19_Lang⟩,
    ⟨_, allow_parse ok_F19_Liveimg⟩,
    ⟨_, allow_parse ok_FC6_Logging⟩,
    ⟨_, allow_parse ok_F23_LogVol_F23_LogVolData⟩,
    ⟨_, allow_parse ok_FC4_MediaCheck⟩,
    ⟨_, allow_method (by decide) ok_F28_Method⟩,
    ⟨_, allow_mount ok_F27_Mount_F27_MountData⟩,
    ⟨_, allow_parse ok_F24_MultiPath⟩,
    ⟨_, allow_parse ok_F27_Network_F27_NetworkData⟩,
    ⟨_, allow_parse ok_FC6_NFS⟩,
    ⟨_, allow_nvdimm ok_F28_Nvdimm_F28_NvdimmData⟩,
    ⟨_, allow_parse ok_F21_OSTreeSetup⟩,
    ⟨_, allow_parse ok_F23_Partition_F23_PartData⟩,
    ⟨_, allow_parse ok_F23_Partition_F23_PartData⟩,
    ⟨_, allow_parse ok_F23_Reboot⟩,
    ⟨_, allow_parse ok_F25_Raid_F25_RaidData⟩,
    ⟨_, allow_realm ok_F19_Realm⟩,
    ⟨_, allow_parse ok_F23_Reboot⟩,
    ⟨_, allow_parse ok_F27_Repo_F27_RepoData⟩,
    ⟨_, allow_parse ok_F23_ReqPart⟩,
    ⟨_, allow_parse ok_F10_Rescue⟩,
    ⟨_, allow_parse ok_F18_RootPw⟩,
    ⟨_, allow_parse ok_FC3_SELinux⟩,
    ⟨_, allow_parse ok_FC6_Services⟩,
    ⟨_, allow_parse ok_F23_Reboot⟩,
    ⟨_, allow_parse ok_FC3_SkipX⟩,
    ⟨_, allow_parse ok_F26_Snapshot_F26_SnapshotData⟩,
    ⟨_, allow_parse ok_F24_SshPw_F24_SshPwData⟩,
    ⟨_, allow_parse ok_F22_SshKey_F22_SshKeyData⟩,
    ⟨_, allow_parse ok_F26_DisplayMode⟩,
    ⟨_, allow_parse ok_F25_Timezone⟩,
    ⟨_, allow_parse ok_F7_Updates⟩,
    ⟨_, allow_parse ok_F20_Upgrade⟩,
    ⟨_, allow_parse ok_F27_Url⟩,
    ⟨_, allow_parse ok_F24_User_F19_UserData⟩,
    ⟨_, allow_parse ok_F9_Vnc⟩,
    ⟨_, allow_parse ok_F21_VolGroup_F21_VolGroupData⟩,
    ⟨_, allow_parse ok_F14_XConfig⟩,
    ⟨_, allow_parse ok_F9_ZeroMbr⟩,
    ⟨_, allow_parse ok_F14_ZFCP_F14_ZFCPData⟩,
    List.forall_mem_nil _⟩

def classesF28 : List Command := [F28_Authconfig.cls, F28_Authselect.cls, F26_AutoPart.cls, FC3_AutoStep.cls, F21_Bootloader.cls, F23_BTRFS.cls F23_BTRFSData.cls, FC3_Cdrom.cls, F28_ClearPart.cls, F26_DisplayMode.cls, F24_Device.cls, FC3_DeviceProbe.cls, F24_DmRaid.cls, F14_DriverDisk.cls F14_DriverDiskData.cls, F20_Eula.cls, F28_Fcoe.cls F28_FcoeData.cls, F28_Firewall.cls, FC3_Firstboot.cls, F12_Group.cls F12_GroupData.cls, F23_Reboot.cls, FC3_HardDrive.cls, F28_Hmc.cls, F14_IgnoreDisk.cls, F20_Install.cls, F17_Iscsi.cls F17_IscsiData.cls, FC6_IscsiName.cls, F18_Keyboard.cls, F19_Lang.cls, F19_Liveimg.cls, FC6_Logging.cls, F23_LogVol.cls F23_LogVolData.cls, FC4_MediaCheck.cls, F28_Method.cls, F27_Mount.cls F27_MountData.cls, F24_MultiPath.cls, F27_Network.cls F27_NetworkData.cls, FC6_NFS.cls, F28_Nvdimm.cls F28_NvdimmData.cls, F21_OSTreeSetup.cls, F23_Partition.cls F23_PartData.cls, F25_Raid.cls F25_RaidData.cls, F19_Realm.cls, F27_Repo.cls F27_RepoData.cls, F23_ReqPart.cls, F10_Rescue.cls, F18_RootPw.cls, FC3_SELinux.cls, FC6_Services.cls, FC3_SkipX.cls, F26_Snapshot.cls F26_SnapshotData.cls, F24_SshPw.cls F24_SshPwData.cls, F22_SshKey.cls F22_SshKeyData.cls, F25_Timezone.cls, F7_Updates.cls, F20_Upgrade.cls, F27_Url.cls, F24_User.cls F19_UserData.cls, F9_Vnc.cls, F21_VolGroup.cls F21_VolGroupData.cls, F14_XConfig.cls, F9_ZeroMbr.cls, F14_ZFCP.cls F14_ZFCPData.cls]

theorem commandMapF28_mapOk : MapOk Version.F28 commandMapF28 where
  dict := nodup_codes (by decide +kernel)
  classes := ⟨classesF28, [c!"F28_Authconfig", c!"F28_Authselect", c!"F26_AutoPart", c!"FC3_AutoStep", c!"F21_Bootloader", c!"F23_BTRFS", c!"FC3_Cdrom", c!"F28_ClearPart", c!"F26_DisplayMode", c!"F24_Device", c!"FC3_DeviceProbe", c!"F24_DmRaid", c!"F14_DriverDisk", c!"F20_Eula", c!"F28_Fcoe", c!"F28_Firewall", c!"FC3_Firstboot", c!"F12_Group", c!"F23_Reboot", c!"FC3_HardDrive", c!"F28_Hmc", c!"F14_IgnoreDisk", c!"F20_Install", c!"F17_Iscsi", c!"FC6_IscsiName", c!"F18_Keyboard", c!"F19_Lang", c!"F19_Liveimg", c!"FC6_Logging", c!"F23_LogVol", c!"FC4_MediaCheck", c!"F28_Method", c!"F27_Mount", c!"F24_MultiPath", c!"F27_Network", c!"FC6_NFS", c!"F28_Nvdimm", c!"F21_OSTreeSetup", c!"F23_Partition", c!"F25_Raid", c!"F19_Realm", c!"F27_Repo", c!"F23_ReqPart", c!"F10_Rescue", c!"F18_RootPw", c!"FC3_SELinux", c!"FC6_Services", c!"FC3_SkipX", c!"F26_Snapshot", c!"F24_SshPw", c!"F22_SshKey", c!"F25_Timezone", c!"F7_Updates", c!"F20_Upgrade", c!"F27_Url", c!"F24_User", c!"F9_Vnc", c!"F21_VolGroup", c!"F14_XConfig", c!"F9_ZeroMbr", c!"F14_ZFCP"], [c!"authconfig", c!"authselect", c!"autopart", c!"autostep", c!"bootloader", c!"btrfs", c!"cdrom", c!"clearpart", c!"displaymode", c!"device", c!"deviceprobe", c!"dmraid", c!"driverdisk", c!"eula", c!"fcoe", c!"firewall", c!"firstboot", c!"group", c!"reboot", c!"harddrive", c!"hmc", c!"ignoredisk", c!"install", c!"iscsi", c!"iscsiname", c!"keyboard", c!"lang", c!"liveimg", c!"logging", c!"logvol", c!"mediacheck", c!"method", c!"mount", c!"multipath", c!"network", c!"nfs", c!"nvdimm", c!"ostreesetup", c!"partition", c!"raid", c!"realm", c!"repo", c!"reqpart", c!"rescue", c!"rootpw", c!"selinux", c!"services", c!"skipx", c!"snapshot", c!"sshpw", c!"sshkey", c!"timezone", c!"updates", c!"upgrade", c!"url", c!"user", c!"vnc", c!"volgroup", c!"xconfig", c!"zerombr", c!"zfcp"], rfl, by decide +kernel, nodup_codes (by decide +kernel), nodup_codes (by decide +kernel), by
    unfold commandMapF28
    exact (forall_mem_cons' (mem_at 0 rfl) (forall_mem_cons' (mem_at 0 rfl) (forall_mem_cons' (mem_at 1 rfl) (forall_mem_cons' (mem_at 2 rfl) (forall_mem_cons' (mem_at 3 rfl) (forall_mem_cons' (mem_at 4 rfl) (forall_mem_cons' (mem_at 5 rfl) (forall_mem_cons' (mem_at 6 rfl) (forall_mem_cons' (mem_at 7 rfl) (forall_mem_cons' (mem_at 8 rfl) (forall_mem_cons' (mem_at 9 rfl) (forall_mem_cons' (mem_at 10 rfl) (forall_mem_cons' (mem_at 11 rfl) (forall_mem_cons' (mem_at 12 rfl) (forall_mem_cons' (mem_at 13 rfl) (forall_mem_cons' (mem_at 14 rfl) (forall_mem_cons' (mem_at 15 rfl) (forall_mem_cons' (mem_at 16 rfl) (forall_mem_cons' (mem_at 8 rfl) (forall_mem_cons' (mem_at 17 rfl) (forall_mem_cons' (mem_at 18 rfl) (forall_mem_cons' (mem_at 19 rfl) (forall_mem_cons' (mem_at 20 rfl) (forall_mem_cons' (mem_at 21 rfl) (forall_mem_cons' (mem_at 22 rfl) (forall_mem_cons' (mem_at 23 rfl) (forall_mem_cons' (mem_at 24 rfl) (forall_mem_cons' (mem_at 25 rfl) (forall_mem_cons' (mem_at 26 rfl) (forall_mem_cons' (mem_at 27 rfl) (forall_mem_cons' (mem_at 28 rfl) (forall_mem_cons' (mem_at 29 rfl) (forall_mem_cons' (mem_at 30 rfl) (forall_mem_cons' (mem_at 31 rfl) (forall_mem_cons' (mem_at 32 rfl) (forall_mem_cons' (mem_at 33 rfl) (forall_mem_cons' (mem_at 34 rfl) (forall_mem_cons' (mem_at 35 rfl) (forall_mem_cons' (mem_at 36 rfl) (forall_mem_cons' (mem_at 37 rfl) (forall_mem_cons' (mem_at 38 rfl) (forall_mem_cons' (mem_at 38 rfl) (forall_mem_cons' (mem_at 18 rfl) (forall_mem_cons' (mem_at 39 rfl) (forall_mem_cons' (mem_at 40 rfl) (forall_mem_cons' (mem_at 18 rfl) (forall_mem_cons' (mem_at 41 rfl) (forall_mem_cons' (mem_at 42 rfl) (forall_mem_cons' (mem_at 43 rfl) (forall_mem_cons' (mem_at 44 rfl) (forall_mem_cons' (mem_at 45 rfl) (forall_mem_cons' (mem_at 46 rfl) (forall_mem_cons' (mem_at 18 rfl) (forall_mem_cons' (mem_at 47 rfl) (forall_mem_cons' (mem_at 48 rfl) (forall_mem_cons' (mem_at 49 rfl) (forall_mem_cons' (mem_at 50 rfl) (forall_mem_cons' (mem_at 8 rfl) (forall_mem_cons' (mem_at 51 rfl) (forall_mem_cons' (mem_at 52 rfl) (forall_mem_cons' (mem_at 53 rfl) (forall_mem_cons' (mem_at 54 rfl) (forall_mem_cons' (mem_at 55 rfl) (forall_mem_cons' (mem_at 56 rfl) (forall_mem_cons' (mem_at 57 rfl) (forall_mem_cons' (mem_at 58 rfl) (forall_mem_cons' (mem_at 59 rfl) (forall_mem_cons' (mem_at 60 rfl) (List.forall_mem_nil _)))))))))))))))))))))))))))))))))))))))))))))))))))))))))))))))))))))⟩
  storage := by decide +kernel
  ok := commandMapF28_ok

theorem commandMapF29_ok : ∀ x ∈ commandMapF29, ∃ I, x.2.Ok I (Allowed Version.F29 x.1) := by
  unfold commandMapF29
  simp only [List.forall_mem_cons]
  exact ⟨⟨_, allow_parse ok_F28_Authconfig⟩,
    ⟨_, allow_parse ok_F28_Authconfig⟩,
    ⟨_, allow_parse ok_F28_Authselect⟩,
    ⟨_, allow_parse ok_F29_AutoPart⟩,
    ⟨_, allow_parse ok_FC3_AutoStep⟩,
    ⟨_, allow_parse ok_F29_Bootloader⟩,
    ⟨_, allow_parse ok_F23_BTRFS_F23_BTRFSData⟩,
    ⟨_, allow_parse ok_FC3_Cdrom⟩,
    ⟨_, allow_parse ok_F28_ClearPart⟩,
    ⟨_, allow_parse ok_F26_DisplayMode⟩,
    ⟨_, allow_parse ok_F24_Device⟩,
    ⟨_, allow_parse ok_F29_DeviceProbe⟩,
    ⟨_, allow_parse ok_F24_DmRaid⟩,
    ⟨_, allow_parse ok_F14_DriverDisk_F14_DriverDiskData⟩,
    ⟨_, allow_parse ok_F29_Module_F29_ModuleData⟩,
    ⟨_, allow_parse ok_F20_Eula⟩,
    ⟨_, allow_parse ok_F28_Fcoe_F28_FcoeData⟩,
    ⟨_, allow_parse ok_F28_Firewall⟩,
    ⟨_, allow_parse ok_FC3_Firstboot⟩,
    ⟨_, allow_parse ok_F26_DisplayMode⟩,
    ⟨_, allow_parse ok_F12_Group_F12_GroupData⟩,
    ⟨_, allow_parse ok_F23_Reboot⟩,
    ⟨_, allow_parse ok_FC3_HardDrive⟩,
    ⟨_, allow_parse ok_F28_Hmc⟩,
    ⟨_, allow_parse ok_F29_IgnoreDisk⟩,
    ⟨_, allow_parse ok_F29_Install⟩,
    ⟨_, allow_parse ok_F17_Iscsi_F17_IscsiData⟩,
    ⟨_, allow_parse ok_FC6_IscsiName⟩,
    ⟨_, allow_parse ok_F18_Keyboard⟩,
    ⟨_, allow_parse ok_F19_Lang⟩,
    ⟨_, allow_parse ok_F19_Liveimg⟩,
    ⟨_, allow_parse ok_FC6_Logging⟩,
    ⟨_, allow_parse ok_F29_LogVol_F29_LogVolData⟩,
    ⟨_, allow_parse ok_FC4_MediaCheck⟩,
    ⟨_, allow_method (by decide) ok_F28_Method⟩,
    ⟨_, allow_mount ok_F27_Mount_F27_MountData⟩,
    ⟨_, allow_parse ok_F24_MultiPath⟩,
    ⟨_, allow_parse ok_F27_Network_F27_NetworkData⟩,
    ⟨_, allow_parse ok_FC6_NFS⟩,
    ⟨_, allow_nvdimm ok_F28_Nvdimm_F28_NvdimmData⟩,
    ⟨_, allow_parse ok_F21_OSTreeSetup⟩,
    ⟨_, allow_parse ok_F29_Partition_F29_PartData⟩,
    ⟨_, allow_parse ok_F29_Partition_F29_PartData⟩,
    ⟨_, allow_parse ok_F23_Reboot⟩,
    ⟨_, allow_parse ok_F29_Raid_F29_RaidData⟩,
    ⟨_, allow_realm ok_F19_Realm⟩,
    ⟨_, allow_parse ok_F23_Reboot⟩,
    ⟨_, allow_parse ok_F27_Repo_F27_RepoData⟩,
    ⟨_, allow_parse ok_F23_ReqPart⟩,
    ⟨_, allow_parse ok_F10_Rescue⟩,
    ⟨_, allow_parse ok_F18_RootPw⟩,
    ⟨_, allow_parse ok_FC3_SELinux⟩,
    ⟨_, allow_parse ok_FC6_Services⟩,
    ⟨_, allow_parse ok_F23_Reboot⟩,
    ⟨_, allow_parse ok_FC3_SkipX⟩,
    ⟨_, allow_parse ok_F26_Snapshot_F26_SnapshotData⟩,
    ⟨_, allow_parse ok_F24_SshPw_F24_SshPwData⟩,
    ⟨_, allow_parse ok_F22_SshKey_F22_SshKeyData⟩,
    ⟨_, allow_parse ok_F26_DisplayMode⟩,
    ⟨_, allow_parse ok_F25_Timezone⟩,
    ⟨_, allow_parse ok_F7_Updates⟩,
    ⟨_, allow_parse ok_F29_Upgrade⟩,
    ⟨_, allow_parse ok_F27_Url⟩,
    ⟨_, allow_parse ok_F24_User_F19_UserData⟩,
    ⟨_, allow_parse ok_F9_Vnc⟩,
    ⟨_, allow_parse ok_F21_VolGroup_F21_VolGroupData⟩,
    ⟨_, allow_parse ok_F14_XConfig⟩,
    ⟨_, allow_parse ok_F9_ZeroMbr⟩,
    ⟨_, allow_parse ok_F14_ZFCP_F14_ZFCPData⟩,
    List.forall_mem_nil _⟩

def classesF29 : List Command := [F28_Authconfig.cls, F28_Authselect.cls, F29_AutoPart.cls, FC3_AutoStep.cls, F29_Bootloader.cls, F23_BTRFS.cls F23_BTRFSData.cls, FC3_Cdrom.cls, F28_ClearPart.cls, F26_DisplayMode.cls, F24_Device.cls, F29_DeviceProbe.cls, F24_DmRaid.cls, F14_DriverDisk.cls F14_DriverDiskData.cls, F29_Module.cls F29_ModuleData.cls, F20_Eula.cls, F28_Fcoe.cls F28_FcoeData.cls, F28_Firewall.cls, FC3_Firstboot.cls, F12_Group.cls F12_GroupData.cls, F23_Reboot.cls, FC3_HardDrive.cls, F28_Hmc.cls, F29_IgnoreDisk.cls, F29_Install.cls, F17_Iscsi.cls F17_IscsiData.cls, FC6_IscsiName.cls, F18_Keyboard.cls, F19_Lang.cls, F19_Liveimg.cls, FC6_Logging.cls, F29_LogVol.cls F29_LogVolData.cls, FC4_MediaCheck.cls, F28_Method.cls, F27_Mount.cls F27_MountData.cls, F24_MultiPath.cls, F27_Network.cls F27_NetworkData.cls, FC6_NFS.cls, F28_Nvdimm.cls F28_NvdimmData.cls, F21_OSTreeSetup.cls, F29_Partition.cls F29_PartData.cls, F29_Raid.cls F29_RaidData.cls, F19_Realm.cls, F27_Repo.cls F27_RepoData.cls, F23_ReqPart.cls, F10_Rescue.cls, F18_RootPw.cls, FC3_SELinux.cls, FC6_Services.cls, FC3_SkipX.cls, F26_Snapshot.cls F26_SnapshotData.cls, F24_SshPw.cls F24_SshPwData.cls, F22_SshKey.cls F22_SshKeyData.cls, F25_Timezone.cls, F7_Updates.cls, F29_Upgrade.cls, F27_Url.cls, F24_User.cls F19_UserData.cls, F9_Vnc.cls, F21_VolGroup.cls F21_VolGroupData.cls, F14_XConfig.cls, F9_ZeroMbr.cls, F14_ZFCP.cls F14_ZFCPData.cls]

theorem commandMapF29_mapOk : MapOk Version.F29 commandMapF29 where
  dict := nodup_codes (by decide +kernel)
  classes := ⟨classesF29, [c!"F28_Authconfig", c!"F28_Authselect", c!"F29_AutoPart", c!"FC3_AutoStep", c!"F29_Bootloader", c!"F23_BTRFS", c!"FC3_Cdrom", c!"F28_ClearPart", c!"F26_DisplayMode", c!"F24_Device", c!"F29_DeviceProbe", c!"F24_DmRaid", c!"F14_DriverDisk", c!"F29_Module", c!"F20_Eula", c!"F28_Fcoe", c!"F28_Firewall", c!"FC3_Firstboot", c!"F12_Group", c!"F23_Reboot", c!"FC3_HardDrive", c!"F28_Hmc", c!"F29_IgnoreDisk", c!"F29_Install", c!"F17_Iscsi", c!"FC6_IscsiName", c!"F18_Keyboard", c!"F19_Lang", c!"F19_Liveimg", c!"FC6_Logging", c!"F29_LogVol", c!"FC4_MediaCheck", c!"F28_Method", c!"F27_Mount", c!"F24_MultiPath", c!"F27_Network", c!"FC6_NFS", c!"F28_Nvdimm", c!"F21_OSTreeSetup", c!"F29_Partition", c!"F29_Raid", c!"F19_Realm", c!"F27_Repo", c!"F23_ReqPart", c!"F10_Rescue", c!"F18_RootPw", c!"FC3_SELinux", c!"FC6_Services", c!"FC3_SkipX", c!"F26_Snapshot", c!"F24_SshPw", c!"F22_SshKey", c!"F25_Timezone", c!"F7_Updates", c!"F29_Upgrade", c!"F27_Url", c!"F24_User", c!"F9_Vnc", c!"F21_VolGroup", c!"F14_XConfig", c!"F9_ZeroMbr", c!"F14_ZFCP"], [c!"authconfig", c!"authselect", c!"autopart", c!"autostep", c!"bootloader", c!"btrfs", c!"cdrom", c!"clearpart", c!"displaymode", c!"device", c!"deviceprobe", c!"dmraid", c!"driverdisk", c!"module", c!"eula", c!"fcoe", c!"firewall", c!"firstboot", c!"group", c!"reboot", c!"harddrive", c!"hmc", c!"ignoredisk", c!"install", c!"iscsi", c!"iscsiname", c!"keyboard", c!"lang", c!"liveimg", c!"logging", c!"logvol", c!"mediacheck", c!"method", c!"mount", c!"multipath", c!"network", c!"nfs", c!"nvdimm", c!"ostreesetup", c!"partition", c!"raid", c!"realm", c!"repo", c!"reqpart", c!"rescue", c!"rootpw", c!"selinux", c!"services", c!"skipx", c!"snapshot", c!"sshpw", c!"sshkey", c!"timezone", c!"updates", c!"upgrade", c!"url", c!"user", c!"vnc", c!"volgroup", c!"xconfig", c!"zerombr", c!"zfcp"], rfl, by decide +kernel, nodup_codes (by decide +kernel), nodup_codes (by decide +kernel), by
    unfold commandMapF29
    exact (forall_mem_cons' (mem_at 0 rfl) (forall_mem_cons' (mem_at 0 rfl) (forall_mem_cons' (mem_at 1 rfl) (forall_mem_cons' (mem_at 2 rfl) (forall_mem_cons' (mem_at 3 rfl) (forall_mem_cons' (mem_at 4 rfl) (forall_mem_cons' (mem_at 5 rfl) (forall_mem_cons' (mem_at 6 rfl) (forall_mem_cons' (mem_at 7 rfl) (forall_mem_cons' (mem_at 8 rfl) (forall_mem_cons' (mem_at 9 rfl) (forall_mem_cons' (mem_at 10 rfl) (forall_mem_cons' (mem_at 11 rfl) (forall_mem_cons' (mem_at 12 rfl) (forall_mem_cons' (mem_at 13 rfl) (forall_mem_cons' (mem_at 14 rfl) (forall_mem_cons' (mem_at 15 rfl) (forall_mem_cons' (mem_at 16 rfl) (forall_mem_cons' (mem_at 17 rfl) (forall_mem_cons' (mem_at 8 rfl) (forall_mem_cons' (mem_at 18 rfl) (forall_mem_cons' (mem_at 19 rfl) (forall_mem_cons' (mem_at 20 rfl) (forall_mem_cons' (mem_at 21 rfl) (forall_mem_cons' (mem_at 22 rfl) (forall_mem_cons' (mem_at 23 rfl) (forall_mem_cons' (mem_at 24 rfl) (forall_mem_cons' (mem_at 25 rfl) (forall_mem_cons' (mem_at 26 rfl) (forall_mem_cons' (mem_at 27 rfl) (forall_mem_cons' (mem_at 28 rfl) (forall_mem_cons' (mem_at 29 rfl) (forall_mem_cons' (mem_at 30 rfl) (forall_mem_cons' (mem_at 31 rfl) (forall_mem_cons' (mem_at 32 rfl) (forall_mem_cons' (mem_at 33 rfl) (forall_mem_cons' (mem_at 34 rfl) (forall_mem_cons' (mem_at 35 rfl) (forall_mem_cons' (mem_at 36 rfl) (forall_mem_cons' (mem_at 37 rfl) (forall_mem_cons' (mem_at 38 rfl) (forall_mem_cons' (mem_at 39 rfl) (forall_mem_cons' (mem_at 39 rfl) (forall_mem_cons' (mem_at 19 rfl) (forall_mem_cons' (mem_at 40 rfl) (forall_mem_cons' (mem_at 41 rfl) (forall_mem_cons' (mem_at 19 rfl) (forall_mem_cons' (mem_at 42 rfl) (forall_mem_cons' (mem_at 43 rfl) (forall_mem_cons' (mem_at 44 rfl) (forall_mem_cons' (mem_at 45 rfl) (forall_mem_cons' (mem_at 46 rfl) (forall_mem_cons' (mem_at 47 rfl) (forall_mem_cons' (mem_at 19 rfl) (forall_mem_cons' (mem_at 48 rfl) (forall_mem_cons' (mem_at 49 rfl) (forall_mem_cons' (mem_at 50 rfl) (forall_mem_cons' (mem_at 51 rfl) (forall_mem_cons' (mem_at 8 rfl) (forall_mem_cons' (mem_at 52 rfl) (forall_mem_cons' (mem_at 53 rfl) (forall_mem_cons' (mem_at 54 rfl) (forall_mem_cons' (mem_at 55 rfl) (forall_mem_cons' (mem_at 56 rfl) (forall_mem_cons' (mem_at 57 rfl) (forall_mem_cons' (mem_at 58 rfl) (forall_mem_cons' (mem_at 59 rfl) (forall_mem_cons' (mem_at 60 rfl) (forall_mem_cons' (mem_at 61 rfl) (List.forall_mem_nil _))))))))))))))))))))))))))))))))))))))))))))))))))))))))))))))))))))))⟩
  storage := by decide +kernel
  ok := commandMapF29_ok

theorem commandMapF30_ok : ∀ x ∈ commandMapF30, ∃ I, x.2.Ok I (Allowed Version.F30 x.1) := by
  unfold commandMapF30
  simp only [List.forall_mem_cons]
  exact ⟨⟨_, allow_parse ok_F28_Authconfig⟩,
    ⟨_, allow_parse ok_F28_Authconfig⟩,
    ⟨_, allow_parse ok_F28_Authselect⟩,
    ⟨_, allow_parse ok_F29_AutoPart⟩,
    ⟨_, allow_parse ok_FC3_AutoStep⟩,
    ⟨_, allow_parse ok_F29_Bootloader⟩,
    ⟨_, allow_parse ok_F23_BTRFS_F23_BTRFSData⟩,
    ⟨_, allow_parse ok_FC3_Cdrom⟩,
    ⟨_, allow_parse ok_F28_ClearPart⟩,
    ⟨_, allow_parse ok_F26_DisplayMode⟩,
    ⟨_, allow_parse ok_F24_Device⟩,
    ⟨_, allow_parse ok_F29_DeviceProbe⟩,
    ⟨_, allow_parse ok_F24_DmRaid⟩,
    ⟨_, allow_parse ok_F14_DriverDisk_F14_DriverDiskData⟩,
    ⟨_, allow_parse ok_F29_Module_F29_ModuleData⟩,
    ⟨_, allow_parse ok_F20_Eula⟩,
    ⟨_, allow_parse ok_F28_Fcoe_F28_FcoeData⟩,
    ⟨_, allow_parse ok_F28_Firewall⟩,
    ⟨_, allow_parse ok_FC3_Firstboot⟩,
    ⟨_, allow_parse ok_F26_DisplayMode⟩,
    ⟨_, allow_parse ok_F12_Group_F12_GroupData⟩,
    ⟨_, allow_parse ok_F23_Reboot⟩,
    ⟨_, allow_parse ok_FC3_HardDrive⟩,
    ⟨_, allow_parse ok_F28_Hmc⟩,
    ⟨_, allow_parse ok_F29_IgnoreDisk⟩,
    ⟨_, allow_parse ok_F29_Install⟩,
    ⟨_, allow_parse ok_F17_Iscsi_F17_IscsiData⟩,
    ⟨_, allow_parse ok_FC6_IscsiName⟩,
    ⟨_, allow_parse ok_F18_Keyboard⟩,
    ⟨_, allow_parse ok_F19_Lang⟩,
    ⟨_, allow_parse ok_F19_Liveimg⟩,
    ⟨_, allow_parse ok_FC6_Logging⟩,
    ⟨_, allow_parse ok_F29_LogVol_F29_LogVolData⟩,
    ⟨_, allow_parse ok_FC4_MediaCheck⟩,
    ⟨_, allow_method (by decide) ok_F28_Method⟩,
    ⟨_, allow_mount ok_F27_Mount_F27_MountData⟩,
    ⟨_, allow_parse ok_F24_MultiPath⟩,
    ⟨_, allow_parse ok_F27_Network_F27_NetworkData⟩,
    ⟨_, allow_parse ok_FC6_NFS⟩,
    ⟨_, allow_nvdimm ok_F28_Nvdimm_F28_NvdimmData⟩,
    ⟨_, allow_parse ok_F21_OSTreeSetup⟩,
    ⟨_, allow_parse ok_F29_Partition_F29_PartData⟩,
    ⟨_, allow_parse ok_F29_Partition_F29_PartData⟩,
    ⟨_, allow_parse ok_F23_Reboot⟩,
    ⟨_, allow_parse ok_F29_Raid_F29_RaidData⟩,
    ⟨_, allow_realm ok_F19_Realm⟩,
    ⟨_, allow_parse ok_F23_Reboot⟩,
    ⟨_, allow_parse ok_F30_Repo_F30_RepoData⟩,
    ⟨_, allow_parse ok_F23_ReqPart⟩,
    ⟨_, allow_parse ok_F10_Rescue⟩,
    ⟨_, allow_parse ok_F18_RootPw⟩,
    ⟨_, allow_parse ok_FC3_SELinux⟩,
    ⟨_, allow_parse ok_FC6_Services⟩,
    ⟨_, allow_parse ok_F23_Reboot⟩,
    ⟨_, allow_parse ok_FC3_SkipX⟩,
    ⟨_, allow_parse ok_F26_Snapshot_F26_SnapshotData⟩,
    ⟨_, allow_parse ok_F24_SshPw_F24_SshPwData⟩,
    ⟨_, allow_parse ok_F22_SshKey_F22_SshKeyData⟩,
    ⟨_, allow_parse ok_F26_DisplayMode⟩,
    ⟨_, allow_parse ok_F25_Timezone⟩,
    ⟨_, allow_parse ok_F7_Updates⟩,
    ⟨_, allow_parse ok_F30_Url⟩,
    ⟨_, allow_parse ok_F24_User_F19_UserData⟩,
    ⟨_, allow_parse ok_F9_Vnc⟩,
    ⟨_, allow_parse ok_F21_VolGroup_F21_VolGroupData⟩,
    ⟨_, allow_parse ok_F14_XConfig⟩,
    ⟨_, allow_parse ok_F9_ZeroMbr⟩,
    ⟨_, allow_parse ok_F14_ZFCP_F14_ZFCPData⟩,
    List.forall_mem_nil _⟩

def classesF30 : List Command := [F28_Authconfig.cls, F28_Authselect.cls, F29_AutoPart.cls, FC3_AutoStep.cls, F29_Bootloader.cls, F23_BTRFS.cls F23_BTRFSData.cls, FC3_Cdrom.cls, F28_ClearPart.cls, F26_DisplayMode.cls, F24_Device.cls, F29_DeviceProbe.cls, F24_DmRaid.cls, F14_DriverDisk.cls F14_DriverDiskData.cls, F29_Module.cls F29_ModuleData.cls, F20_Eula.cls, F28_Fcoe.cls F28_FcoeData.cls, F28_Firewall.cls, FC3_Firstboot.cls, F12_Group.cls F12_GroupData.cls, F23_Reboot.cls, FC3_HardDrive.cls, F28_Hmc.cls, F29_IgnoreDisk.cls, F29_Install.cls, F17_Iscsi.cls F17_IscsiData.cls, FC6_IscsiName.cls, F18_Keyboard.cls, F19_Lang.cls, F19_Liveimg.cls, FC6_Logging.cls, F29_LogVol.cls F29_LogVolData.cls, FC4_MediaCheck.cls, F28_Method.cls, F27_Mount.cls F27_MountData.cls, F24_MultiPath.cls, F27_Network.cls F27_NetworkData.cls, FC6_NFS.cls, F28_Nvdimm.cls F28_NvdimmData.cls, F21_OSTreeSetup.cls, F29_Partition.cls F29_PartData.cls, F29_Raid.cls F29_RaidData.cls, F19_Realm.cls, F30_Repo.cls F30_RepoData.cls, F23_ReqPart.cls, F10_Rescue.cls, F18_RootPw.cls, FC3_SELinux.cls, FC6_Services.cls, FC3_SkipX.cls, F26_Snapshot.cls F26_SnapshotData.cls, F24_SshPw.cls F24_SshPwData.cls, F22_SshKey.cls F22_SshKeyData.cls, F25_Timezone.cls, F7_Updates.cls, F30_Url.cls, F24_User.cls F19_UserData.cls, F9_Vnc.cls, F21_VolGroup.cls F21_VolGroupData.cls, F14_XConfig.cls, F9_ZeroMbr.cls, F14_ZFCP.cls F14_ZFCPData.cls]

theorem commandMapF30_mapOk : MapOk Version.F30 commandMapF30 where
  dict := nodup_codes (by decide +kernel)
  classes := ⟨classesF30, [c!"F28_Authconfig", c!"F28_Authselect", c!"F29_AutoPart", c!"FC3_AutoStep", c!"F29_Bootloader", c!"F23_BTRFS", c!"FC3_Cdrom", c!"F28_ClearPart", c!"F26_DisplayMode", c!"F24_Device", c!"F29_DeviceProbe", c!"F24_DmRaid", c!"F14_DriverDisk", c!"F29_Module", c!"F20_Eula", c!"F28_Fcoe", c!"F28_Firewall", c!"FC3_Firstboot", c!"F12_Group", c!"F23_Reboot", c!"FC3_HardDrive", c!"F28_Hmc", c!"F29_IgnoreDisk", c!"F29_Install", c!"F17_Iscsi", c!"FC6_IscsiName", c!"F18_Keyboard", c!"F19_Lang", c!"F19_Liveimg", c!"FC6_Logging", c!"F29_LogVol", c!"FC4_MediaCheck", c!"F28_Method", c!"F27_Mount", c!"F24_MultiPath", c!"F27_Network", c!"FC6_NFS", c!"F28_Nvdimm", c!"F21_OSTreeSetup", c!"F29_Partition", c!"F29_Raid", c!"F19_Realm", c!"F30_Repo", c!"F23_ReqPart", c!"F10_Rescue", c!"F18_RootPw", c!"FC3_SELinux", c!"FC6_Services", c!"FC3_SkipX", c!"F26_Snapshot", c!"F24_SshPw", c!"F22_SshKey", c!"F25_Timezone", c!"F7_Updates", c!"F30_Url", c!"F24_User", c!"F9_Vnc", c!"F21_VolGroup", c!"F14_XConfig", c!"F9_ZeroMbr", c!"F14_ZFCP"], [c!"authconfig", c!"authselect", c!"autopart", c!"autostep", c!"bootloader", c!"btrfs", c!"cdrom", c!"clearpart", c!"displaymode", c!"device", c!"deviceprobe", c!"dmraid", c!"driverdisk", c!"module", c!"eula", c!"fcoe", c!"firewall", c!"firstboot", c!"group", c!"reboot", c!"harddrive", c!"hmc", c!"ignoredisk", c!"install", c!"iscsi", c!"iscsiname", c!"keyboard", c!"lang", c!"liveimg", c!"logging", c!"logvol", c!"mediacheck", c!"method", c!"mount", c!"multipath", c!"network", c!"nfs", c!"nvdimm", c!"ostreesetup", c!"partition", c!"raid", c!"realm", c!"repo", c!"reqpart", c!"rescue", c!"rootpw", c!"selinux", c!"services", c!"skipx", c!"snapshot", c!"sshpw", c!"sshkey", c!"timezone", c!"updates", c!"url", c!"user", c!"vnc", c!"volgroup", c!"xconfig", c!"zerombr", c!"zfcp"], rfl, by decide +kernel, nodup_codes (by decide +kernel), nodup_codes (by decide +kernel), by
    unfold commandMapF30
    exact (forall_mem_cons' (mem_at 0 rfl) (forall_mem_cons' (mem_at 0 rfl) (forall_mem_cons' (mem_at 1 rfl) (forall_mem_cons' (mem_at 2 rfl) (forall_mem_cons' (mem_at 3 rfl) (forall_mem_cons' (mem_at 4 rfl) (forall_mem_cons' (mem_at 5 rfl) (forall_mem_cons' (mem_at 6 rfl) (forall_mem_cons' (mem_at 7 rfl) (forall_mem_cons' (mem_at 8 rfl) (forall_mem_cons' (mem_at 9 rfl) (forall_mem_cons' (mem_at 10 rfl) (forall_mem_cons' (mem_at 11 rfl) (forall_mem_cons' (mem_at 12 rfl) (forall_mem_cons' (mem_at 13 rfl) (forall_mem_cons' (mem_at 14 rfl) (forall_mem_cons' (mem_at 15 rfl) (forall_mem_cons' (mem_at 16 rfl) (forall_mem_cons' (mem_at 17 rfl) (forall_mem_cons' (mem_at 8 rfl) (forall_mem_cons' (mem_at 18 rfl) (forall_mem_cons' (mem_at 19 rfl) (forall_mem_cons' (mem_at 20 rfl) (forall_mem_cons' (mem_at 21 rfl) (forall_mem_cons' (mem_at 22 rfl) (forall_mem_cons' (mem_at 23 rfl) (forall_mem_cons' (mem_at 24 rfl) (forall_mem_cons' (mem_at 25 rfl) (forall_mem_cons' (mem_at 26 rfl) (forall_mem_cons' (mem_at 27 rfl) (forall_mem_cons' (mem_at 28 rfl) (forall_mem_cons' (mem_at 29 rfl) (forall_mem_cons' (mem_at 30 rfl) (forall_mem_cons' (mem_at 31 rfl) (forall_mem_cons' (mem_at 32 rfl) (forall_mem_cons' (mem_at 33 rfl) (forall_mem_cons' (mem_at 34 rfl) (forall_mem_cons' (mem_at 35 rfl) (forall_mem_cons' (mem_at 36 rfl) (forall_mem_cons' (mem_at 37 rfl) (forall_mem_cons' (mem_at 38 rfl) (forall_mem_cons' (mem_at 39 rfl) (forall_mem_cons' (mem_at 39 rfl) (forall_mem_cons' (mem_at 19 rfl) (forall_mem_cons' (mem_at 40 rfl) (forall_mem_cons' (mem_at 41 rfl) (forall_mem_cons' (mem_at 19 rfl) (forall_mem_cons' (mem_at 42 rfl) (forall_mem_cons' (mem_at 43 rfl) (forall_mem_cons' (mem_at 44 rfl) (forall_mem_cons' (mem_at 45 rfl) (forall_mem_cons' (mem_at 46 rfl) (forall_mem_cons' (mem_at 47 rfl) (forall_mem_cons' (mem_at 19 rfl) (forall_mem_cons' (mem_at 48 rfl) (forall_mem_cons' (mem_at 49 rfl) (forall_mem_cons' (mem_at 50 rfl) (forall_mem_cons' (mem_at 51 rfl) (forall_mem_cons' (mem_at 8 rfl) (forall_mem_cons' (mem_at 52 rfl) (forall_mem_cons' (mem_at 53 rfl) (forall_mem_cons' (mem_at 54 rfl) (forall_mem_cons' (mem_at 55 rfl) (forall_mem_cons' (mem_at 56 rfl) (forall_mem_cons' (mem_at 57 rfl) (forall_mem_cons' (mem_at 58 rfl) (forall_mem_cons' (mem_at 59 rfl) (forall_mem_cons' (mem_at 60 rfl) (List.forall_mem_nil _)))))))))))))))))))))))))))))))))))))))))))))))))))))))))))))))))))))⟩
  storage := by decide +kernel
  ok := commandMapF30_ok

theorem commandMapF31_ok : ∀ x ∈ commandMapF31, ∃ I, x.2.Ok I (Allowed Version.F31 x.1) := by
  unfold commandMapF31
  simp only [List.forall_mem_cons]
  exact ⟨⟨_, allow_parse ok_F28_Authconfig⟩,
    ⟨_, allow_parse ok_F28_Authconfig⟩,
    ⟨_, allow_parse ok_F28_Authselect⟩,
    ⟨_, allow_parse ok_F29_AutoPart⟩,
    ⟨_, allow_parse ok_FC3_AutoStep⟩,
    ⟨_, allow_parse ok_F29_Bootloader⟩,
    ⟨_, allow_parse ok_F23_BTRFS_F23_BTRFSData⟩,
    ⟨_, allow_parse ok_FC3_Cdrom⟩,
    ⟨_, allow_parse ok_F28_ClearPart⟩,
    ⟨_, allow_parse ok_F26_DisplayMode⟩,
    ⟨_, allow_parse ok_F24_Device⟩,
    ⟨_, allow_parse ok_F29_DeviceProbe⟩,
    ⟨_, allow_parse ok_F24_DmRaid⟩,
    ⟨_, allow_parse ok_F14_DriverDisk_F14_DriverDiskData⟩,
    ⟨_, allow_parse ok_F31_Module_F31_ModuleData⟩,
    ⟨_, allow_parse ok_F20_Eula⟩,
    ⟨_, allow_parse ok_F28_Fcoe_F28_FcoeData⟩,
    ⟨_, allow_parse ok_F28_Firewall⟩,
    ⟨_, allow_parse ok_FC3_Firstboot⟩,
    ⟨_, allow_parse ok_F26_DisplayMode⟩,
    ⟨_, allow_parse ok_F12_Group_F12_GroupData⟩,
    ⟨_, allow_parse ok_F23_Reboot⟩,
    ⟨_, allow_parse ok_FC3_HardDrive⟩,
    ⟨_, allow_parse ok_F28_Hmc⟩,
    ⟨_, allow_parse ok_F29_IgnoreDisk⟩,
    ⟨_, allow_parse ok_F29_Install⟩,
    ⟨_, allow_parse ok_F17_Iscsi_F17_IscsiData⟩,
    ⟨_, allow_parse ok_FC6_IscsiName⟩,
    ⟨_, allow_parse ok_F18_Keyboard⟩,
    ⟨_, allow_parse ok_F19_Lang⟩,
    ⟨_, allow_parse ok_F19_Liveimg⟩,
    ⟨_, allow_parse ok_FC6_Logging⟩,
    ⟨_, allow_parse ok_F29_LogVol_F29_LogVolData⟩,
    ⟨_, allow_parse ok_FC4_MediaCheck⟩,
    ⟨_, allow_method (by decide) ok_F28_Method⟩,
    ⟨_, allow_mount ok_F27_Mount_F27_MountData⟩,
    ⟨_, allow_parse ok_F24_MultiPath⟩,
    ⟨_, allow_parse ok_F27_Network_F27_NetworkData⟩,
    ⟨_, allow_parse ok_FC6_NFS⟩,
    ⟨_, allow_nvdimm ok_F28_Nvdimm_F28_NvdimmData⟩,
    ⟨_, allow_parse ok_F21_OSTreeSetup⟩,
    ⟨_, allow_parse ok_F29_Partition_F29_PartData⟩,
    ⟨_, allow_parse ok_F29_Partition_F29_PartData⟩,
    ⟨_, allow_parse ok_F23_Reboot⟩,
    ⟨_, allow_parse ok_F29_Raid_F29_RaidData⟩,
    ⟨_, allow_realm ok_F19_Realm⟩,
    ⟨_, allow_parse ok_F23_Reboot⟩,
    ⟨_, allow_parse ok_F30_Repo_F30_RepoData⟩,
    ⟨_, allow_parse ok_F23_ReqPart⟩,
    ⟨_, allow_parse ok_F10_Rescue⟩,
    ⟨_, allow_parse ok_F18_RootPw⟩,
    ⟨_, allow_parse ok_FC3_SELinux⟩,
    ⟨_, allow_parse ok_FC6_Services⟩,
    ⟨_, allow_parse ok_F23_Reboot⟩,
    ⟨_, allow_parse ok_FC3_SkipX⟩,
    ⟨_, allow_parse ok_F26_Snapshot_F26_SnapshotData⟩,
    ⟨_, allow_parse ok_F24_SshPw_F24_SshPwData⟩,
    ⟨_, allow_parse ok_F22_SshKey_F22_SshKeyData⟩,
    ⟨_, allow_parse ok_F26_DisplayMode⟩,
    ⟨_, allow_parse ok_F25_Timezone⟩,
    ⟨_, allow_parse ok_F7_Updates⟩,
    ⟨_, allow_parse ok_F30_Url⟩,
    ⟨_, allow_parse ok_F24_User_F19_UserData⟩,
    ⟨_, allow_parse ok_F9_Vnc⟩,
    ⟨_, allow_parse ok_F21_VolGroup_F21_VolGroupData⟩,
    ⟨_, allow_parse ok_F14_XConfig⟩,
    ⟨_, allow_parse ok_F9_ZeroMbr⟩,
    ⟨_, allow_parse ok_F14_ZFCP_F14_ZFCPData⟩,
    List.forall_mem_nil _⟩

def classesF31 : List Command := [F28_Authconfig.cls, F28_Authselect.cls, F29_AutoPart.cls, FC3_AutoStep.cls, F29_Bootloader.cls, F23_BTRFS.cls F23_BTRFSData.cls, FC3_Cdrom.cls, F28_ClearPart.cls, F26_DisplayMode.cls, F24_Device.cls, F29_DeviceProbe.cls, F24_DmRaid.cls, F14_DriverDisk.cls F14_DriverDiskData.cls, F31_Module.cls F31_ModuleData.cls, F20_Eula.cls, F28_Fcoe.cls F28_FcoeData.cls, F28_Firewall.cls, FC3_Firstboot.cls, F12_Group.cls F12_GroupData.cls, F23_Reboot.cls, FC3_HardDrive.cls, F28_Hmc.cls, F29_IgnoreDisk.cls, F29_Install.cls, F17_Iscsi.cls F17_IscsiData.cls, FC6_IscsiName.cls, F18_Keyboard.cls, F19_Lang.cls, F19_Liveimg.cls, FC6_Logging.cls, F29_LogVol.cls F29_LogVolData.cls, FC4_MediaCheck.cls, F28_Method.cls, F27_Mount.cls F27_MountData.cls, F24_MultiPath.cls, F27_Network.cls F27_NetworkData.cls, FC6_NFS.cls, F28_Nvdimm.cls F28_NvdimmData.cls, F21_OSTreeSetup.cls, F29_Partition.cls F29_PartData.cls, F29_Raid.cls F29_RaidData.cls, F19_Realm.cls, F30_Repo.cls F30_RepoData.cls, F23_ReqPart.cls, F10_Rescue.cls, F18_RootPw.cls, FC3_SELinux.cls, FC6_Services.cls, FC3_SkipX.cls, F26_Snapshot.cls F26_SnapshotData.cls, F24_SshPw.cls F24_SshPwData.cls, F22_SshKey.cls F22_SshKeyData.cls, F25_Timezone.cls, F7_Updates.cls, F30_Url.cls, F24_User.cls F19_UserData.cls, F9_Vnc.cls, F21_VolGroup.cls F21_VolGroupData.cls, F14_XConfig.cls, F9_ZeroMbr.cls, F14_ZFCP.cls F14_ZFCPData.cls]

theorem commandMapF31_mapOk : MapOk Version.F31 commandMapF31 where
  dict := nodup_codes (by decide +kernel)
  classes := ⟨classesF31, [c!"F28_Authconfig", c!"F28_Authselect", c!"F29_AutoPart", c!"FC3_AutoStep", c!"F29_Bootloader", c!"F23_BTRFS", c!"FC3_Cdrom", c!"F28_ClearPart", c!"F26_DisplayMode", c!"F24_Device", c!"F29_DeviceProbe", c!"F24_DmRaid", c!"F14_DriverDisk", c!"F31_Module", c!"F20_Eula", c!"F28_Fcoe", c!"F28_Firewall", c!"FC3_Firstboot", c!"F12_Group", c!"F23_Reboot", c!"FC3_HardDrive", c!"F28_Hmc", c!"F29_IgnoreDisk", c!"F29_Install", c!"F17_Iscsi", c!"FC6_IscsiName", c!"F18_Keyboard", c!"F19_Lang", c!"F19_Liveimg", c!"FC6_Logging", c!"F29_LogVol", c!"FC4_MediaCheck", c!"F28_Method", c!"F27_Mount", c!"F24_MultiPath", c!"F27_Network", c!"FC6_NFS", c!"F28_Nvdimm", c!"F21_OSTreeSetup", c!"F29_Partition", c!"F29_Raid", c!"F19_Realm", c!"F30_Repo", c!"F23_ReqPart", c!"F10_Rescue", c!"F18_RootPw", c!"FC3_SELinux", c!"FC6_Services", c!"FC3_SkipX", c!"F26_Snapshot", c!"F24_SshPw", c!"F22_SshKey", c!"F25_Timezone", c!"F7_Updates", c!"F30_Url", c!"F24_User", c!"F9_Vnc", c!"F21_VolGroup", c!"F14_XConfig", c!"F9_ZeroMbr", c!"F14_ZFCP"], [c!"authconfig", c!"authselect", c!"autopart", c!"autostep", c!"bootloader", c!"btrfs", c!"cdrom", c!"clearpart", c!"displaymode", c!"device", c!"deviceprobe", c!"dmraid", c!"driverdisk", c!"module", c!"eula", c!"fcoe", c!"firewall", c!"firstboot", c!"group", c!"reboot", c!"harddrive", c!"hmc", c!"ignoredisk", c!"install", c!"iscsi", c!"iscsiname", c!"keyboard", c!"lang", c!"liveimg", c!"logging", c!"logvol", c!"mediacheck", c!"method", c!"mount", c!"multipath", c!"network", c!"nfs", c!"nvdimm", c!"ostreesetup", c!"partition", c!"raid", c!"realm", c!"repo", c!"reqpart", c!"rescue", c!"rootpw", c!"selinux", c!"services", c!"skipx", c!"snapshot", c!"sshpw", c!"sshkey", c!"timezone", c!"updates", c!"url", c!"user", c!"vnc", c!"volgroup", c!"xconfig", c!"zerombr", c!"zfcp"], rfl, by decide +kernel, nodup_codes (by decide +kernel), nodup_codes (by decide +kernel), by
    unfold commandMapF31
    exact (forall_mem_cons' (mem_at 0 rfl) (forall_mem_cons' (mem_at 0 rfl) (forall_mem_cons' (mem_at 1 rfl) (forall_mem_cons' (mem_at 2 rfl) (forall_mem_cons' (mem_at 3 rfl) (forall_mem_cons' (mem_at 4 rfl) (forall_mem_cons' (mem_at 5 rfl) (forall_mem_cons' (mem_at 6 rfl) (forall_mem_cons' (mem_at 7 rfl) (forall_mem_cons' (mem_at 8 rfl) (forall_mem_cons' (mem_at 9 rfl) (forall_mem_cons' (mem_at 10 rfl) (forall_mem_cons' (mem_at 11 rfl) (forall_mem_cons' (mem_at 12 rfl) (forall_mem_cons' (mem_at 13 rfl) (forall_mem_cons' (mem_at 14 rfl) (forall_mem_cons' (mem_at 15 rfl) (forall_mem_cons' (mem_at 16 rfl) (forall_mem_cons' (mem_at 17 rfl) (forall_mem_cons' (mem_at 8 rfl) (forall_mem_cons' (mem_at 18 rfl) (forall_mem_cons' (mem_at 19 rfl) (forall_mem_cons' (mem_at 20 rfl) (forall_mem_cons' (mem_at 21 rfl) (forall_mem_cons' (mem_at 22 rfl) (forall_mem_cons' (mem_at 23 rfl) (forall_mem_cons' (mem_at 24 rfl) (forall_mem_cons' (mem_at 25 rfl) (forall_mem_cons' (mem_at 26 rfl) (forall_mem_cons' (mem_at 27 rfl) (forall_mem_cons' (mem_at 28 rfl) (forall_mem_cons' (mem_at 29 rfl) (forall_mem_cons' (mem_at 30 rfl) (forall_mem_cons' (mem_at 31 rfl) (forall_mem_cons' (mem_at 32 rfl) (forall_mem_cons' (mem_at 33 rfl) (forall_mem_cons' (mem_at 34 rfl) (forall_mem_cons' (mem_at 35 rfl) (forall_mem_cons' (mem_at 36 rfl) (forall_mem_cons' (mem_at 37 rfl) (forall_mem_cons' (mem_at 38 rfl) (forall_mem_cons' (mem_at 39 rfl) (forall_mem_cons' (mem_at 39 rfl) (forall_mem_cons' (mem_at 19 rfl) (forall_mem_cons' (mem_at 40 rfl) (forall_mem_cons' (mem_at 41 rfl) (forall_mem_cons' (mem_at 19 rfl) (forall_mem_cons' (mem_at 42 rfl) (forall_mem_cons' (mem_at 43 rfl) (forall_mem_cons' (mem_at 44 rfl) (forall_mem_cons' (mem_at 45 rfl) (forall_mem_cons' (mem_at 46 rfl) (forall_mem_cons' (mem_at 47 rfl) (forall_mem_cons' (mem_at 19 rfl) (forall_mem_cons' (mem_at 48 rfl) (forall_mem_cons' (mem_at 49 rfl) (forall_mem_cons' (mem_at 50 rfl) (forall_mem_cons' (mem_at 51 rfl) (forall_mem_cons' (mem_at 8 rfl) (forall_mem_cons' (mem_at 52 rfl) (forall_mem_cons' (mem_at 53 rfl) (forall_mem_cons' (mem_at 54 rfl) (forall_mem_cons' (mem_at 55 rfl) (forall_mem_cons' (mem_at 56 rfl) (forall_mem_cons' (mem_at 57 rfl) (forall_mem_cons' (mem_at 58 rfl) (forall_mem_cons' (mem_at 59 rfl) (forall_mem_cons' (mem_at 60 rfl) (List.forall_mem_nil _)))))))))))))))))))))))))))))))))))))))))))))))))))))))))))))))))))))⟩
  storage := by decide +kernel
  ok := commandMapF31_ok

theorem commandMapF32_ok : ∀ x ∈ commandMapF32, ∃ I, x.2.Ok I (Allowed Version.F32 x.1) := by
  unfold commandMapF32
  simp only [List.forall_mem_cons]
  exact ⟨⟨_, allow_parse ok_F28_Authconfig⟩,
    ⟨_, allow_parse ok_F28_Authconfig⟩,
    ⟨_, allow_parse ok_F28_Authselect⟩,
    ⟨_, allow_parse ok_F29_AutoPart⟩,
    ⟨_, allow_parse ok_FC3_AutoStep⟩,
    ⟨_, allow_parse ok_F29_Bootloader⟩,
    ⟨_, allow_parse ok_F23_BTRFS_F23_BTRFSData⟩,
    ⟨_, allow_parse ok_FC3_Cdrom⟩,
    ⟨_, allow_parse ok_F28_ClearPart⟩,
    ⟨_, allow_parse ok_F26_DisplayMode⟩,
    ⟨_, allow_parse ok_F24_Device⟩,
    ⟨_, allow_parse ok_F29_DeviceProbe⟩,
    ⟨_, allow_parse ok_F24_DmRaid⟩,
    ⟨_, allow_parse ok_F14_DriverDisk_F14_DriverDiskData⟩,
    ⟨_, allow_parse ok_F31_Module_F31_ModuleData⟩,
    ⟨_, allow_parse ok_F20_Eula⟩,
    ⟨_, allow_parse ok_F28_Fcoe_F28_FcoeData⟩,
    ⟨_, allow_parse ok_F28_Firewall⟩,
    ⟨_, allow_parse ok_FC3_Firstboot⟩,
    ⟨_, allow_parse ok_F26_DisplayMode⟩,
    ⟨_, allow_parse ok_F12_Group_F12_GroupData⟩,
    ⟨_, allow_parse ok_F23_Reboot⟩,
    ⟨_, allow_parse ok_FC3_HardDrive⟩,
    ⟨_, allow_parse ok_F28_Hmc⟩,
    ⟨_, allow_parse ok_F29_IgnoreDisk⟩,
    ⟨_, allow_parse ok_F29_Install⟩,
    ⟨_, allow_parse ok_F17_Iscsi_F17_IscsiData⟩,
    ⟨_, allow_parse ok_FC6_IscsiName⟩,
    ⟨_, allow_parse ok_F18_Keyboard⟩,
    ⟨_, allow_parse ok_F19_Lang⟩,
    ⟨_, allow_parse ok_F19_Liveimg⟩,
    ⟨_, allow_parse ok_FC6_Logging⟩,
    ⟨_, allow_parse ok_F29_LogVol_F29_LogVolData⟩,
    ⟨_, allow_parse ok_FC4_MediaCheck⟩,
    ⟨_, allow_method (by decide) ok_F28_Method⟩,
    ⟨_, allow_mount ok_F27_Mount_F27_MountData⟩,
    ⟨_, allow_parse ok_F24_MultiPath⟩,
    ⟨_, allow_parse ok_F27_Network_F27_NetworkData⟩,
    ⟨_, allow_parse ok_FC6_NFS⟩,
    ⟨_, allow_nvdimm ok_F28_Nvdimm_F28_NvdimmData⟩,
    ⟨_, allow_parse ok_F21_OSTreeSetup⟩,
    ⟨_, allow_parse ok_F29_Partition_F29_PartData⟩,
    ⟨_, allow_parse ok_F29_Partition_F29_PartData⟩,
    ⟨_, allow_parse ok_F23_Reboot⟩,
    ⟨_, allow_parse ok_F29_Raid_F29_RaidData⟩,
    ⟨_, allow_realm ok_F19_Realm⟩,
    ⟨_, allow_parse ok_F23_Reboot⟩,
    ⟨_, allow_parse ok_F30_Repo_F30_RepoData⟩,
    ⟨_, allow_parse ok_F23_ReqPart⟩,
    ⟨_, allow_parse ok_F10_Rescue⟩,
    ⟨_, allow_parse ok_F18_RootPw⟩,
    ⟨_, allow_parse ok_FC3_SELinux⟩,
    ⟨_, allow_parse ok_FC6_Services⟩,
    ⟨_, allow_parse ok_F23_Reboot⟩,
    ⟨_, allow_parse ok_FC3_SkipX⟩,
    ⟨_, allow_parse ok_F26_Snapshot_F26_SnapshotData⟩,
    ⟨_, allow_parse ok_F24_SshPw_F24_SshPwData⟩,
    ⟨_, allow_parse ok_F22_SshKey_F22_SshKeyData⟩,
    ⟨_, allow_parse ok_F26_DisplayMode⟩,
    ⟨_, allow_parse ok_F32_Timezone⟩,
    ⟨_, allow_parse ok_F7_Updates⟩,
    ⟨_, allow_parse ok_F30_Url⟩,
    ⟨_, allow_parse ok_F24_User_F19_UserData⟩,
    ⟨_, allow_parse ok_F9_Vnc⟩,
    ⟨_, allow_parse ok_F21_VolGroup_F21_VolGroupData⟩,
    ⟨_, allow_parse ok_F14_XConfig⟩,
    ⟨_, allow_parse ok_F9_ZeroMbr⟩,
    ⟨_, allow_parse ok_F14_ZFCP_F14_ZFCPData⟩,
    ⟨_, allow_parse ok_F32_Zipl⟩,
    List.forall_mem_nil _⟩

def classesF32 : List Command := [F28_Authconfig.cls, F28_Authselect.cls, F29_AutoPart.cls, FC3_AutoStep.cls, F29_Bootloader.cls, F23_BTRFS.cls F23_BTRFSData.cls, FC3_Cdrom.cls, F28_ClearPart.cls, F26_DisplayMode.cls, F24_Device.cls, F29_DeviceProbe.cls, F24_DmRaid.cls, F14_DriverDisk.cls F14_DriverDiskData.cls, F31_Module.cls F31_ModuleData.cls, F20_Eula.cls, F28_Fcoe.cls F28_FcoeData.cls, F28_Firewall.cls, FC3_Firstboot.cls, F12_Group.cls F12_GroupData.cls, F23_Reboot.cls, FC3_HardDrive.cls, F28_Hmc.cls, F29_IgnoreDisk.cls, F29_Install.cls, F17_Iscsi.cls F17_IscsiData.cls, FC6_IscsiName.cls, F18_Keyboard.cls, F19_Lang.cls, F19_Liveimg.cls, FC6_Logging.cls, F29_LogVol.cls F29_LogVolData.cls, FC4_MediaCheck.cls, F28_Method.cls, F27_Mount.cls F27_MountData.cls, F24_MultiPath.cls, F27_Network.cls F27_NetworkData.cls, FC6_NFS.cls, F28_Nvdimm.cls F28_NvdimmData.cls, F21_OSTreeSetup.cls, F29_Partition.cls F29_PartData.cls, F29_Raid.cls F29_RaidData.cls, F19_Realm.cls, F30_Repo.cls F30_RepoData.cls, F23_ReqPart.cls, F10_Rescue.cls, F18_RootPw.cls, FC3_SELinux.cls, FC6_Services.cls, FC3_SkipX.cls, F26_Snapshot.cls F26_SnapshotData.cls, F24_SshPw.cls F24_SshPwData.cls, F22_SshKey.cls F22_SshKeyData.cls, F32_Timezone.cls, F7_Updates.cls, F30_Url.cls, F24_User.cls F19_UserData.cls, F9_Vnc.cls, F21_VolGroup.cls F21_VolGroupData.cls, F14_XConfig.cls, F9_ZeroMbr.cls, F14_ZFCP.cls F14_ZFCPData.cls, F32_Zipl.cls]

theorem commandMapF32_mapOk : MapOk Version.F32 commandMapF32 where
  dict := nodup_codes (by decide +kernel)
  classes := ⟨classesF32, [c!"F28_Authconfig", c!"F28_Authselect", c!"F29_AutoPart", c!"FC3_AutoStep", c!"F29_Bootloader", c!"F23_BTRFS", c!"FC3_Cdrom", c!"F28_ClearPart", c!"F26_DisplayMode", c!"F24_Device", c!"F29_DeviceProbe", c!"F24_DmRaid", c!"F14_DriverDisk", c!"F31_Module", c!"F20_Eula", c!"F28_Fcoe", c!"F28_Firewall", c!"FC3_Firstboot", c!"F12_Group", c!"F23_Reboot", c!"FC3_HardDrive", c!"F28_Hmc", c!"F29_IgnoreDisk", c!"F29_Install", c!"F17_Iscsi", c!"FC6_IscsiName", c!"F18_Keyboard", c!"F19_Lang", c!"F19_Liveimg", c!"FC6_Logging", c!"F29_LogVol", c!"FC4_MediaCheck", c!"F28_Method", c!"F27_Mount", c!"F24_MultiPath", c!"F27_Network", c!"FC6_NFS", c!"F28_Nvdimm", c!"F21_OSTreeSetup", c!"F29_Partition", c!"F29_Raid", c!"F19_Realm", c!"F30_Repo", c!"F23_ReqPart", c!"F10_Rescue", c!"F18_RootPw", c!"FC3_SELinux", c!"FC6_Services", c!"FC3_SkipX", c!"F26_Snapshot", c!"F24_SshPw", c!"F22_SshKey", c!"F32_Timezone", c!"F7_Updates", c!"F30_Url", c!"F24_User", c!"F9_Vnc", c!"F21_VolGroup", c!"F14_XConfig", c!"F9_ZeroMbr", c!"F14_ZFCP", c!"F32_Zipl"], [c!"authconfig", c!"authselect", c!"autopart", c!"autostep", c!"bootloader", c!"btrfs", c!"cdrom", c!"clearpart", c!"displaymode", c!"device", c!"deviceprobe", c!"dmraid", c!"driverdisk", c!"module", c!"eula", c!"fcoe", c!"firewall", c!"firstboot", c!"group", c!"reboot", c!"harddrive", c!"hmc", c!"ignoredisk", c!"install", c!"iscsi", c!"iscsiname", c!"keyboard", c!"lang", c!"liveimg", c!"logging", c!"logvol", c!"mediacheck", c!"method", c!"mount", c!"multipath", c!"network", c!"nfs", c!"nvdimm", c!"ostreesetup", c!"partition", c!"raid", c!"realm", c!"repo", c!"reqpart", c!"rescue", c!"rootpw", c!"selinux", c!"services", c!"skipx", c!"snapshot", c!"sshpw", c!"sshkey", c!"timezone", c!"updates", c!"url", c!"user", c!"vnc", c!"volgroup", c!"xconfig", c!"zerombr", c!"zfcp", c!"zipl"], rfl, by decide +kernel, nodup_codes (by decide +kernel), nodup_codes (by decide +kernel), by
    unfold commandMapF32
    exact (forall_mem_cons' (mem_at 0 rfl) (forall_mem_cons' (mem_at 0 rfl) (forall_mem_cons' (mem_at 1 rfl) (forall_mem_cons' (mem_at 2 rfl) (forall_mem_cons' (mem_at 3 rfl) (forall_mem_cons' (mem_at 4 rfl) (forall_mem_cons' (mem_at 5 rfl) (forall_mem_cons' (mem_at 6 rfl) (forall_mem_cons' (mem_at 7 rfl) (forall_mem_cons' (mem_at 8 rfl) (forall_mem_cons' (mem_at 9 rfl) (forall_mem_cons' (mem_at 10 rfl) (forall_mem_cons' (mem_at 11 rfl) (forall_mem_cons' (mem_at 12 rfl) (forall_mem_cons' (mem_at 13 rfl) (forall_mem_cons' (mem_at 14 rfl) (forall_mem_cons' (mem_at 15 rfl) (forall_mem_cons' (mem_at 16 rfl) (forall_mem_cons' (mem_at 17 rfl) (forall_mem_cons' (mem_at 8 rfl) (forall_mem_cons' (mem_at 18 rfl) (forall_mem_cons' (mem_at 19 rfl) (forall_mem_cons' (mem_at 20 rfl) (forall_mem_cons' (mem_at 21 rfl) (forall_mem_cons' (mem_at 22 rfl) (forall_mem_cons' (mem_at 23 rfl) (forall_mem_cons' (mem_at 24 rfl) (forall_mem_cons' (mem_at 25 rfl) (forall_mem_cons' (mem_at 26 rfl) (forall_mem_cons' (mem_at 27 rfl) (forall_mem_cons' (mem_at 28 rfl) (forall_mem_cons' (mem_at 29 rfl) (forall_mem_cons' (mem_at 30 rfl) (forall_mem_cons' (mem_at 31 rfl) (forall_mem_cons' (mem_at 32 rfl) (forall_mem_cons' (mem_at 33 rfl) (forall_mem_cons' (mem_at 34 rfl) (forall_mem_cons' (mem_at 35 rfl) (forall_mem_cons' (mem_at 36 rfl) (forall_mem_cons' (mem_at 37 rfl) (forall_mem_cons' (mem_at 38 rfl) (forall_mem_cons' (mem_at 39 rfl) (forall_mem_cons' (mem_at 39 rfl) (forall_mem_cons' (mem_at 19 rfl) (forall_mem_cons' (mem_at 40 rfl) (forall_mem_cons' (mem_at 41 rfl) (forall_mem_cons' (mem_at 19 rfl) (forall_mem_cons' (mem_at 42 rfl) (forall_mem_cons' (mem_at 43 rfl) (forall_mem_cons' (mem_at 44 rfl) (forall_mem_cons' (mem_at 45 rfl) (forall_mem_cons' (mem_at 46 rfl) (forall_mem_cons' (mem_at 47 rfl) (forall_mem_cons' (mem_at 19 rfl) (forall_mem_cons' (mem_at 48 rfl) (forall_mem_cons' (mem_at 49 rfl) (forall_mem_cons' (mem_at 50 rfl) (forall_mem_cons' (mem_at 51 rfl) (forall_mem_cons' (mem_at 8 rfl) (forall_mem_cons' (mem_at 52 rfl) (forall_mem_cons' (mem_at 53 rfl) (forall_mem_cons' (mem_at 54 rfl) (forall_mem_cons' (mem_at 55 rfl) (forall_mem_cons' (mem_at 56 rfl) (forall_mem_cons' (mem_at 57 rfl) (forall_mem_cons' (mem_at 58 rfl) (forall_mem_cons' (mem_at 59 rfl) (forall_mem_cons' (mem_at 60 rfl) (forall_mem_cons' (mem_at 61 rfl) (List.forall_mem_nil _))))))))))))))))))))))))))))))))))))))))))))))))))))))))))))))))))))))⟩
  storage := by decide +kernel
  ok := commandMapF32_ok

theorem commandMapF33_ok : ∀ x ∈ commandMapF33, ∃ I, x.2.Ok I (Allowed Version.F33 x.1) := by
  unfold commandMapF33
  simp only [List.forall_mem_cons]
  exact ⟨⟨_, allow_parse ok_F28_Authconfig⟩,
    ⟨_, allow_parse ok_F28_Authconfig⟩,
    ⟨_, allow_parse ok_F28_Authselect⟩,
    ⟨_, allow_parse ok_F29_AutoPart⟩,
    ⟨_, allow_parse ok_FC3_AutoStep⟩,
    ⟨_, allow_parse ok_F29_Bootloader⟩,
    ⟨_, allow_parse ok_F23_BTRFS_F23_BTRFSData⟩,
    ⟨_, allow_parse ok_FC3_Cdrom⟩,
    ⟨_, allow_parse ok_F28_ClearPart⟩,
    ⟨_, allow_parse ok_F26_DisplayMode⟩,
    ⟨_, allow_parse ok_F24_Device⟩,
    ⟨_, allow_parse ok_F29_DeviceProbe⟩,
    ⟨_, allow_parse ok_F24_DmRaid⟩,
    ⟨_, allow_parse ok_F14_DriverDisk_F14_DriverDiskData⟩,
    ⟨_, allow_parse ok_F31_Module_F31_ModuleData⟩,
    ⟨_, allow_parse ok_F20_Eula⟩,
    ⟨_, allow_parse ok_F28_Fcoe_F28_FcoeData⟩,
    ⟨_, allow_parse ok_F28_Firewall⟩,
    ⟨_, allow_parse ok_FC3_Firstboot⟩,
    ⟨_, allow_parse ok_F26_DisplayMode⟩,
    ⟨_, allow_parse ok_F12_Group_F12_GroupData⟩,
    ⟨_, allow_parse ok_F23_Reboot⟩,
    ⟨_, allow_parse ok_F33_HardDrive⟩,
    ⟨_, allow_parse ok_F28_Hmc⟩,
    ⟨_, allow_parse ok_F29_IgnoreDisk⟩,
    ⟨_, allow_parse ok_F29_Install⟩,
    ⟨_, allow_parse ok_F17_Iscsi_F17_IscsiData⟩,
    ⟨_, allow_parse ok_FC6_IscsiName⟩,
    ⟨_, allow_parse ok_F18_Keyboard⟩,
    ⟨_, allow_parse ok_F19_Lang⟩,
    ⟨_, allow_parse ok_F19_Liveimg⟩,
    ⟨_, allow_parse ok_FC6_Logging⟩,
    ⟨_, allow_parse ok_F29_LogVol_F29_LogVolData⟩,
    ⟨_, allow_parse ok_FC4_MediaCheck⟩,
    ⟨_, allow_method (by decide) ok_F28_Method⟩,
    ⟨_, allow_mount ok_F27_Mount_F27_MountData⟩,
    ⟨_, allow_parse ok_F24_MultiPath⟩,
    ⟨_, allow_parse ok_F27_Network_F27_NetworkData⟩,
    ⟨_, allow_parse ok_FC6_NFS⟩,
    ⟨_, allow_nvdimm ok_F28_Nvdimm_F28_NvdimmData⟩,
    ⟨_, allow_parse ok_F33_Timesource_F33_TimesourceData⟩,
    ⟨_, allow_parse ok_F21_OSTreeSetup⟩,
    ⟨_, allow_parse ok_F29_Partition_F29_PartData⟩,
    ⟨_, allow_parse ok_F29_Partition_F29_PartData⟩,
    ⟨_, allow_parse ok_F23_Reboot⟩,
    ⟨_, allow_parse ok_F29_Raid_F29_RaidData⟩,
    ⟨_, allow_realm ok_F19_Realm⟩,
    ⟨_, allow_parse ok_F23_Reboot⟩,
    ⟨_, allow_parse ok_F33_Repo_F30_RepoData⟩,
    ⟨_, allow_parse ok_F23_ReqPart⟩,
    ⟨_, allow_parse ok_F10_Rescue⟩,
    ⟨_, allow_parse ok_F18_RootPw⟩,
    ⟨_, allow_parse ok_FC3_SELinux⟩,
    ⟨_, allow_parse ok_FC6_Services⟩,
    ⟨_, allow_parse ok_F23_Reboot⟩,
    ⟨_, allow_parse ok_FC3_SkipX⟩,
    ⟨_, allow_parse ok_F26_Snapshot_F26_SnapshotData⟩,
    ⟨_, allow_parse ok_F24_SshPw_F24_SshPwData⟩,
    ⟨_, allow_parse ok_F22_SshKey_F22_SshKeyData⟩,
    ⟨_, allow_parse ok_F26_DisplayMode⟩,
    ⟨_, allow_parse ok_F33_Timezone⟩,
    ⟨_, allow_parse ok_F7_Updates⟩,
    ⟨_, allow_parse ok_F30_Url⟩,
    ⟨_, allow_parse ok_F24_User_F19_UserData⟩,
    ⟨_, allow_parse ok_F9_Vnc⟩,
    ⟨_, allow_parse ok_F21_VolGroup_F21_VolGroupData⟩,
    ⟨_, allow_parse ok_F14_XConfig⟩,
    ⟨_, allow_parse ok_F9_ZeroMbr⟩,
    ⟨_, allow_parse ok_F14_ZFCP_F14_ZFCPData⟩,
    ⟨_, allow_parse ok_F32_Zipl⟩,
    List.forall_mem_nil _⟩

def classesF33 : List Command := [F28_Authconfig.cls, F28_Authselect.cls, F29_AutoPart.cls, FC3_AutoStep.cls, F29_Bootloader.cls, F23_BTRFS.cls F23_BTRFSData.cls, FC3_Cdrom.cls, F28_ClearPart.cls, F26_DisplayMode.cls, F24_Device.cls, F29_DeviceProbe.cls, F24_DmRaid.cls, F14_DriverDisk.cls F14_DriverDiskData.cls, F31_Module.cls F31_ModuleData.cls, F20_Eula.cls, F28_Fcoe.cls F28_FcoeData.cls, F28_Firewall.cls, FC3_Firstboot.cls, F12_Group.cls F12_GroupData.cls, F23_Reboot.cls, F33_HardDrive.cls, F28_Hmc.cls, F29_IgnoreDisk.cls, F29_Install.cls, F17_Iscsi.cls F17_IscsiData.cls, FC6_IscsiName.cls, F18_Keyboard.cls, F19_Lang.cls, F19_Liveimg.cls, FC6_Logging.cls, F29_LogVol.cls F29_LogVolData.cls, FC4_MediaCheck.cls, F28_Method.cls, F27_Mount.cls F27_MountData.cls, F24_MultiPath.cls, F27_Network.cls F27_NetworkData.cls, FC6_NFS.cls, F28_Nvdimm.cls F28_NvdimmData.cls, F33_Timesource.cls F33_TimesourceData.cls, F21_OSTreeSetup.cls, F29_Partition.cls F29_PartData.cls, F29_Raid.cls F29_RaidData.cls, F19_Realm.cls, F33_Repo.cls F30_RepoData.cls, F23_ReqPart.cls, F10_Rescue.cls, F18_RootPw.cls, FC3_SELinux.cls, FC6_Services.cls, FC3_SkipX.cls, F26_Snapshot.cls F26_SnapshotData.cls, F24_SshPw.cls F24_SshPwData.cls, F22_SshKey.cls F22_SshKeyData.cls, F33_Timezone.cls, F7_Updates.cls, F30_Url.cls, F24_User.cls F19_UserData.cls, F9_Vnc.cls, F21_VolGroup.cls F21_VolGroupData.cls, F14_XConfig.cls, F9_ZeroMbr.cls, F14_ZFCP.cls F14_ZFCPData.cls, F32_Zipl.cls]

theorem commandMapF33_mapOk : MapOk Version.F33 commandMapF33 where
  dict := nodup_codes (by decide +kernel)
  classes := ⟨classesF33, [c!"F28_Authconfig", c!"F28_Authselect", c!"F29_AutoPart", c!"FC3_AutoStep", c!"F29_Bootloader", c!"F23_BTRFS", c!"FC3_Cdrom", c!"F28_ClearPart", c!"F26_DisplayMode", c!"F24_Device", c!"F29_DeviceProbe", c!"F24_DmRaid", c!"F14_DriverDisk", c!"F31_Module", c!"F20_Eula", c!"F28_Fcoe", c!"F28_Firewall", c!"FC3_Firstboot", c!"F12_Group", c!"F23_Reboot", c!"F33_HardDrive", c!"F28_Hmc", c!"F29_IgnoreDisk", c!"F29_Install", c!"F17_Iscsi", c!"FC6_IscsiName", c!"F18_Keyboard", c!"F19_Lang", c!"F19_Liveimg", c!"FC6_Logging", c!"F29_LogVol", c!"FC4_MediaCheck", c!"F28_Method", c!"F27_Mount", c!"F24_MultiPath", c!"F27_Network", c!"FC6_NFS", c!"F28_Nvdimm", c!"F33_Timesource", c!"F21_OSTreeSetup", c!"F29_Partition", c!"F29_Raid", c!"F19_Realm", c!"F33_Repo", c!"F23_ReqPart", c!"F10_Rescue", c!"F18_RootPw", c!"FC3_SELinux", c!"FC6_Services", c!"FC3_SkipX", c!"F26_Snapshot", c!"F24_SshPw", c!"F22_SshKey", c!"F33_Timezone", c!"F7_Updates", c!"F30_Url", c!"F24_User", c!"F9_Vnc", c!"F21_VolGroup", c!"F14_XConfig", c!"F9_ZeroMbr", c!"F14_ZFCP", c!"F32_Zipl"], [c!"authconfig", c!"authselect", c!"autopart", c!"autostep", c!"bootloader", c!"btrfs", c!"cdrom", c!"clearpart", c!"displaymode", c!"device", c!"deviceprobe", c!"dmraid", c!"driverdisk", c!"module", c!"eula", c!"fcoe", c!"firewall", c!"firstboot", c!"group", c!"reboot", c!"harddrive", c!"hmc", c!"ignoredisk", c!"install", c!"iscsi", c!"iscsiname", c!"keyboard", c!"lang", c!"liveimg", c!"logging", c!"logvol", c!"mediacheck", c!"method", c!"mount", c!"multipath", c!"network", c!"nfs", c!"nvdimm", c!"timesource", c!"ostreesetup", c!"partition", c!"raid", c!"realm", c!"repo", c!"reqpart", c!"rescue", c!"rootpw", c!"selinux", c!"services", c!"skipx", c!"snapshot", c!"sshpw", c!"sshkey", c!"timezone", c!"updates", c!"url", c!"user", c!"vnc", c!"volgroup", c!"xconfig", c!"zerombr", c!"zfcp", c!"zipl"], rfl, by decide +kernel, nodup_codes (by decide +kernel), nodup_codes (by decide +kernel), by
    unfold commandMapF33
    exact (forall_mem_cons' (mem_at 0 rfl) (forall_mem_cons' (mem_at 0 rfl) (forall_mem_cons' (mem_at 1 rfl) (forall_mem_cons' (mem_at 2 rfl) (forall_mem_cons' (mem_at 3 rfl) (forall_mem_cons' (mem_at 4 rfl) (forall_mem_cons' (mem_at 5 rfl) (forall_mem_cons' (mem_at 6 rfl) (forall_mem_cons' (mem_at 7 rfl) (forall_mem_cons' (mem_at 8 rfl) (forall_mem_cons' (mem_at 9 rfl) (forall_mem_cons' (mem_at 10 rfl) (forall_mem_cons' (mem_at 11 rfl) (forall_mem_cons' (mem_at 12 rfl) (forall_mem_cons' (mem_at 13 rfl) (forall_mem_cons' (mem_at 14 rfl) (forall_mem_cons' (mem_at 15 rfl) (forall_mem_cons' (mem_at 16 rfl) (forall_mem_cons' (mem_at 17 rfl) (forall_mem_cons' (mem_at 8 rfl) (forall_mem_cons' (mem_at 18 rfl) (forall_mem_cons' (mem_at 19 rfl) (forall_mem_cons' (mem_at 20 rfl) (forall_mem_cons' (mem_at 21 rfl) (forall_mem_cons' (mem_at 22 rfl) (forall_mem_cons' (mem_at 23 rfl) (forall_mem_cons' (mem_at 24 rfl) (forall_mem_cons' (mem_at 25 rfl) (forall_mem_cons' (mem_at 26 rfl) (forall_mem_cons' (mem_at 27 rfl) (forall_mem_cons' (mem_at 28 rfl) (forall_mem_cons' (mem_at 29 rfl) (forall_mem_cons' (mem_at 30 rfl) (forall_mem_cons' (mem_at 31 rfl) (forall_mem_cons' (mem_at 32 rfl) (forall_mem_cons' (mem_at 33 rfl) (forall_mem_cons' (mem_at 34 rfl) (forall_mem_cons' (mem_at 35 rfl) (forall_mem_cons' (mem_at 36 rfl) (forall_mem_cons' (mem_at 37 rfl) (forall_mem_cons' (mem_at 38 rfl) (forall_mem_cons' (mem_at 39 rfl) (forall_mem_cons' (mem_at 40 rfl) (forall_mem_cons' (mem_at 40 rfl) (forall_mem_cons' (mem_at 19 rfl) (forall_mem_cons' (mem_at 41 rfl) (forall_mem_cons' (mem_at 42 rfl) (forall_mem_cons' (mem_at 19 rfl) (forall_mem_cons' (mem_at 43 rfl) (forall_mem_cons' (mem_at 44 rfl) (forall_mem_cons' (mem_at 45 rfl) (forall_mem_cons' (mem_at 46 rfl) (forall_mem_cons' (mem_at 47 rfl) (forall_mem_cons' (mem_at 48 rfl) (forall_mem_cons' (mem_at 19 rfl) (forall_mem_cons' (mem_at 49 rfl) (forall_mem_cons' (mem_at 50 rfl) (forall_mem_cons' (mem_at 51 rfl) (forall_mem_cons' (mem_at 52 rfl) (forall_mem_cons' (mem_at 8 rfl) (forall_mem_cons' (mem_at 53 rfl) (forall_mem_cons' (mem_at 54 rfl) (forall_mem_cons' (mem_at 55 rfl) (forall_mem_cons' (mem_at 56 rfl) (forall_mem_cons' (mem_at 57 rfl) (forall_mem_cons' (mem_at 58 rfl) (forall_mem_cons' (mem_at 59 rfl) (forall_mem_cons' (mem_at 60 rfl) (forall_mem_cons' (mem_at 61 rfl) (forall_mem_cons' (mem_at 62 rfl) (List.forall_mem_nil _)))))))))))))))))))))))))))))))))))))))))))))))))))))))))))))))))))))))⟩
  storage := by decide +kernel
  ok := commandMapF33_ok

theorem commandMapF34_ok : ∀ x ∈ commandMapF34, ∃ I, x.2.Ok I (Allowed Version.F34 x.1) := by
  unfold commandMapF34
  simp only [List.forall_mem_cons]
  exact ⟨⟨_, allow_parse ok_F28_Authconfig⟩,
    ⟨_, allow_parse ok_F28_Authconfig⟩,
    ⟨_, allow_parse ok_F28_Authselect⟩,
    ⟨_, allow_parse ok_F29_AutoPart⟩,
    ⟨_, allow_parse ok_F34_AutoStep⟩,
    ⟨_, allow_parse ok_F34_Bootloader⟩,
    ⟨_, allow_parse ok_F23_BTRFS_F23_BTRFSData⟩,
    ⟨_, allow_parse ok_FC3_Cdrom⟩,
    ⟨_, allow_parse ok_F28_ClearPart⟩,
    ⟨_, allow_parse ok_F26_DisplayMode⟩,
    ⟨_, allow_parse ok_F34_Device⟩,
    ⟨_, allow_parse ok_F34_DeviceProbe⟩,
    ⟨_, allow_parse ok_F34_DmRaid⟩,
    ⟨_, allow_parse ok_F14_DriverDisk_F14_DriverDiskData⟩,
    ⟨_, allow_parse ok_F31_Module_F31_ModuleData⟩,
    ⟨_, allow_parse ok_F20_Eula⟩,
    ⟨_, allow_parse ok_F28_Fcoe_F28_FcoeData⟩,
    ⟨_, allow_parse ok_F28_Firewall⟩,
    ⟨_, allow_parse ok_FC3_Firstboot⟩,
    ⟨_, allow_parse ok_F26_DisplayMode⟩,
    ⟨_, allow_parse ok_F12_Group_F12_GroupData⟩,
    ⟨_, allow_parse ok_F23_Reboot⟩,
    ⟨_, allow_parse ok_F33_HardDrive⟩,
    ⟨_, allow_parse ok_F28_Hmc⟩,
    ⟨_, allow_parse ok_F34_IgnoreDisk⟩,
    ⟨_, allow_parse ok_F34_Install⟩,
    ⟨_, allow_parse ok_F17_Iscsi_F17_IscsiData⟩,
    ⟨_, allow_parse ok_FC6_IscsiName⟩,
    ⟨_, allow_parse ok_F18_Keyboard⟩,
    ⟨_, allow_parse ok_F19_Lang⟩,
    ⟨_, allow_parse ok_F19_Liveimg⟩,
    ⟨_, allow_parse ok_F34_Logging⟩,
    ⟨_, allow_parse ok_F29_LogVol_F29_LogVolData⟩,
    ⟨_, allow_parse ok_FC4_MediaCheck⟩,
    ⟨_, allow_parse ok_F34_Method⟩,
    ⟨_, allow_mount ok_F27_Mount_F27_MountData⟩,
    ⟨_, allow_parse ok_F34_MultiPath⟩,
    ⟨_, allow_parse ok_F27_Network_F27_NetworkData⟩,
    ⟨_, allow_parse ok_FC6_NFS⟩,
    ⟨_, allow_nvdimm ok_F28_Nvdimm_F28_NvdimmData⟩,
    ⟨_, allow_parse ok_F33_Timesource_F33_TimesourceData⟩,
    ⟨_, allow_parse ok_F21_OSTreeSetup⟩,
    ⟨_, allow_parse ok_F34_Partition_F29_PartData⟩,
    ⟨_, allow_parse ok_F34_Partition_F29_PartData⟩,
    ⟨_, allow_parse ok_F23_Reboot⟩,
    ⟨_, allow_parse ok_F29_Raid_F29_RaidData⟩,
    ⟨_, allow_realm ok_F19_Realm⟩,
    ⟨_, allow_parse ok_F23_Reboot⟩,
    ⟨_, allow_parse ok_F33_Repo_F30_RepoData⟩,
    ⟨_, allow_parse ok_F23_ReqPart⟩,
    ⟨_, allow_parse ok_F10_Rescue⟩,
    ⟨_, allow_parse ok_F18_RootPw⟩,
    ⟨_, allow_parse ok_FC3_SELinux⟩,
    ⟨_, allow_parse ok_FC6_Services⟩,
    ⟨_, allow_parse ok_F23_Reboot⟩,
    ⟨_, allow_parse ok_FC3_SkipX⟩,
    ⟨_, allow_parse ok_F26_Snapshot_F26_SnapshotData⟩,
    ⟨_, allow_parse ok_F24_SshPw_F24_SshPwData⟩,
    ⟨_, allow_parse ok_F22_SshKey_F22_SshKeyData⟩,
    ⟨_, allow_parse ok_F26_DisplayMode⟩,
    ⟨_, allow_parse ok_F33_Timezone⟩,
    ⟨_, allow_parse ok_F34_Updates⟩,
    ⟨_, allow_parse ok_F30_Url⟩,
    ⟨_, allow_parse ok_F24_User_F19_UserData⟩,
    ⟨_, allow_parse ok_F9_Vnc⟩,
    ⟨_, allow_parse ok_F21_VolGroup_F21_VolGroupData⟩,
    ⟨_, allow_parse ok_F14_XConfig⟩,
    ⟨_, allow_parse ok_F9_ZeroMbr⟩,
    ⟨_, allow_parse ok_F14_ZFCP_F14_ZFCPData⟩,
    ⟨_, allow_parse ok_F32_Zipl⟩,
    List.forall_mem_nil _⟩

def classesF34 : List Command := [F28_Authconfig.cls, F28_Authselect.cls, F29_AutoPart.cls, F34_AutoStep.cls, F34_Bootloader.cls, F23_BTRFS.cls F23_BTRFSData.cls, FC3_Cdrom.cls, F28_ClearPart.cls, F26_DisplayMode.cls, F34_Device.cls, F34_DeviceProbe.cls, F34_DmRaid.cls, F14_DriverDisk.cls F14_DriverDiskData.cls, F31_Module.cls F31_ModuleData.cls, F20_Eula.cls, F28_Fcoe.cls F28_FcoeData.cls, F28_Firewall.cls, FC3_Firstboot.cls, F12_Group.cls F12_GroupData.cls, F23_Reboot.cls, F33_HardDrive.cls, F28_Hmc.cls, F34_IgnoreDisk.cls, F34_Install.cls, F17_Iscsi.cls F17_IscsiData.cls, FC6_IscsiName.cls, F18_Keyboard.cls, F19_Lang.cls, F19_Liveimg.cls, F34_Logging.cls, F29_LogVol.cls F29_LogVolData.cls, FC4_MediaCheck.cls, F34_Method.cls, F27_Mount.cls F27_MountData.cls, F34_MultiPath.cls, F27_Network.cls F27_NetworkData.cls, FC6_NFS.cls, F28_Nvdimm.cls F28_NvdimmData.cls, F33_Timesource.cls F33_TimesourceData.cls, F21_OSTreeSetup.cls, F34_Partition.cls F29_PartData.cls, F29_Raid.cls F29_RaidData.cls, F19_Realm.cls, F33_Repo.cls F30_RepoData.cls, F23_ReqPart.cls, F10_Rescue.cls, F18_RootPw.cls, FC3_SELinux.cls, FC6_Services.cls, FC3_SkipX.cls, F26_Snapshot.cls F26_SnapshotData.cls, F24_SshPw.cls F24_SshPwData.cls, F22_SshKey.cls F22_SshKeyData.cls, F33_Timezone.cls, F34_Updates.cls, F30_Url.cls, F24_User.cls F19_UserData.cls, F9_Vnc.cls, F21_VolGroup.cls F21_VolGroupData.cls, F14_XConfig.cls, F9_ZeroMbr.cls, F14_ZFCP.cls F14_ZFCPData.cls, F32_Zipl.cls]

theorem commandMapF34_mapOk : MapOk Version.F34 commandMapF34 where
  dict := nodup_codes (by decide +kernel)
  classes := ⟨classesF34, [c!"F28_Authconfig", c!"F28_Authselect", c!"F29_AutoPart", c!"F34_AutoStep", c!"F34_Bootloader", c!"F23_BTRFS", c!"FC3_Cdrom", c!"F28_ClearPart", c!"F26_DisplayMode", c!"F34_Device", c!"F34_DeviceProbe", c!"F34_DmRaid", c!"F14_DriverDisk", c!"F31_Module", c!"F20_Eula", c!"F28_Fcoe", c!"F28_Firewall", c!"FC3_Firstboot", c!"F12_Group", c!"F23_Reboot", c!"F33_HardDrive", c!"F28_Hmc", c!"F34_IgnoreDisk", c!"F34_Install", c!"F17_Iscsi", c!"FC6_IscsiName", c!"F18_Keyboard", c!"F19_Lang", c!"F19_Liveimg", c!"F34_Logging", c!"F29_LogVol", c!"FC4_MediaCheck", c!"F34_Method", c!"F27_Mount", c!"F34_MultiPath", c!"F27_Network", c!"FC6_NFS", c!"F28_Nvdimm", c!"F33_Timesource", c!"F21_OSTreeSetup", c!"F34_Partition", c!"F29_Raid", c!"F19_Realm", c!"F33_Repo", c!"F23_ReqPart", c!"F10_Rescue", c!"F18_RootPw", c!"FC3_SELinux", c!"FC6_Services", c!"FC3_SkipX", c!"F26_Snapshot", c!"F24_SshPw", c!"F22_SshKey", c!"F33_Timezone", c!"F34_Updates", c!"F30_Url", c!"F24_User", c!"F9_Vnc", c!"F21_VolGroup", c!"F14_XConfig", c!"F9_ZeroMbr", c!"F14_ZFCP", c!"F32_Zipl"], [c!"authconfig", c!"authselect", c!"autopart", c!"autostep", c!"bootloader", c!"btrfs", c!"cdrom", c!"clearpart", c!"displaymode", c!"device", c!"deviceprobe", c!"dmraid", c!"driverdisk", c!"module", c!"eula", c!"fcoe", c!"firewall", c!"firstboot", c!"group", c!"reboot", c!"harddrive", c!"hmc", c!"ignoredisk", c!"install", c!"iscsi", c!"iscsiname", c!"keyboard", c!"lang", c!"liveimg", c!"logging", c!"logvol", c!"mediacheck", c!"method", c!"mount", c!"multipath", c!"network", c!"nfs", c!"nvdimm", c!"timesource", c!"ostreesetup", c!"partition", c!"raid", c!"realm", c!"repo", c!"reqpart", c!"rescue", c!"rootpw", c!"selinux", c!"services", c!"skipx", c!"snapshot", c!"sshpw", c!"sshkey", c!"timezone", c!"updates", c!"url", c!"user", c!"vnc", c!"volgroup", c!"xconfig", c!"zerombr", c!"zfcp", c!"zipl"], rfl, by decide +kernel, nodup_codes (by decide +kernel), nodup_codes (by decide +kernel), by
    unfold commandMapF34
    exact (forall_mem_cons' (mem_at 0 rfl) (forall_mem_cons' (mem_at 0 rfl) (forall_mem_cons' (mem_at 1 rfl) (forall_mem_cons' (mem_at 2 rfl) (forall_mem_cons' (mem_at 3 rfl) (forall_mem_cons' (mem_at 4 rfl) (forall_mem_cons' (mem_at 5 rfl) (forall_mem_cons' (mem_at 6 rfl) (forall_mem_cons' (mem_at 7 rfl) (forall_mem_cons' (mem_at 8 rfl) (forall_mem_cons' (mem_at 9 rfl) (forall_mem_cons' (mem_at 10 rfl) (forall_mem_cons' (mem_at 11 rfl) (forall_mem_cons' (mem_at 12 rfl) (forall_mem_cons' (mem_at 13 rfl) (forall_mem_cons' (mem_at 14 rfl) (forall_mem_cons' (mem_at 15 rfl) (forall_mem_cons' (mem_at 16 rfl) (forall_mem_cons' (mem_at 17 rfl) (forall_mem_cons' (mem_at 8 rfl) (forall_mem_cons' (mem_at 18 rfl) (forall_mem_cons' (mem_at 19 rfl) (forall_mem_cons' (mem_at 20 rfl) (forall_mem_cons' (mem_at 21 rfl) (forall_mem_cons' (mem_at 22 rfl) (forall_mem_cons' (mem_at 23 rfl) (forall_mem_cons' (mem_at 24 rfl) (forall_mem_cons' (mem_at 25 rfl) (forall_mem_cons' (mem_at 26 rfl) (forall_mem_cons' (mem_at 27 rfl) (forall_mem_cons' (mem_at 28 rfl) (forall_mem_cons' (mem_at 29 rfl) (forall_mem_cons' (mem_at 30 rfl) (forall_mem_cons' (mem_at 31 rfl) (forall_mem_cons' (mem_at 32 rfl) (forall_mem_cons' (mem_at 33 rfl) (forall_mem_cons' (mem_at 34 rfl) (forall_mem_cons' (mem_at 35 rfl) (forall_mem_cons' (mem_at 36 rfl) (forall_mem_cons' (mem_at 37 rfl) (forall_mem_cons' (mem_at 38 rfl) (forall_mem_cons' (mem_at 39 rfl) (forall_mem_cons' (mem_at 40 rfl) (forall_mem_cons' (mem_at 40 rfl) (forall_mem_cons' (mem_at 19 rfl) (forall_mem_cons' (mem_at 41 rfl) (forall_mem_cons' (mem_at 42 rfl) (forall_mem_cons' (mem_at 19 rfl) (forall_mem_cons' (mem_at 43 rfl) (forall_mem_cons' (mem_at 44 rfl) (forall_mem_cons' (mem_at 45 rfl) (forall_mem_cons' (mem_at 46 rfl) (forall_mem_cons' (mem_at 47 rfl) (forall_mem_cons' (mem_at 48 rfl) (forall_mem_cons' (mem_at 19 rfl) (forall_mem_cons' (mem_at 49 rfl) (forall_mem_cons' (mem_at 50 rfl) (forall_mem_cons' (mem_at 51 rfl) (forall_mem_cons' (mem_at 52 rfl) (forall_mem_cons' (mem_at 8 rfl) (forall_mem_cons' (mem_at 53 rfl) (forall_mem_cons' (mem_at 54 rfl) (forall_mem_cons' (mem_at 55 rfl) (forall_mem_cons' (mem_at 56 rfl) (forall_mem_cons' (mem_at 57 rfl) (forall_mem_cons' (mem_at 58 rfl) (forall_mem_cons' (mem_at 59 rfl) (forall_mem_cons' (mem_at 60 rfl) (forall_mem_cons' (mem_at 61 rfl) (forall_mem_cons' (mem_at 62 rfl) (List.forall_mem_nil _)))))))))))))))))))))))))))))))))))))))))))))))))))))))))))))))))))))))⟩
  storage := by decide +kernel
  ok := commandMapF34_ok

theorem commandMapF7_ok : ∀ x ∈ commandMapF7, ∃ I, x.2.Ok I (Allowed Version.F7 x.1) := by
  unfold commandMapF7
  simp only [List.forall_mem_cons]
  exact ⟨⟨_, allow_parse ok_FC3_Authconfig⟩,
    ⟨_, allow_parse ok_FC3_Authconfig⟩,
    ⟨_, allow_parse ok_FC3_AutoPart⟩,
    ⟨_, allow_parse ok_FC3_AutoStep⟩,
    ⟨_, allow_parse ok_FC4_Bootloader⟩,
    ⟨_, allow_parse ok_FC3_Cdrom⟩,
    ⟨_, allow_parse ok_FC3_ClearPart⟩,
    ⟨_, allow_parse ok_FC3_DisplayMode⟩,
    ⟨_, allow_parse ok_FC3_Device⟩,
    ⟨_, allow_parse ok_FC3_DeviceProbe⟩,
    ⟨_, allow_parse ok_FC6_DmRaid_FC6_DmRaidData⟩,
    ⟨_, allow_parse ok_FC4_DriverDisk_FC4_DriverDiskData⟩,
    ⟨_, allow_parse ok_FC3_Firewall⟩,
    ⟨_, allow_parse ok_FC3_Firstboot⟩,
    ⟨_, allow_parse ok_FC3_DisplayMode⟩,
    ⟨_, allow_parse ok_FC6_Reboot⟩,
    ⟨_, allow_parse ok_FC3_HardDrive⟩,
    ⟨_, allow_parse ok_FC3_IgnoreDisk⟩,
    ⟨_, allow_parse ok_FC3_Upgrade⟩,
    ⟨_, allow_parse ok_FC3_Interactive⟩,
    ⟨_, allow_parse ok_FC6_Iscsi_FC6_IscsiData⟩,
    ⟨_, allow_parse ok_FC6_IscsiName⟩,
    ⟨_, allow_parse ok_FC3_Keyboard⟩,
    ⟨_, allow_parse ok_FC3_Lang⟩,
    ⟨_, allow_parse ok_F7_LangSupport⟩,
    ⟨_, allow_parse ok_FC6_Logging⟩,
    ⟨_, allow_parse ok_FC4_LogVol_FC4_LogVolData⟩,
    ⟨_, allow_parse ok_FC4_MediaCheck⟩,
    ⟨_, allow_method (by decide) ok_FC6_Method⟩,
    ⟨_, allow_parse ok_FC6_Monitor⟩,
    ⟨_, allow_parse ok_F7_Mouse⟩,
    ⟨_, allow_multipath (by decide) ok_FC6_MultiPath_FC6_MultiPathData⟩,
    ⟨_, allow_parse ok_FC6_Network_FC6_NetworkData⟩,
    ⟨_, allow_parse ok_FC6_NFS⟩,
    ⟨_, allow_parse ok_FC4_Partition_FC4_PartData⟩,
    ⟨_, allow_parse ok_FC4_Partition_FC4_PartData⟩,
    ⟨_, allow_parse ok_FC6_Reboot⟩,
    ⟨_, allow_raid (by decide) ok_F7_Raid_F7_RaidData⟩,
    ⟨_, allow_parse ok_FC6_Reboot⟩,
    ⟨_, allow_parse ok_FC6_Repo_FC6_RepoData⟩,
    ⟨_, allow_parse ok_FC3_RootPw⟩,
    ⟨_, allow_parse ok_FC3_SELinux⟩,
    ⟨_, allow_parse ok_FC6_Services⟩,
    ⟨_, allow_parse ok_FC6_Reboot⟩,
    ⟨_, allow_parse ok_FC3_SkipX⟩,
    ⟨_, allow_parse ok_FC3_DisplayMode⟩,
    ⟨_, allow_parse ok_FC6_Timezone⟩,
    ⟨_, allow_parse ok_F7_Updates⟩,
    ⟨_, allow_parse ok_FC3_Upgrade⟩,
    ⟨_, allow_parse ok_FC3_Url⟩,
    ⟨_, allow_parse ok_FC6_User_FC6_UserData⟩,
    ⟨_, allow_parse ok_FC6_Vnc⟩,
    ⟨_, allow_parse ok_FC3_VolGroup_FC3_VolGroupData⟩,
    ⟨_, allow_parse ok_FC6_XConfig⟩,
    ⟨_, allow_parse ok_FC3_ZeroMbr⟩,
    ⟨_, allow_parse ok_FC3_ZFCP_FC3_ZFCPData⟩,
    List.forall_mem_nil _⟩

def classesF7 : List Command := [FC3_Authconfig.cls, FC3_AutoPart.cls, FC3_AutoStep.cls, FC4_Bootloader.cls, FC3_Cdrom.cls, FC3_ClearPart.cls, FC3_DisplayMode.cls, FC3_Device.cls, FC3_DeviceProbe.cls, FC6_DmRaid.cls FC6_DmRaidData.cls, FC4_DriverDisk.cls FC4_DriverDiskData.cls, FC3_Firewall.cls, FC3_Firstboot.cls, FC6_Reboot.cls, FC3_HardDrive.cls, FC3_IgnoreDisk.cls, FC3_Upgrade.cls, FC3_Interactive.cls, FC6_Iscsi.cls FC6_IscsiData.cls, FC6_IscsiName.cls, FC3_Keyboard.cls, FC3_Lang.cls, F7_LangSupport.cls, FC6_Logging.cls, FC4_LogVol.cls FC4_LogVolData.cls, FC4_MediaCheck.cls, FC6_Method.cls, FC6_Monitor.cls, F7_Mouse.cls, FC6_MultiPath.cls FC6_MultiPathData.cls, FC6_Network.cls FC6_NetworkData.cls, FC6_NFS.cls, FC4_Partition.cls FC4_PartData.cls, F7_Raid.cls F7_RaidData.cls, FC6_Repo.cls FC6_RepoData.cls, FC3_RootPw.cls, FC3_SELinux.cls, FC6_Services.cls, FC3_SkipX.cls, FC6_Timezone.cls, F7_Updates.cls, FC3_Url.cls, FC6_User.cls FC6_UserData.cls, FC6_Vnc.cls, FC3_VolGroup.cls FC3_VolGroupData.cls, FC6_XConfig.cls, FC3_ZeroMbr.cls, FC3_ZFCP.cls FC3_ZFCPData.cls]

theorem commandMapF7_mapOk : MapOk Version.F7 commandMapF7 where
  dict := nodup_codes (by decide +kernel)
  classes := ⟨classesF7, [c!"FC3_Authconfig", c!"FC3_AutoPart", c!"FC3_AutoStep", c!"FC4_Bootloader", c!"FC3_Cdrom", c!"FC3_ClearPart", c!"FC3_DisplayMode", c!"FC3_Device", c!"FC3_DeviceProbe", c!"FC6_DmRaid", c!"FC4_DriverDisk", c!"FC3_Firewall", c!"FC3_Firstboot", c!"FC6_Reboot", c!"FC3_HardDrive", c!"FC3_IgnoreDisk", c!"FC3_Upgrade", c!"FC3_Interactive", c!"FC6_Iscsi", c!"FC6_IscsiName", c!"FC3_Keyboard", c!"FC3_Lang", c!"F7_LangSupport", c!"FC6_Logging", c!"FC4_LogVol", c!"FC4_MediaCheck", c!"FC6_Method", c!"FC6_Monitor", c!"F7_Mouse", c!"FC6_MultiPath", c!"FC6_Network", c!"FC6_NFS", c!"FC4_Partition", c!"F7_Raid", c!"FC6_Repo", c!"FC3_RootPw", c!"FC3_SELinux", c!"FC6_Services", c!"FC3_SkipX", c!"FC6_Timezone", c!"F7_Updates", c!"FC3_Url", c!"FC6_User", c!"FC6_Vnc", c!"FC3_VolGroup", c!"FC6_XConfig", c!"FC3_ZeroMbr", c!"FC3_ZFCP"], [c!"authconfig", c!"autopart", c!"autostep", c!"bootloader", c!"cdrom", c!"clearpart", c!"displaymode", c!"device", c!"deviceprobe", c!"dmraid", c!"driverdisk", c!"firewall", c!"firstboot", c!"reboot", c!"harddrive", c!"ignoredisk", c!"upgrade", c!"interactive", c!"iscsi", c!"iscsiname", c!"keyboard", c!"lang", c!"langsupport", c!"logging", c!"logvol", c!"mediacheck", c!"method", c!"monitor", c!"mouse", c!"multipath", c!"network", c!"nfs", c!"partition", c!"raid", c!"repo", c!"rootpw", c!"selinux", c!"services", c!"skipx", c!"timezone", c!"updates", c!"url", c!"user", c!"vnc", c!"volgroup", c!"xconfig", c!"zerombr", c!"zfcp"], rfl, by decide +kernel, nodup_codes (by decide +kernel), nodup_codes (by decide +kernel), by
    unfold commandMapF7
    exact (forall_mem_cons' (mem_at 0 rfl) (forall_mem_cons' (mem_at 0 rfl) (forall_mem_cons' (mem_at 1 rfl) (forall_mem_cons' (mem_at 2 rfl) (forall_mem_cons' (mem_at 3 rfl) (forall_mem_cons' (mem_at 4 rfl) (forall_mem_cons' (mem_at 5 rfl) (forall_mem_cons' (mem_at 6 rfl) (forall_mem_cons' (mem_at 7 rfl) (forall_mem_cons' (mem_at 8 rfl) (forall_mem_cons' (mem_at 9 rfl) (forall_mem_cons' (mem_at 10 rfl) (forall_mem_cons' (mem_at 11 rfl) (forall_mem_cons' (mem_at 12 rfl) (forall_mem_cons' (mem_at 6 rfl) (forall_mem_cons' (mem_at 13 rfl) (forall_mem_cons' (mem_at 14 rfl) (forall_mem_cons' (mem_at 15 rfl) (forall_mem_cons' (mem_at 16 rfl) (forall_mem_cons' (mem_at 17 rfl) (forall_mem_cons' (mem_at 18 rfl) (forall_mem_cons' (mem_at 19 rfl) (forall_mem_cons' (mem_at 20 rfl) (forall_mem_cons' (mem_at 21 rfl) (forall_mem_cons' (mem_at 22 rfl) (forall_mem_cons' (mem_at 23 rfl) (forall_mem_cons' (mem_at 24 rfl) (forall_mem_cons' (mem_at 25 rfl) (forall_mem_cons' (mem_at 26 rfl) (forall_mem_cons' (mem_at 27 rfl) (forall_mem_cons' (mem_at 28 rfl) (forall_mem_cons' (mem_at 29 rfl) (forall_mem_cons' (mem_at 30 rfl) (forall_mem_cons' (mem_at 31 rfl) (forall_mem_cons' (mem_at 32 rfl) (forall_mem_cons' (mem_at 32 rfl) (forall_mem_cons' (mem_at 13 rfl) (forall_mem_cons' (mem_at 33 rfl) (forall_mem_cons' (mem_at 13 rfl) (forall_mem_cons' (mem_at 34 rfl) (forall_mem_cons' (mem_at 35 rfl) (forall_mem_cons' (mem_at 36 rfl) (forall_mem_cons' (mem_at 37 rfl) (forall_mem_cons' (mem_at 13 rfl) (forall_mem_cons' (mem_at 38 rfl) (forall_mem_cons' (mem_at 6 rfl) (forall_mem_cons' (mem_at 39 rfl) (forall_mem_cons' (mem_at 40 rfl) (forall_mem_cons' (mem_at 16 rfl) (forall_mem_cons' (mem_at 41 rfl) (forall_mem_cons' (mem_at 42 rfl) (forall_mem_cons' (mem_at 43 rfl) (forall_mem_cons' (mem_at 44 rfl) (forall_mem_cons' (mem_at 45 rfl) (forall_mem_cons' (mem_at 46 rfl) (forall_mem_cons' (mem_at 47 rfl) (List.forall_mem_nil _)))))))))))))))))))))))))))))))))))))))))))))))))))))))))⟩
  storage := by decide +kernel
  ok := commandMapF7_ok

theorem commandMapF8_ok : ∀ x ∈ commandMapF8, ∃ I, x.2.Ok I (Allowed Version.F8 x.1) := by
  unfold commandMapF8
  simp only [List.forall_mem_cons]
  exact ⟨⟨_, allow_parse ok_FC3_Authconfig⟩,
    ⟨_, allow_parse ok_FC3_Authconfig⟩,
    ⟨_, allow_parse ok_FC3_AutoPart⟩,
    ⟨_, allow_parse ok_FC3_AutoStep⟩,
    ⟨_, allow_parse ok_F8_Bootloader⟩,
    ⟨_, allow_parse ok_FC3_Cdrom⟩,
    ⟨_, allow_parse ok_FC3_ClearPart⟩,
    ⟨_, allow_parse ok_FC3_DisplayMode⟩,
    ⟨_, allow_parse ok_F8_Device_F8_DeviceData⟩,
    ⟨_, allow_parse ok_FC3_DeviceProbe⟩,
    ⟨_, allow_parse ok_FC6_DmRaid_FC6_DmRaidData⟩,
    ⟨_, allow_parse ok_FC4_DriverDisk_FC4_DriverDiskData⟩,
    ⟨_, allow_parse ok_FC3_Firewall⟩,
    ⟨_, allow_parse ok_FC3_Firstboot⟩,
    ⟨_, allow_parse ok_FC3_DisplayMode⟩,
    ⟨_, allow_parse ok_FC6_Reboot⟩,
    ⟨_, allow_parse ok_FC3_HardDrive⟩,
    ⟨_, allow_parse ok_F8_IgnoreDisk⟩,
    ⟨_, allow_parse ok_FC3_Upgrade⟩,
    ⟨_, allow_parse ok_FC3_Interactive⟩,
    ⟨_, allow_parse ok_FC6_Iscsi_FC6_IscsiData⟩,
    ⟨_, allow_parse ok_FC6_IscsiName⟩,
    ⟨_, allow_parse ok_FC3_Keyboard⟩,
    ⟨_, allow_parse ok_FC3_Lang⟩,
    ⟨_, allow_parse ok_FC6_Logging⟩,
    ⟨_, allow_parse ok_FC4_LogVol_FC4_LogVolData⟩,
    ⟨_, allow_parse ok_FC4_MediaCheck⟩,
    ⟨_, allow_method (by decide) ok_FC6_Method⟩,
    ⟨_, allow_parse ok_FC6_Monitor⟩,
    ⟨_, allow_multipath (by decide) ok_FC6_MultiPath_FC6_MultiPathData⟩,
    ⟨_, allow_parse ok_F8_Network_F8_NetworkData⟩,
    ⟨_, allow_parse ok_FC6_NFS⟩,
    ⟨_, allow_parse ok_FC4_Partition_FC4_PartData⟩,
    ⟨_, allow_parse ok_FC4_Partition_FC4_PartData⟩,
    ⟨_, allow_parse ok_FC6_Reboot⟩,
    ⟨_, allow_raid (by decide) ok_F7_Raid_F7_RaidData⟩,
    ⟨_, allow_parse ok_FC6_Reboot⟩,
    ⟨_, allow_parse ok_F8_Repo_F8_RepoData⟩,
    ⟨_, allow_parse ok_F8_RootPw⟩,
    ⟨_, allow_parse ok_FC3_SELinux⟩,
    ⟨_, allow_parse ok_FC6_Services⟩,
    ⟨_, allow_parse ok_FC6_Reboot⟩,
    ⟨_, allow_parse ok_FC3_SkipX⟩,
    ⟨_, allow_parse ok_FC3_DisplayMode⟩,
    ⟨_, allow_parse ok_FC6_Timezone⟩,
    ⟨_, allow_parse ok_F7_Updates⟩,
    ⟨_, allow_parse ok_FC3_Upgrade⟩,
    ⟨_, allow_parse ok_FC3_Url⟩,
    ⟨_, allow_parse ok_F8_User_F8_UserData⟩,
    ⟨_, allow_parse ok_FC6_Vnc⟩,
    ⟨_, allow_parse ok_FC3_VolGroup_FC3_VolGroupData⟩,
    ⟨_, allow_parse ok_FC6_XConfig⟩,
    ⟨_, allow_parse ok_FC3_ZeroMbr⟩,
    ⟨_, allow_parse ok_FC3_ZFCP_FC3_ZFCPData⟩,
    List.forall_mem_nil _⟩

def classesF8 : List Command := [FC3_Authconfig.cls, FC3_AutoPart.cls, FC3_AutoStep.cls, F8_Bootloader.cls, FC3_Cdrom.cls, FC3_ClearPart.cls, FC3_DisplayMode.cls, F8_Device.cls F8_DeviceData.cls, FC3_DeviceProbe.cls, FC6_DmRaid.cls FC6_DmRaidData.cls, FC4_DriverDisk.cls FC4_DriverDiskData.cls, FC3_Firewall.cls, FC3_Firstboot.cls, FC6_Reboot.cls, FC3_HardDrive.cls, F8_IgnoreDisk.cls, FC3_Upgrade.cls, FC3_Interactive.cls, FC6_Iscsi.cls FC6_IscsiData.cls, FC6_IscsiName.cls, FC3_Keyboard.cls, FC3_Lang.cls, FC6_Logging.cls, FC4_LogVol.cls FC4_LogVolData.cls, FC4_MediaCheck.cls, FC6_Method.cls, FC6_Monitor.cls, FC6_MultiPath.cls FC6_MultiPathData.cls, F8_Network.cls F8_NetworkData.cls, FC6_NFS.cls, FC4_Partition.cls FC4_PartData.cls, F7_Raid.cls F7_RaidData.cls, F8_Repo.cls F8_RepoData.cls, F8_RootPw.cls, FC3_SELinux.cls, FC6_Services.cls, FC3_SkipX.cls, FC6_Timezone.cls, F7_Updates.cls, FC3_Url.cls, F8_User.cls F8_UserData.cls, FC6_Vnc.cls, FC3_VolGroup.cls FC3_VolGroupData.cls, FC6_XConfig.cls, FC3_ZeroMbr.cls, FC3_ZFCP.cls FC3_ZFCPData.cls]

theorem commandMapF8_mapOk : MapOk Version.F8 commandMapF8 where
  dict := nodup_codes (by decide +kernel)
  classes := ⟨classesF8, [c!"FC3_Authconfig", c!"FC3_AutoPart", c!"FC3_AutoStep", c!"F8_Bootloader", c!"FC3_Cdrom", c!"FC3_ClearPart", c!"FC3_DisplayMode", c!"F8_Device", c!"FC3_DeviceProbe", c!"FC6_DmRaid", c!"FC4_DriverDisk", c!"FC3_Firewall", c!"FC3_Firstboot", c!"FC6_Reboot", c!"FC3_HardDrive", c!"F8_IgnoreDisk", c!"FC3_Upgrade", c!"FC3_Interactive", c!"FC6_Iscsi", c!"FC6_IscsiName", c!"FC3_Keyboard", c!"FC3_Lang", c!"FC6_Logging", c!"FC4_LogVol", c!"FC4_MediaCheck", c!"FC6_Method", c!"FC6_Monitor", c!"FC6_MultiPath", c!"F8_Network", c!"FC6_NFS", c!"FC4_Partition", c!"F7_Raid", c!"F8_Repo", c!"F8_RootPw", c!"FC3_SELinux", c!"FC6_Services", c!"FC3_SkipX", c!"FC6_Timezone", c!"F7_Updates", c!"FC3_Url", c!"F8_User", c!"FC6_Vnc", c!"FC3_VolGroup", c!"FC6_XConfig", c!"FC3_ZeroMbr", c!"FC3_ZFCP"], [c!"authconfig", c!"autopart", c!"autostep", c!"bootloader", c!"cdrom", c!"clearpart", c!"displaymode", c!"device", c!"deviceprobe", c!"dmraid", c!"driverdisk", c!"firewall", c!"firstboot", c!"reboot", c!"harddrive", c!"ignoredisk", c!"upgrade", c!"interactive", c!"iscsi", c!"iscsiname", c!"keyboard", c!"lang", c!"logging", c!"logvol", c!"mediacheck", c!"method", c!"monitor", c!"multipath", c!"network", c!"nfs", c!"partition", c!"raid", c!"repo", c!"rootpw", c!"selinux", c!"services", c!"skipx", c!"timezone", c!"updates", c!"url", c!"user", c!"vnc", c!"volgroup", c!"xconfig", c!"zerombr", c!"zfcp"], rfl, by decide +kernel, nodup_codes (by decide +kernel), nodup_codes (by decide +kernel), by
    unfold commandMapF8
    exact (forall_mem_cons' (mem_at 0 rfl) (forall_mem_cons' (mem_at 0 rfl) (forall_mem_cons' (mem_at 1 rfl) (forall_mem_cons' (mem_at 2 rfl) (forall_mem_cons' (mem_at 3 rfl) (forall_mem_cons' (mem_at 4 rfl) (forall_mem_cons' (mem_at 5 rfl) (forall_mem_cons' (mem_at 6 rfl) (forall_mem_cons' (mem_at 7 rfl) (forall_mem_cons' (mem_at 8 rfl) (forall_mem_cons' (mem_at 9 rfl) (forall_mem_cons' (mem_at 10 rfl) (forall_mem_cons' (mem_at 11 rfl) (forall_mem_cons' (mem_at 12 rfl) (forall_mem_cons' (mem_at 6 rfl) (forall_mem_cons' (mem_at 13 rfl) (forall_mem_cons' (mem_at 14 rfl) (forall_mem_cons' (mem_at 15 rfl) (forall_mem_cons' (mem_at 16 rfl) (forall_mem_cons' (mem_at 17 rfl) (forall_mem_cons' (mem_at 18 rfl) (forall_mem_cons' (mem_at 19 rfl) (forall_mem_cons' (mem_at 20 rfl) (forall_mem_cons' (mem_at 21 rfl) (forall_mem_cons' (mem_at 22 rfl) (forall_mem_cons' (mem_at 23 rfl) (forall_mem_cons' (mem_at 24 rfl) (forall_mem_cons' (mem_at 25 rfl) (forall_mem_cons' (mem_at 26 rfl) (forall_mem_cons' (mem_at 27 rfl) (forall_mem_cons' (mem_at 28 rfl) (forall_mem_cons' (mem_at 29 rfl) (forall_mem_cons' (mem_at 30 rfl) (forall_mem_cons' (mem_at 30 rfl) (forall_mem_cons' (mem_at 13 rfl) (forall_mem_cons' (mem_at 31 rfl) (forall_mem_cons' (mem_at 13 rfl) (forall_mem_cons' (mem_at 32 rfl) (forall_mem_cons' (mem_at 33 rfl) (forall_mem_cons' (mem_at 34 rfl) (forall_mem_cons' (mem_at 35 rfl) (forall_mem_cons' (mem_at 13 rfl) (forall_mem_cons' (mem_at 36 rfl) (forall_mem_cons' (mem_at 6 rfl) (forall_mem_cons' (mem_at 37 rfl) (forall_mem_cons' (mem_at 38 rfl) (forall_mem_cons' (mem_at 16 rfl) (forall_mem_cons' (mem_at 39 rfl) (forall_mem_cons' (mem_at 40 rfl) (forall_mem_cons' (mem_at 41 rfl) (forall_mem_cons' (mem_at 42 rfl) (forall_mem_cons' (mem_at 43 rfl) (forall_mem_cons' (mem_at 44 rfl) (forall_mem_cons' (mem_at 45 rfl) (List.forall_mem_nil _)))))))))))))))))))))))))))))))))))))))))))))))))))))))⟩
  storage := by decide +kernel
  ok := commandMapF8_ok

theorem commandMapF9_ok : ∀ x ∈ commandMapF9, ∃ I, x.2.Ok I (Allowed Version.F9 x.1) := by
  unfold commandMapF9
  simp only [List.forall_mem_cons]
  exact ⟨⟨_, allow_parse ok_FC3_Authconfig⟩,
    ⟨_, allow_parse ok_FC3_Authconfig⟩,
    ⟨_, allow_parse ok_F9_AutoPart⟩,
    ⟨_, allow_parse ok_FC3_AutoStep⟩,
    ⟨_, allow_parse ok_F8_Bootloader⟩,
    ⟨_, allow_parse ok_FC3_Cdrom⟩,
    ⟨_, allow_parse ok_FC3_ClearPart⟩,
    ⟨_, allow_parse ok_FC3_DisplayMode⟩,
    ⟨_, allow_parse ok_F8_Device_F8_DeviceData⟩,
    ⟨_, allow_parse ok_FC3_DeviceProbe⟩,
    ⟨_, allow_parse ok_FC6_DmRaid_FC6_DmRaidData⟩,
    ⟨_, allow_parse ok_FC4_DriverDisk_FC4_DriverDiskData⟩,
    ⟨_, allow_parse ok_F9_Firewall⟩,
    ⟨_, allow_parse ok_FC3_Firstboot⟩,
    ⟨_, allow_parse ok_FC3_DisplayMode⟩,
    ⟨_, allow_parse ok_FC6_Reboot⟩,
    ⟨_, allow_parse ok_FC3_HardDrive⟩,
    ⟨_, allow_parse ok_F8_IgnoreDisk⟩,
    ⟨_, allow_parse ok_FC3_Upgrade⟩,
    ⟨_, allow_parse ok_FC3_Interactive⟩,
    ⟨_, allow_parse ok_FC6_Iscsi_FC6_IscsiData⟩,
    ⟨_, allow_parse ok_FC6_IscsiName⟩,
    ⟨_, allow_parse ok_FC3_Keyboard⟩,
    ⟨_, allow_parse ok_FC3_Lang⟩,
    ⟨_, allow_parse ok_FC6_Logging⟩,
    ⟨_, allow_parse ok_F9_LogVol_F9_LogVolData⟩,
    ⟨_, allow_parse ok_FC4_MediaCheck⟩,
    ⟨_, allow_method (by decide) ok_FC6_Method⟩,
    ⟨_, allow_parse ok_FC6_Monitor⟩,
    ⟨_, allow_multipath (by decide) ok_FC6_MultiPath_FC6_MultiPathData⟩,
    ⟨_, allow_parse ok_F9_Network_F8_NetworkData⟩,
    ⟨_, allow_parse ok_FC6_NFS⟩,
    ⟨_, allow_parse ok_F9_Partition_F9_PartData⟩,
    ⟨_, allow_parse ok_F9_Partition_F9_PartData⟩,
    ⟨_, allow_parse ok_FC6_Reboot⟩,
    ⟨_, allow_raid (by decide) ok_F9_Raid_F9_RaidData⟩,
    ⟨_, allow_parse ok_FC6_Reboot⟩,
    ⟨_, allow_parse ok_F8_Repo_F8_RepoData⟩,
    ⟨_, allow_parse ok_F8_RootPw⟩,
    ⟨_, allow_parse ok_FC3_SELinux⟩,
    ⟨_, allow_parse ok_FC6_Services⟩,
    ⟨_, allow_parse ok_FC6_Reboot⟩,
    ⟨_, allow_parse ok_FC3_SkipX⟩,
    ⟨_, allow_parse ok_FC3_DisplayMode⟩,
    ⟨_, allow_parse ok_FC6_Timezone⟩,
    ⟨_, allow_parse ok_F7_Updates⟩,
    ⟨_, allow_parse ok_FC3_Upgrade⟩,
    ⟨_, allow_parse ok_FC3_Url⟩,
    ⟨_, allow_parse ok_F8_User_F8_UserData⟩,
    ⟨_, allow_parse ok_F9_Vnc⟩,
    ⟨_, allow_parse ok_FC3_VolGroup_FC3_VolGroupData⟩,
    ⟨_, allow_parse ok_F9_XConfig⟩,
    ⟨_, allow_parse ok_F9_ZeroMbr⟩,
    ⟨_, allow_parse ok_FC3_ZFCP_FC3_ZFCPData⟩,
    List.forall_mem_nil _⟩

def classesF9 : List Command := [FC3_Authconfig.cls, F9_AutoPart.cls, FC3_AutoStep.cls, F8_Bootloader.cls, FC3_Cdrom.cls, FC3_ClearPart.cls, FC3_DisplayMode.cls, F8_Device.cls F8_DeviceData.cls, FC3_DeviceProbe.cls, FC6_DmRaid.cls FC6_DmRaidData.cls, FC4_DriverDisk.cls FC4_DriverDiskData.cls, F9_Firewall.cls, FC3_Firstboot.cls, FC6_Reboot.cls, FC3_HardDrive.cls, F8_IgnoreDisk.cls, FC3_Upgrade.cls, FC3_Interactive.cls, FC6_Iscsi.cls FC6_IscsiData.cls, FC6_IscsiName.cls, FC3_Keyboard.cls, FC3_Lang.cls, FC6_Logging.cls, F9_LogVol.cls F9_LogVolData.cls, FC4_MediaCheck.cls, FC6_Method.cls, FC6_Monitor.cls, FC6_MultiPath.cls FC6_MultiPathData.cls, F9_Network.cls F8_NetworkData.cls, FC6_NFS.cls, F9_Partition.cls F9_PartData.cls, F9_Raid.cls F9_RaidData.cls, F8_Repo.cls F8_RepoData.cls, F8_RootPw.cls, FC3_SELinux.cls, FC6_Services.cls, FC3_SkipX.cls, FC6_Timezone.cls, F7_Updates.cls, FC3_Url.cls, F8_User.cls F8_UserData.cls, F9_Vnc.cls, FC3_VolGroup.cls FC3_VolGroupData.cls, F9_XConfig.cls, F9_ZeroMbr.cls, FC3_ZFCP.cls FC3_ZFCPData.cls]

theorem commandMapF9_mapOk : MapOk Version.F9 commandMapF9 where
  dict := nodup_codes (by decide +kernel)
  classes := ⟨classesF9, [c!"FC3_Authconfig", c!"F9_AutoPart", c!"FC3_AutoStep", c!"F8_Bootloader", c!"FC3_Cdrom", c!"FC3_ClearPart", c!"FC3_DisplayMode", c!"F8_Device", c!"FC3_DeviceProbe", c!"FC6_DmRaid", c!"FC4_DriverDisk", c!"F9_Firewall", c!"FC3_Firstboot", c!"FC6_Reboot", c!"FC3_HardDrive", c!"F8_IgnoreDisk", c!"FC3_Upgrade", c!"FC3_Interactive", c!"FC6_Iscsi", c!"FC6_IscsiName", c!"FC3_Keyboard", c!"FC3_Lang", c!"FC6_Logging", c!"F9_LogVol", c!"FC4_MediaCheck", c!"FC6_Method", c!"FC6_Monitor", c!"FC6_MultiPath", c!"F9_Network", c!"FC6_NFS", c!"F9_Partition", c!"F9_Raid", c!"F8_Repo", c!"F8_RootPw", c!"FC3_SELinux", c!"FC6_Services", c!"FC3_SkipX", c!"FC6_Timezone", c!"F7_Updates", c!"FC3_Url", c!"F8_User", c!"F9_Vnc", c!"FC3_VolGroup", c!"F9_XConfig", c!"F9_ZeroMbr", c!"FC3_ZFCP"], [c!"authconfig", c!"autopart", c!"autostep", c!"bootloader", c!"cdrom", c!"clearpart", c!"displaymode", c!"device", c!"deviceprobe", c!"dmraid", c!"driverdisk", c!"firewall", c!"firstboot", c!"reboot", c!"harddrive", c!"ignoredisk", c!"upgrade", c!"interactive", c!"iscsi", c!"iscsiname", c!"keyboard", c!"lang", c!"logging", c!"logvol", c!"mediacheck", c!"method", c!"monitor", c!"multipath", c!"network", c!"nfs", c!"partition", c!"raid", c!"repo", c!"rootpw", c!"selinux", c!"services", c!"skipx", c!"timezone", c!"updates", c!"url", c!"user", c!"vnc", c!"volgroup", c!"xconfig", c!"zerombr", c!"zfcp"], rfl, by decide +kernel, nodup_codes (by decide +kernel), nodup_codes (by decide +kernel), by
    unfold commandMapF9
    exact (forall_mem_cons' (mem_at 0 rfl) (forall_mem_cons' (mem_at 0 rfl) (forall_mem_cons' (mem_at 1 rfl) (forall_mem_cons' (mem_at 2 rfl) (forall_mem_cons' (mem_at 3 rfl) (forall_mem_cons' (mem_at 4 rfl) (forall_mem_cons' (mem_at 5 rfl) (forall_mem_cons' (mem_at 6 rfl) (forall_mem_cons' (mem_at 7 rfl) (forall_mem_cons' (mem_at 8 rfl) (forall_mem_cons' (mem_at 9 rfl) (forall_mem_cons' (mem_at 10 rfl) (forall_mem_cons' (mem_at 11 rfl) (forall_mem_cons' (mem_at 12 rfl) (forall_mem_cons' (mem_at 6 rfl) (forall_mem_cons' (mem_at 13 rfl) (forall_mem_cons' (mem_at 14 rfl) (forall_mem_cons' (mem_at 15 rfl) (forall_mem_cons' (mem_at 16 rfl) (forall_mem_cons' (mem_at 17 rfl) (forall_mem_cons' (mem_at 18 rfl) (forall_mem_cons' (mem_at 19 rfl) (forall_mem_cons' (mem_at 20 rfl) (forall_mem_cons' (mem_at 21 rfl) (forall_mem_cons' (mem_at 22 rfl) (forall_mem_cons' (mem_at 23 rfl) (forall_mem_cons' (mem_at 24 rfl) (forall_mem_cons' (mem_at 25 rfl) (forall_mem_cons' (mem_at 26 rfl) (forall_mem_cons' (mem_at 27 rfl) (forall_mem_cons' (mem_at 28 rfl) (forall_mem_cons' (mem_at 29 rfl) (forall_mem_cons' (mem_at 30 rfl) (forall_mem_cons' (mem_at 30 rfl) (forall_mem_cons' (mem_at 13 rfl) (forall_mem_cons' (mem_at 31 rfl) (forall_mem_cons' (mem_at 13 rfl) (forall_mem_cons' (mem_at 32 rfl) (forall_mem_cons' (mem_at 33 rfl) (forall_mem_cons' (mem_at 34 rfl) (forall_mem_cons' (mem_at 35 rfl) (forall_mem_cons' (mem_at 13 rfl) (forall_mem_cons' (mem_at 36 rfl) (forall_mem_cons' (mem_at 6 rfl) (forall_mem_cons' (mem_at 37 rfl) (forall_mem_cons' (mem_at 38 rfl) (forall_mem_cons' (mem_at 16 rfl) (forall_mem_cons' (mem_at 39 rfl) (forall_mem_cons' (mem_at 40 rfl) (forall_mem_cons' (mem_at 41 rfl) (forall_mem_cons' (mem_at 42 rfl) (forall_mem_cons' (mem_at 43 rfl) (forall_mem_cons' (mem_at 44 rfl) (forall_mem_cons' (mem_at 45 rfl) (List.forall_mem_nil _)))))))))))))))))))))))))))))))))))))))))))))))))))))))⟩
  storage := by decide +kernel
  ok := commandMapF9_ok

theorem commandMapFC3_ok : ∀ x ∈ commandMapFC3, ∃ I, x.2.Ok I (Allowed Version.FC3 x.1) := by
  unfold commandMapFC3
  simp only [List.forall_mem_cons]
  exact ⟨⟨_, allow_parse ok_FC3_Authconfig⟩,
    ⟨_, allow_parse ok_FC3_Authconfig⟩,
    ⟨_, allow_parse ok_FC3_AutoPart⟩,
    ⟨_, allow_parse ok_FC3_AutoStep⟩,
    ⟨_, allow_parse ok_FC3_Bootloader⟩,
    ⟨_, allow_parse ok_FC3_Cdrom⟩,
    ⟨_, allow_parse ok_FC3_ClearPart⟩,
    ⟨_, allow_parse ok_FC3_DisplayMode⟩,
    ⟨_, allow_parse ok_FC3_Device⟩,
    ⟨_, allow_parse ok_FC3_DeviceProbe⟩,
    ⟨_, allow_parse ok_FC3_DriverDisk_FC3_DriverDiskData⟩,
    ⟨_, allow_parse ok_FC3_Firewall⟩,
    ⟨_, allow_parse ok_FC3_Firstboot⟩,
    ⟨_, allow_parse ok_FC3_DisplayMode⟩,
    ⟨_, allow_parse ok_FC3_Reboot⟩,
    ⟨_, allow_parse ok_FC3_HardDrive⟩,
    ⟨_, allow_parse ok_FC3_IgnoreDisk⟩,
    ⟨_, allow_parse ok_FC3_Upgrade⟩,
    ⟨_, allow_parse ok_FC3_Interactive⟩,
    ⟨_, allow_parse ok_FC3_Keyboard⟩,
    ⟨_, allow_parse ok_FC3_Lang⟩,
    ⟨_, allow_parse ok_FC3_LangSupport⟩,
    ⟨_, allow_parse ok_FC3_Lilo⟩,
    ⟨_, allow_parse ok_FC3_LiloCheck⟩,
    ⟨_, allow_parse ok_FC3_LogVol_FC3_LogVolData⟩,
    ⟨_, allow_method (by decide) ok_FC3_Method⟩,
    ⟨_, allow_parse ok_FC3_Monitor⟩,
    ⟨_, allow_parse ok_FC3_Mouse⟩,
    ⟨_, allow_parse ok_FC3_Network_FC3_NetworkData⟩,
    ⟨_, allow_parse ok_FC3_NFS⟩,
    ⟨_, allow_parse ok_FC3_Partition_FC3_PartData⟩,
    ⟨_, allow_parse ok_FC3_Partition_FC3_PartData⟩,
    ⟨_, allow_parse ok_FC3_Reboot⟩,
    ⟨_, allow_raid (by decide) ok_FC3_Raid_FC3_RaidData⟩,
    ⟨_, allow_parse ok_FC3_Reboot⟩,
    ⟨_, allow_parse ok_FC3_RootPw⟩,
    ⟨_, allow_parse ok_FC3_SELinux⟩,
    ⟨_, allow_parse ok_FC3_Reboot⟩,
    ⟨_, allow_parse ok_FC3_SkipX⟩,
    ⟨_, allow_parse ok_FC3_DisplayMode⟩,
    ⟨_, allow_parse ok_FC3_Timezone⟩,
    ⟨_, allow_parse ok_FC3_Upgrade⟩,
    ⟨_, allow_parse ok_FC3_Url⟩,
    ⟨_, allow_parse ok_FC3_Vnc⟩,
    ⟨_, allow_parse ok_FC3_VolGroup_FC3_VolGroupData⟩,
    ⟨_, allow_parse ok_FC3_XConfig⟩,
    ⟨_, allow_parse ok_FC3_ZeroMbr⟩,
    ⟨_, allow_parse ok_FC3_ZFCP_FC3_ZFCPData⟩,
    List.forall_mem_nil _⟩

def classesFC3 : List Command := [FC3_Authconfig.cls, FC3_AutoPart.cls, FC3_AutoStep.cls, FC3_Bootloader.cls, FC3_Cdrom.cls, FC3_ClearPart.cls, FC3_DisplayMode.cls, FC3_Device.cls, FC3_DeviceProbe.cls, FC3_DriverDisk.cls FC3_DriverDiskData.cls, FC3_Firewall.cls, FC3_Firstboot.cls, FC3_Reboot.cls, FC3_HardDrive.cls, FC3_IgnoreDisk.cls, FC3_Upgrade.cls, FC3_Interactive.cls, FC3_Keyboard.cls, FC3_Lang.cls, FC3_LangSupport.cls, FC3_Lilo.cls, FC3_LiloCheck.cls, FC3_LogVol.cls FC3_LogVolData.cls, FC3_Method.cls, FC3_Monitor.cls, FC3_Mouse.cls, FC3_Network.cls FC3_NetworkData.cls, FC3_NFS.cls, FC3_Partition.cls FC3_PartData.cls, FC3_Raid.cls FC3_RaidData.cls, FC3_RootPw.cls, FC3_SELinux.cls, FC3_SkipX.cls, FC3_Timezone.cls, FC3_Url.cls, FC3_Vnc.cls, FC3_VolGroup.cls FC3_VolGroupData.cls, FC3_XConfig.cls, FC3_ZeroMbr.cls, FC3_ZFCP.cls FC3_ZFCPData.cls]

theorem commandMapFC3_mapOk : MapOk Version.FC3 commandMapFC3 where
  dict := nodup_codes (by decide +kernel)
  classes := ⟨classesFC3, [c!"FC3_Authconfig", c!"FC3_AutoPart", c!"FC3_AutoStep", c!"FC3_Bootloader", c!"FC3_Cdrom", c!"FC3_ClearPart", c!"FC3_DisplayMode", c!"FC3_Device", c!"FC3_DeviceProbe", c!"FC3_DriverDisk", c!"FC3_Firewall", c!"FC3_Firstboot", c!"FC3_Reboot", c!"FC3_HardDrive", c!"FC3_IgnoreDisk", c!"FC3_Upgrade", c!"FC3_Interactive", c!"FC3_Keyboard", c!"FC3_Lang", c!"FC3_LangSupport", c!"FC3_Lilo", c!"FC3_LiloCheck", c!"FC3_LogVol", c!"FC3_Method", c!"FC3_Monitor", c!"FC3_Mouse", c!"FC3_Network", c!"FC3_NFS", c!"FC3_Partition", c!"FC3_Raid", c!"FC3_RootPw", c!"FC3_SELinux", c!"FC3_SkipX", c!"FC3_Timezone", c!"FC3_Url", c!"FC3_Vnc", c!"FC3_VolGroup", c!"FC3_XConfig", c!"FC3_ZeroMbr", c!"FC3_ZFCP"], [c!"authconfig", c!"autopart", c!"autostep", c!"bootloader", c!"cdrom", c!"clearpart", c!"displaymode", c!"device", c!"deviceprobe", c!"driverdisk", c!"firewall", c!"firstboot", c!"reboot", c!"harddrive", c!"ignoredisk", c!"upgrade", c!"interactive", c!"keyboard", c!"lang", c!"langsupport", c!"lilo", c!"lilocheck", c!"logvol", c!"method", c!"monitor", c!"mouse", c!"network", c!"nfs", c!"partition", c!"raid", c!"rootpw", c!"selinux", c!"skipx", c!"timezone", c!"url", c!"vnc", c!"volgroup", c!"xconfig", c!"zerombr", c!"zfcp"], rfl, by decide +kernel, nodup_codes (by decide +kernel), nodup_codes (by decide +kernel), by
    unfold commandMapFC3
    exact (forall_mem_cons' (mem_at 0 rfl) (forall_mem_cons' (mem_at 0 rfl) (forall_mem_cons' (mem_at 1 rfl) (forall_mem_cons' (mem_at 2 rfl) (forall_mem_cons' (mem_at 3 rfl) (forall_mem_cons' (mem_at 4 rfl) (forall_mem_cons' (mem_at 5 rfl) (forall_mem_cons' (mem_at 6 rfl) (forall_mem_cons' (mem_at 7 rfl) (forall_mem_cons' (mem_at 8 rfl) (forall_mem_cons' (mem_at 9 rfl) (forall_mem_cons' (mem_at 10 rfl) (forall_mem_cons' (mem_at 11 rfl) (forall_mem_cons' (mem_at 6 rfl) (forall_mem_cons' (mem_at 12 rfl) (forall_mem_cons' (mem_at 13 rfl) (forall_mem_cons' (mem_at 14 rfl) (forall_mem_cons' (mem_at 15 rfl) (forall_mem_cons' (mem_at 16 rfl) (forall_mem_cons' (mem_at 17 rfl) (forall_mem_cons' (mem_at 18 rfl) (forall_mem_cons' (mem_at 19 rfl) (forall_mem_cons' (mem_at 20 rfl) (forall_mem_cons' (mem_at 21 rfl) (forall_mem_cons' (mem_at 22 rfl) (forall_mem_cons' (mem_at 23 rfl) (forall_mem_cons' (mem_at 24 rfl) (forall_mem_cons' (mem_at 25 rfl) (forall_mem_cons' (mem_at 26 rfl) (forall_mem_cons' (mem_at 27 rfl) (forall_mem_cons' (mem_at 28 rfl) (forall_mem_cons' (mem_at 28 rfl) (forall_mem_cons' (mem_at 12 rfl) (forall_mem_cons' (mem_at 29 rfl) (forall_mem_cons' (mem_at 12 rfl) (forall_mem_cons' (mem_at 30 rfl) (forall_mem_cons' (mem_at 31 rfl) (forall_mem_cons' (mem_at 12 rfl) (forall_mem_cons' (mem_at 32 rfl) (forall_mem_cons' (mem_at 6 rfl) (forall_mem_cons' (mem_at 33 rfl) (forall_mem_cons' (mem_at 15 rfl) (forall_mem_cons' (mem_at 34 rfl) (forall_mem_cons' (mem_at 35 rfl) (forall_mem_cons' (mem_at 36 rfl) (forall_mem_cons' (mem_at 37 rfl) (forall_mem_cons' (mem_at 38 rfl) (forall_mem_cons' (mem_at 39 rfl) (List.forall_mem_nil _)))))))))))))))))))))))))))))))))))))))))))))))))⟩
  storage := by decide +kernel
  ok := commandMapFC3_ok

theorem commandMapFC4_ok : ∀ x ∈ commandMapFC4, ∃ I, x.2.Ok I (Allowed Version.FC4 x.1) := by
  unfold commandMapFC4
  simp only [List.forall_mem_cons]
  exact ⟨⟨_, allow_parse ok_FC3_Authconfig⟩,
    ⟨_, allow_parse ok_FC3_Authconfig⟩,
    ⟨_, allow_parse ok_FC3_AutoPart⟩,
    ⟨_, allow_parse ok_FC3_AutoStep⟩,
    ⟨_, allow_parse ok_FC4_Bootloader⟩,
    ⟨_, allow_parse ok_FC3_Cdrom⟩,
    ⟨_, allow_parse ok_FC3_ClearPart⟩,
    ⟨_, allow_parse ok_FC3_DisplayMode⟩,
    ⟨_, allow_parse ok_FC3_Device⟩,
    ⟨_, allow_parse ok_FC3_DeviceProbe⟩,
    ⟨_, allow_parse ok_FC4_DriverDisk_FC4_DriverDiskData⟩,
    ⟨_, allow_parse ok_FC3_Firewall⟩,
    ⟨_, allow_parse ok_FC3_Firstboot⟩,
    ⟨_, allow_parse ok_FC3_DisplayMode⟩,
    ⟨_, allow_parse ok_FC3_Reboot⟩,
    ⟨_, allow_parse ok_FC3_HardDrive⟩,
    ⟨_, allow_parse ok_FC3_IgnoreDisk⟩,
    ⟨_, allow_parse ok_FC3_Upgrade⟩,
    ⟨_, allow_parse ok_FC3_Interactive⟩,
    ⟨_, allow_parse ok_FC3_Keyboard⟩,
    ⟨_, allow_parse ok_FC3_Lang⟩,
    ⟨_, allow_parse ok_FC3_LangSupport⟩,
    ⟨_, allow_parse ok_FC4_Lilo⟩,
    ⟨_, allow_parse ok_FC4_LiloCheck⟩,
    ⟨_, allow_parse ok_FC4_LogVol_FC4_LogVolData⟩,
    ⟨_, allow_parse ok_FC4_MediaCheck⟩,
    ⟨_, allow_method (by decide) ok_FC3_Method⟩,
    ⟨_, allow_parse ok_FC3_Monitor⟩,
    ⟨_, allow_parse ok_FC3_Mouse⟩,
    ⟨_, allow_parse ok_FC4_Network_FC4_NetworkData⟩,
    ⟨_, allow_parse ok_FC3_NFS⟩,
    ⟨_, allow_parse ok_FC4_Partition_FC4_PartData⟩,
    ⟨_, allow_parse ok_FC4_Partition_FC4_PartData⟩,
    ⟨_, allow_parse ok_FC3_Reboot⟩,
    ⟨_, allow_raid (by decide) ok_FC4_Raid_FC4_RaidData⟩,
    ⟨_, allow_parse ok_FC3_Reboot⟩,
    ⟨_, allow_parse ok_FC3_RootPw⟩,
    ⟨_, allow_parse ok_FC3_SELinux⟩,
    ⟨_, allow_parse ok_FC3_Reboot⟩,
    ⟨_, allow_parse ok_FC3_SkipX⟩,
    ⟨_, allow_parse ok_FC3_DisplayMode⟩,
    ⟨_, allow_parse ok_FC3_Timezone⟩,
    ⟨_, allow_parse ok_FC3_Upgrade⟩,
    ⟨_, allow_parse ok_FC3_Url⟩,
    ⟨_, allow_parse ok_FC3_Vnc⟩,
    ⟨_, allow_parse ok_FC3_VolGroup_FC3_VolGroupData⟩,
    ⟨_, allow_parse ok_FC3_XConfig⟩,
    ⟨_, allow_parse ok_FC3_ZeroMbr⟩,
    ⟨_, allow_parse ok_FC3_ZFCP_FC3_ZFCPData⟩,
    List.forall_mem_nil _⟩

def classesFC4 : List Command := [FC3_Authconfig.cls, FC3_AutoPart.cls, FC3_AutoStep.cls, FC4_Bootloader.cls, FC3_Cdrom.cls, FC3_ClearPart.cls, FC3_DisplayMode.cls, FC3_Device.cls, FC3_DeviceProbe.cls, FC4_DriverDisk.cls FC4_DriverDiskData.cls, FC3_Firewall.cls, FC3_Firstboot.cls, FC3_Reboot.cls, FC3_HardDrive.cls, FC3_IgnoreDisk.cls, FC3_Upgrade.cls, FC3_Interactive.cls, FC3_Keyboard.cls, FC3_Lang.cls, FC3_LangSupport.cls, FC4_Lilo.cls, FC4_LiloCheck.cls, FC4_LogVol.cls FC4_LogVolData.cls, FC4_MediaCheck.cls, FC3_Method.cls, FC3_Monitor.cls, FC3_Mouse.cls, FC4_Network.cls FC4_NetworkData.cls, FC3_NFS.cls, FC4_Partition.cls FC4_PartData.cls, FC4_Raid.cls FC4_RaidData.cls, FC3_RootPw.cls, FC3_SELinux.cls, FC3_SkipX.cls, FC3_Timezone.cls, FC3_Url.cls, FC3_Vnc.cls, FC3_VolGroup.cls FC3_VolGroupData.cls, FC3_XConfig.cls, FC3_ZeroMbr.cls, FC3_ZFCP.cls FC3_ZFCPData.cls]

theorem commandMapFC4_mapOk : MapOk Version.FC4 commandMapFC4 where
  dict := nodup_codes (by decide +kernel)
  classes := ⟨classesFC4, [c!"FC3_Authconfig", c!"FC3_AutoPart", c!"FC3_AutoStep", c!"FC4_Bootloader", c!"FC3_Cdrom", c!"FC3_ClearPart", c!"FC3_DisplayMode", c!"FC3_Device", c!"FC3_DeviceProbe", c!"FC4_DriverDisk", c!"FC3_Firewall", c!"FC3_Firstboot", c!"FC3_Reboot", c!"FC3_HardDrive", c!"FC3_IgnoreDisk", c!"FC3_Upgrade", c!"FC3_Interactive", c!"FC3_Keyboard", c!"FC3_Lang", c!"FC3_LangSupport", c!"FC4_Lilo", c!"FC4_LiloCheck", c!"FC4_LogVol", c!"FC4_MediaCheck", c!"FC3_Method", c!"FC3_Monitor", c!"FC3_Mouse", c!"FC4_Network", c!"FC3_NFS", c!"FC4_Partition", c!"FC4_Raid", c!"FC3_RootPw", c!"FC3_SELinux", c!"FC3_SkipX", c!"FC3_Timezone", c!"FC3_Url", c!"FC3_Vnc", c!"FC3_VolGroup", c!"FC3_XConfig", c!"FC3_ZeroMbr", c!"FC3_ZFCP"], [c!"authconfig", c!"autopart", c!"autostep", c!"bootloader", c!"cdrom", c!"clearpart", c!"displaymode", c!"device", c!"deviceprobe", c!"driverdisk", c!"firewall", c!"firstboot", c!"reboot", c!"harddrive", c!"ignoredisk", c!"upgrade", c!"interactive", c!"keyboard", c!"lang", c!"langsupport", c!"lilo", c!"lilocheck", c!"logvol", c!"mediacheck", c!"method", c!"monitor", c!"mouse", c!"network", c!"nfs", c!"partition", c!"raid", c!"rootpw", c!"selinux", c!"skipx", c!"timezone", c!"url", c!"vnc", c!"volgroup", c!"xconfig", c!"zerombr", c!"zfcp"], rfl, by decide +kernel, nodup_codes (by decide +kernel), nodup_codes (by decide +kernel), by
    unfold commandMapFC4
    exact (forall_mem_cons' (mem_at 0 rfl) (forall_mem_cons' (mem_at 0 rfl) (forall_mem_cons' (mem_at 1 rfl) (forall_mem_cons' (mem_at 2 rfl) (forall_mem_cons' (mem_at 3 rfl) (forall_mem_cons' (mem_at 4 rfl) (forall_mem_cons' (mem_at 5 rfl) (forall_mem_cons' (mem_at 6 rfl) (forall_mem_cons' (mem_at 7 rfl) (forall_mem_cons' (mem_at 8 rfl) (forall_mem_cons' (mem_at 9 rfl) (forall_mem_cons' (mem_at 10 rfl) (forall_mem_cons' (mem_at 11 rfl) (forall_mem_cons' (mem_at 6 rfl) (forall_mem_cons' (mem_at 12 rfl) (forall_mem_cons' (mem_at 13 rfl) (forall_mem_cons' (mem_at 14 rfl) (forall_mem_cons' (mem_at 15 rfl) (forall_mem_cons' (mem_at 16 rfl) (forall_mem_cons' (mem_at 17 rfl) (forall_mem_cons' (mem_at 18 rfl) (forall_mem_cons' (mem_at 19 rfl) (forall_mem_cons' (mem_at 20 rfl) (forall_mem_cons' (mem_at 21 rfl) (forall_mem_cons' (mem_at 22 rfl) (forall_mem_cons' (mem_at 23 rfl) (forall_mem_cons' (mem_at 24 rfl) (forall_mem_cons' (mem_at 25 rfl) (forall_mem_cons' (mem_at 26 rfl) (forall_mem_cons' (mem_at 27 rfl) (forall_mem_cons' (mem_at 28 rfl) (forall_mem_cons' (mem_at 29 rfl) (forall_mem_cons' (mem_at 29 rfl) (forall_mem_cons' (mem_at 12 rfl) (forall_mem_cons' (mem_at 30 rfl) (forall_mem_cons' (mem_at 12 rfl) (forall_mem_cons' (mem_at 31 rfl) (forall_mem_cons' (mem_at 32 rfl) (forall_mem_cons' (mem_at 12 rfl) (forall_mem_cons' (mem_at 33 rfl) (forall_mem_cons' (mem_at 6 rfl) (forall_mem_cons' (mem_at 34 rfl) (forall_mem_cons' (mem_at 15 rfl) (forall_mem_cons' (mem_at 35 rfl) (forall_mem_cons' (mem_at 36 rfl) (forall_mem_cons' (mem_at 37 rfl) (forall_mem_cons' (mem_at 38 rfl) (forall_mem_cons' (mem_at 39 rfl) (forall_mem_cons' (mem_at 40 rfl) (List.forall_mem_nil _))))))))))))))))))))))))))))))))))))))))))))))))))⟩
  storage := by decide +kernel
  ok := commandMapFC4_ok

theorem commandMapFC5_ok : ∀ x ∈ commandMapFC5, ∃ I, x.2.Ok I (Allowed Version.FC5 x.1) := by
  unfold commandMapFC5
  simp only [List.forall_mem_cons]
  exact ⟨⟨_, allow_parse ok_FC3_Authconfig⟩,
    ⟨_, allow_parse ok_FC3_Authconfig⟩,
    ⟨_, allow_parse ok_FC3_AutoPart⟩,
    ⟨_, allow_parse ok_FC3_AutoStep⟩,
    ⟨_, allow_parse ok_FC4_Bootloader⟩,
    ⟨_, allow_parse ok_FC3_Cdrom⟩,
    ⟨_, allow_parse ok_FC3_ClearPart⟩,
    ⟨_, allow_parse ok_FC3_DisplayMode⟩,
    ⟨_, allow_parse ok_FC3_Device⟩,
    ⟨_, allow_parse ok_FC3_DeviceProbe⟩,
    ⟨_, allow_parse ok_FC4_DriverDisk_FC4_DriverDiskData⟩,
    ⟨_, allow_parse ok_FC3_Firewall⟩,
    ⟨_, allow_parse ok_FC3_Firstboot⟩,
    ⟨_, allow_parse ok_FC3_DisplayMode⟩,
    ⟨_, allow_parse ok_FC3_Reboot⟩,
    ⟨_, allow_parse ok_FC3_HardDrive⟩,
    ⟨_, allow_parse ok_FC3_IgnoreDisk⟩,
    ⟨_, allow_parse ok_FC3_Upgrade⟩,
    ⟨_, allow_parse ok_FC3_Interactive⟩,
    ⟨_, allow_parse ok_FC3_Keyboard⟩,
    ⟨_, allow_parse ok_FC3_Lang⟩,
    ⟨_, allow_parse ok_FC5_LangSupport⟩,
    ⟨_, allow_parse ok_FC4_LogVol_FC4_LogVolData⟩,
    ⟨_, allow_parse ok_FC4_MediaCheck⟩,
    ⟨_, allow_method (by decide) ok_FC3_Method⟩,
    ⟨_, allow_parse ok_FC3_Monitor⟩,
    ⟨_, allow_parse ok_FC3_Mouse⟩,
    ⟨_, allow_parse ok_FC4_Network_FC4_NetworkData⟩,
    ⟨_, allow_parse ok_FC3_NFS⟩,
    ⟨_, allow_parse ok_FC4_Partition_FC4_PartData⟩,
    ⟨_, allow_parse ok_FC4_Partition_FC4_PartData⟩,
    ⟨_, allow_parse ok_FC3_Reboot⟩,
    ⟨_, allow_raid (by decide) ok_FC5_Raid_FC5_RaidData⟩,
    ⟨_, allow_parse ok_FC3_Reboot⟩,
    ⟨_, allow_parse ok_FC3_RootPw⟩,
    ⟨_, allow_parse ok_FC3_SELinux⟩,
    ⟨_, allow_parse ok_FC3_Reboot⟩,
    ⟨_, allow_parse ok_FC3_SkipX⟩,
    ⟨_, allow_parse ok_FC3_DisplayMode⟩,
    ⟨_, allow_parse ok_FC3_Timezone⟩,
    ⟨_, allow_parse ok_FC3_Upgrade⟩,
    ⟨_, allow_parse ok_FC3_Url⟩,
    ⟨_, allow_parse ok_FC3_Vnc⟩,
    ⟨_, allow_parse ok_FC3_VolGroup_FC3_VolGroupData⟩,
    ⟨_, allow_parse ok_FC3_XConfig⟩,
    ⟨_, allow_parse ok_FC3_ZeroMbr⟩,
    ⟨_, allow_parse ok_FC3_ZFCP_FC3_ZFCPData⟩,
    List.forall_mem_nil _⟩

def classesFC5 : List Command := [FC3_Authconfig.cls, FC3_AutoPart.cls, FC3_AutoStep.cls, FC4_Bootloader.cls, FC3_Cdrom.cls, FC3_ClearPart.cls, FC3_DisplayMode.cls, FC3_Device.cls, FC3_DeviceProbe.cls, FC4_DriverDisk.cls FC4_DriverDiskData.cls, FC3_Firewall.cls, FC3_Firstboot.cls, FC3_Reboot.cls, FC3_HardDrive.cls, FC3_IgnoreDisk.cls, FC3_Upgrade.cls, FC3_Interactive.cls, FC3_Keyboard.cls, FC3_Lang.cls, FC5_LangSupport.cls, FC4_LogVol.cls FC4_LogVolData.cls, FC4_MediaCheck.cls, FC3_Method.cls, FC3_Monitor.cls, FC3_Mouse.cls, FC4_Network.cls FC4_NetworkData.cls, FC3_NFS.cls, FC4_Partition.cls FC4_PartData.cls, FC5_Raid.cls FC5_RaidData.cls, FC3_RootPw.cls, FC3_SELinux.cls, FC3_SkipX.cls, FC3_Timezone.cls, FC3_Url.cls, FC3_Vnc.cls, FC3_VolGroup.cls FC3_VolGroupData.cls, FC3_XConfig.cls, FC3_ZeroMbr.cls, FC3_ZFCP.cls FC3_ZFCPData.cls]

theorem commandMapFC5_mapOk : MapOk Version.FC5 commandMapFC5 where
  dict := nodup_codes (by decide +kernel)
  classes := ⟨classesFC5, [c!"FC3_Authconfig", c!"FC3_AutoPart", c!"FC3_AutoStep", c!"FC4_Bootloader", c!"FC3_Cdrom", c!"FC3_ClearPart", c!"FC3_DisplayMode", c!"FC3_Device", c!"FC3_DeviceProbe", c!"FC4_DriverDisk", c!"FC3_Firewall", c!"FC3_Firstboot", c!"FC3_Reboot", c!"FC3_HardDrive", c!"FC3_IgnoreDisk", c!"FC3_Upgrade", c!"FC3_Interactive", c!"FC3_Keyboard", c!"FC3_Lang", c!"FC5_LangSupport", c!"FC4_LogVol", c!"FC4_MediaCheck", c!"FC3_Method", c!"FC3_Monitor", c!"FC3_Mouse", c!"FC4_Network", c!"FC3_NFS", c!"FC4_Partition", c!"FC5_Raid", c!"FC3_RootPw", c!"FC3_SELinux", c!"FC3_SkipX", c!"FC3_Timezone", c!"FC3_Url", c!"FC3_Vnc", c!"FC3_VolGroup", c!"FC3_XConfig", c!"FC3_ZeroMbr", c!"FC3_ZFCP"], [c!"authconfig", c!"autopart", c!"autostep", c!"bootloader", c!"cdrom", c!"clearpart", c!"displaymode", c!"device", c!"deviceprobe", c!"driverdisk", c!"firewall", c!"firstboot", c!"reboot", c!"harddrive", c!"ignoredisk", c!"upgrade", c!"interactive", c!"keyboard", c!"lang", c!"langsupport", c!"logvol", c!"mediacheck", c!"method", c!"monitor", c!"mouse", c!"network", c!"nfs", c!"partition", c!"raid", c!"rootpw", c!"selinux", c!"skipx", c!"timezone", c!"url", c!"vnc", c!"volgroup", c!"xconfig", c!"zerombr", c!"zfcp"], rfl, by decide +kernel, nodup_codes (by decide +kernel), nodup_codes (by decide +kernel), by
    unfold commandMapFC5
    exact (forall_mem_cons' (mem_at 0 rfl) (forall_mem_cons' (mem_at 0 rfl) (forall_mem_cons' (mem_at 1 rfl) (forall_mem_cons' (mem_at 2 rfl) (forall_mem_cons' (mem_at 3 rfl) (forall_mem_cons' (mem_at 4 rfl) (forall_mem_cons' (mem_at 5 rfl) (forall_mem_cons' (mem_at 6 rfl) (forall_mem_cons' (mem_at 7 rfl) (forall_mem_cons' (mem_at 8 rfl) (forall_mem_cons' (mem_at 9 rfl) (forall_mem_cons' (mem_at 10 rfl) (forall_mem_cons' (mem_at 11 rfl) (forall_mem_cons' (mem_at 6 rfl) (forall_mem_cons' (mem_at 12 rfl) (forall_mem_cons' (mem_at 13 rfl) (forall_mem_cons' (mem_at 14 rfl) (forall_mem_cons' (mem_at 15 rfl) (forall_mem_cons' (mem_at 16 rfl) (forall_mem_cons' (mem_at 17 rfl) (forall_mem_cons' (mem_at 18 rfl) (forall_mem_cons' (mem_at 19 rfl) (forall_mem_cons' (mem_at 20 rfl) (forall_mem_cons' (mem_at 21 rfl) (forall_mem_cons' (mem_at 22 rfl) (forall_mem_cons' (mem_at 23 rfl) (forall_mem_cons' (mem_at 24 rfl) (forall_mem_cons' (mem_at 25 rfl) (forall_mem_cons' (mem_at 26 rfl) (forall_mem_cons' (mem_at 27 rfl) (forall_mem_cons' (mem_at 27 rfl) (forall_mem_cons' (mem_at 12 rfl) (forall_mem_cons' (mem_at 28 rfl) (forall_mem_cons' (mem_at 12 rfl) (forall_mem_cons' (mem_at 29 rfl) (forall_mem_cons' (mem_at 30 rfl) (forall_mem_cons' (mem_at 12 rfl) (forall_mem_cons' (mem_at 31 rfl) (forall_mem_cons' (mem_at 6 rfl) (forall_mem_cons' (mem_at 32 rfl) (forall_mem_cons' (mem_at 15 rfl) (forall_mem_cons' (mem_at 33 rfl) (forall_mem_cons' (mem_at 34 rfl) (forall_mem_cons' (mem_at 35 rfl) (forall_mem_cons' (mem_at 36 rfl) (forall_mem_cons' (mem_at 37 rfl) (forall_mem_cons' (mem_at 38 rfl) (List.forall_mem_nil _))))))))))))))))))))))))))))))))))))))))))))))))⟩
  storage := by decide +kernel
  ok := commandMapFC5_ok

theorem commandMapFC6_ok : ∀ x ∈ commandMapFC6, ∃ I, x.2.Ok I (Allowed Version.FC6 x.1) := by
  unfold commandMapFC6
  simp only [List.forall_mem_cons]
  exact ⟨⟨_, allow_parse ok_FC3_Authconfig⟩,
    ⟨_, allow_parse ok_FC3_Authconfig⟩,
    ⟨_, allow_parse ok_FC3_AutoPart⟩,
    ⟨_, allow_parse ok_FC3_AutoStep⟩,
    ⟨_, allow_parse ok_FC4_Bootloader⟩,
    ⟨_, allow_parse ok_FC3_Cdrom⟩,
    ⟨_, allow_parse ok_FC3_ClearPart⟩,
    ⟨_, allow_parse ok_FC3_DisplayMode⟩,
    ⟨_, allow_parse ok_FC3_Device⟩,
    ⟨_, allow_parse ok_FC3_DeviceProbe⟩,
    ⟨_, allow_parse ok_FC6_DmRaid_FC6_DmRaidData⟩,
    ⟨_, allow_parse ok_FC4_DriverDisk_FC4_DriverDiskData⟩,
    ⟨_, allow_parse ok_FC3_Firewall⟩,
    ⟨_, allow_parse ok_FC3_Firstboot⟩,
    ⟨_, allow_parse ok_FC3_DisplayMode⟩,
    ⟨_, allow_parse ok_FC6_Reboot⟩,
    ⟨_, allow_parse ok_FC3_HardDrive⟩,
    ⟨_, allow_parse ok_FC3_IgnoreDisk⟩,
    ⟨_, allow_parse ok_FC3_Upgrade⟩,
    ⟨_, allow_parse ok_FC3_Interactive⟩,
    ⟨_, allow_parse ok_FC6_Iscsi_FC6_IscsiData⟩,
    ⟨_, allow_parse ok_FC6_IscsiName⟩,
    ⟨_, allow_parse ok_FC3_Keyboard⟩,
    ⟨_, allow_parse ok_FC3_Lang⟩,
    ⟨_, allow_parse ok_FC5_LangSupport⟩,
    ⟨_, allow_parse ok_FC6_Logging⟩,
    ⟨_, allow_parse ok_FC4_LogVol_FC4_LogVolData⟩,
    ⟨_, allow_parse ok_FC4_MediaCheck⟩,
    ⟨_, allow_method (by decide) ok_FC6_Method⟩,
    ⟨_, allow_parse ok_FC6_Monitor⟩,
    ⟨_, allow_parse ok_FC3_Mouse⟩,
    ⟨_, allow_multipath (by decide) ok_FC6_MultiPath_FC6_MultiPathData⟩,
    ⟨_, allow_parse ok_FC6_Network_FC6_NetworkData⟩,
    ⟨_, allow_parse ok_FC6_NFS⟩,
    ⟨_, allow_parse ok_FC4_Partition_FC4_PartData⟩,
    ⟨_, allow_parse ok_FC4_Partition_FC4_PartData⟩,
    ⟨_, allow_parse ok_FC6_Reboot⟩,
    ⟨_, allow_raid (by decide) ok_FC5_Raid_FC5_RaidData⟩,
    ⟨_, allow_parse ok_FC6_Reboot⟩,
    ⟨_, allow_parse ok_FC6_Repo_FC6_RepoData⟩,
    ⟨_, allow_parse ok_FC3_RootPw⟩,
    ⟨_, allow_parse ok_FC3_SELinux⟩,
    ⟨_, allow_parse ok_FC6_Services⟩,
    ⟨_, allow_parse ok_FC6_Reboot⟩,
    ⟨_, allow_parse ok_FC3_SkipX⟩,
    ⟨_, allow_parse ok_FC3_DisplayMode⟩,
    ⟨_, allow_parse ok_FC6_Timezone⟩,
    ⟨_, allow_parse ok_FC3_Upgrade⟩,
    ⟨_, allow_parse ok_FC6_User_FC6_UserData⟩,
    ⟨_, allow_parse ok_FC3_Url⟩,
    ⟨_, allow_parse ok_FC6_Vnc⟩,
    ⟨_, allow_parse ok_FC3_VolGroup_FC3_VolGroupData⟩,
    ⟨_, allow_parse ok_FC6_XConfig⟩,
    ⟨_, allow_parse ok_FC3_ZeroMbr⟩,
    ⟨_, allow_parse ok_FC3_ZFCP_FC3_ZFCPData⟩,
    List.forall_mem_nil _⟩

def classesFC6 : List Command := [FC3_Authconfig.cls, FC3_AutoPart.cls, FC3_AutoStep.cls, FC4_Bootloader.cls, FC3_Cdrom.cls, FC3_ClearPart.cls, FC3_DisplayMode.cls, FC3_Device.cls, FC3_DeviceProbe.cls, FC6_DmRaid.cls FC6_DmRaidData.cls, FC4_DriverDisk.cls FC4_DriverDiskData.cls, FC3_Firewall.cls, FC3_Firstboot.cls, FC6_Reboot.cls, FC3_HardDrive.cls, FC3_IgnoreDisk.cls, FC3_Upgrade.cls, FC3_Interactive.cls, FC6_Iscsi.cls FC6_IscsiData.cls, FC6_IscsiName.cls, FC3_Keyboard.cls, FC3_Lang.cls, FC5_LangSupport.cls, FC6_Logging.cls, FC4_LogVol.cls FC4_LogVolData.cls, FC4_MediaCheck.cls, FC6_Method.cls, FC6_Monitor.cls, FC3_Mouse.cls, FC6_MultiPath.cls FC6_MultiPathData.cls, FC6_Network.cls FC6_NetworkData.cls, FC6_NFS.cls, FC4_Partition.cls FC4_PartData.cls, FC5_Raid.cls FC5_RaidData.cls, FC6_Repo.cls FC6_RepoData.cls, FC3_RootPw.cls, FC3_SELinux.cls, FC6_Services.cls, FC3_SkipX.cls, FC6_Timezone.cls, FC6_User.cls FC6_UserData.cls, FC3_Url.cls, FC6_Vnc.cls, FC3_VolGroup.cls FC3_VolGroupData.cls, FC6_XConfig.cls, FC3_ZeroMbr.cls, FC3_ZFCP.cls FC3_ZFCPData.cls]

theorem commandMapFC6_mapOk : MapOk Version.FC6 commandMapFC6 where
  dict := nodup_codes (by decide +kernel)
  classes := ⟨classesFC6, [c!"FC3_Authconfig", c!"FC3_AutoPart", c!"FC3_AutoStep", c!"FC4_Bootloader", c!"FC3_Cdrom", c!"FC3_ClearPart", c!"FC3_DisplayMode", c!"FC3_Device", c!"FC3_DeviceProbe", c!"FC6_DmRaid", c!"FC4_DriverDisk", c!"FC3_Firewall", c!"FC3_Firstboot", c!"FC6_Reboot", c!"FC3_HardDrive", c!"FC3_IgnoreDisk", c!"FC3_Upgrade", c!"FC3_Interactive", c!"FC6_Iscsi", c!"FC6_IscsiName", c!"FC3_Keyboard", c!"FC3_Lang", c!"FC5_LangSupport", c!"FC6_Logging", c!"FC4_LogVol", c!"FC4_MediaCheck", c!"FC6_Method", c!"FC6_Monitor", c!"FC3_Mouse", c!"FC6_MultiPath", c!"FC6_Network", c!"FC6_NFS", c!"FC4_Partition", c!"FC5_Raid", c!"FC6_Repo", c!"FC3_RootPw", c!"FC3_SELinux", c!"FC6_Services", c!"FC3_SkipX", c!"FC6_Timezone", c!"FC6_User", c!"FC3_Url", c!"FC6_Vnc", c!"FC3_VolGroup", c!"FC6_XConfig", c!"FC3_ZeroMbr", c!"FC3_ZFCP"], [c!"authconfig", c!"autopart", c!"autostep", c!"bootloader", c!"cdrom", c!"clearpart", c!"displaymode", c!"device", c!"deviceprobe", c!"dmraid", c!"driverdisk", c!"firewall", c!"firstboot", c!"reboot", c!"harddrive", c!"ignoredisk", c!"upgrade", c!"interactive", c!"iscsi", c!"iscsiname", c!"keyboard", c!"lang", c!"langsupport", c!"logging", c!"logvol", c!"mediacheck", c!"method", c!"monitor", c!"mouse", c!"multipath", c!"network", c!"nfs", c!"partition", c!"raid", c!"repo", c!"rootpw", c!"selinux", c!"services", c!"skipx", c!"timezone", c!"user", c!"url", c!"vnc", c!"volgroup", c!"xconfig", c!"zerombr", c!"zfcp"], rfl, by decide +kernel, nodup_codes (by decide +kernel), nodup_codes (by decide +kernel), by
    unfold commandMapFC6
    exact (forall_mem_cons' (mem_at 0 rfl) (forall_mem_cons' (mem_at 0 rfl) (forall_mem_cons' (mem_at 1 rfl) (forall_mem_cons' (mem_at 2 rfl) (forall_mem_cons' (mem_at 3 rfl) (forall_mem_cons' (mem_at 4 rfl) (forall_mem_cons' (mem_at 5 rfl) (forall_mem_cons' (mem_at 6 rfl) (forall_mem_cons' (mem_at 7 rfl) (forall_mem_cons' (mem_at 8 rfl) (forall_mem_cons' (mem_at 9 rfl) (forall_mem_cons' (mem_at 10 rfl) (forall_mem_cons' (mem_at 11 rfl) (forall_mem_cons' (mem_at 12 rfl) (forall_mem_cons' (mem_at 6 rfl) (forall_mem_cons' (mem_at 13 rfl) (forall_mem_cons' (mem_at 14 rfl) (forall_mem_cons' (mem_at 15 rfl) (forall_mem_cons' (mem_at 16 rfl) (forall_mem_cons' (mem_at 17 rfl) (forall_mem_cons' (mem_at 18 rfl) (forall_mem_cons' (mem_at 19 rfl) (forall_mem_cons' (mem_at 20 rfl) (forall_mem_cons' (mem_at 21 rfl) (forall_mem_cons' (mem_at 22 rfl) (forall_mem_cons' (mem_at 23 rfl) (forall_mem_cons' (mem_at 24 rfl) (forall_mem_cons' (mem_at 25 rfl) (forall_mem_cons' (mem_at 26 rfl) (forall_mem_cons' (mem_at 27 rfl) (forall_mem_cons' (mem_at 28 rfl) (forall_mem_cons' (mem_at 29 rfl) (forall_mem_cons' (mem_at 30 rfl) (forall_mem_cons' (mem_at 31 rfl) (forall_mem_cons' (mem_at 32 rfl) (forall_mem_cons' (mem_at 32 rfl) (forall_mem_cons' (mem_at 13 rfl) (forall_mem_cons' (mem_at 33 rfl) (forall_mem_cons' (mem_at 13 rfl) (forall_mem_cons' (mem_at 34 rfl) (forall_mem_cons' (mem_at 35 rfl) (forall_mem_cons' (mem_at 36 rfl) (forall_mem_cons' (mem_at 37 rfl) (forall_mem_cons' (mem_at 13 rfl) (forall_mem_cons' (mem_at 38 rfl) (forall_mem_cons' (mem_at 6 rfl) (forall_mem_cons' (mem_at 39 rfl) (forall_mem_cons' (mem_at 16 rfl) (forall_mem_cons' (mem_at 40 rfl) (forall_mem_cons' (mem_at 41 rfl) (forall_mem_cons' (mem_at 42 rfl) (forall_mem_cons' (mem_at 43 rfl) (forall_mem_cons' (mem_at 44 rfl) (forall_mem_cons' (mem_at 45 rfl) (forall_mem_cons' (mem_at 46 rfl) (List.forall_mem_nil _))))))))))))))))))))))))))))))))))))))))))))))))))))))))⟩
  storage := by decide +kernel
  ok := commandMapFC6_ok

theorem commandMapRHEL3_ok : ∀ x ∈ commandMapRHEL3, ∃ I, x.2.Ok I (Allowed Version.RHEL3 x.1) := by
  unfold commandMapRHEL3
  simp only [List.forall_mem_cons]
  exact ⟨⟨_, allow_parse ok_FC3_Authconfig⟩,
    ⟨_, allow_parse ok_FC3_Authconfig⟩,
    ⟨_, allow_parse ok_FC3_AutoPart⟩,
    ⟨_, allow_parse ok_FC3_AutoStep⟩,
    ⟨_, allow_parse ok_FC3_Bootloader⟩,
    ⟨_, allow_parse ok_FC3_Cdrom⟩,
    ⟨_, allow_parse ok_FC3_ClearPart⟩,
    ⟨_, allow_parse ok_FC3_DisplayMode⟩,
    ⟨_, allow_parse ok_FC3_Device⟩,
    ⟨_, allow_parse ok_FC3_DeviceProbe⟩,
    ⟨_, allow_parse ok_FC3_DriverDisk_FC3_DriverDiskData⟩,
    ⟨_, allow_parse ok_FC3_Firewall⟩,
    ⟨_, allow_parse ok_FC3_Firstboot⟩,
    ⟨_, allow_parse ok_FC3_DisplayMode⟩,
    ⟨_, allow_parse ok_FC3_Reboot⟩,
    ⟨_, allow_parse ok_FC3_HardDrive⟩,
    ⟨_, allow_parse ok_FC3_IgnoreDisk⟩,
    ⟨_, allow_parse ok_FC3_Upgrade⟩,
    ⟨_, allow_parse ok_FC3_Interactive⟩,
    ⟨_, allow_parse ok_FC3_Keyboard⟩,
    ⟨_, allow_parse ok_FC3_Lang⟩,
    ⟨_, allow_parse ok_FC3_LangSupport⟩,
    ⟨_, allow_parse ok_FC3_Lilo⟩,
    ⟨_, allow_parse ok_FC3_LiloCheck⟩,
    ⟨_, allow_parse ok_FC3_LogVol_FC3_LogVolData⟩,
    ⟨_, allow_method (by decide) ok_FC3_Method⟩,
    ⟨_, allow_parse ok_FC3_Monitor⟩,
    ⟨_, allow_parse ok_RHEL3_Mouse⟩,
    ⟨_, allow_parse ok_FC3_Network_RHEL4_NetworkData⟩,
    ⟨_, allow_parse ok_FC3_NFS⟩,
    ⟨_, allow_parse ok_FC3_Partition_FC3_PartData⟩,
    ⟨_, allow_parse ok_FC3_Partition_FC3_PartData⟩,
    ⟨_, allow_parse ok_FC3_Reboot⟩,
    ⟨_, allow_raid (by decide) ok_FC3_Raid_FC3_RaidData⟩,
    ⟨_, allow_parse ok_FC3_Reboot⟩,
    ⟨_, allow_parse ok_FC3_RootPw⟩,
    ⟨_, allow_parse ok_FC3_Reboot⟩,
    ⟨_, allow_parse ok_FC3_SkipX⟩,
    ⟨_, allow_parse ok_FC3_DisplayMode⟩,
    ⟨_, allow_parse ok_FC3_Timezone⟩,
    ⟨_, allow_parse ok_FC3_Upgrade⟩,
    ⟨_, allow_parse ok_FC3_Url⟩,
    ⟨_, allow_parse ok_FC3_Vnc⟩,
    ⟨_, allow_parse ok_FC3_VolGroup_FC3_VolGroupData⟩,
    ⟨_, allow_parse ok_FC3_XConfig⟩,
    ⟨_, allow_parse ok_FC3_ZeroMbr⟩,
    List.forall_mem_nil _⟩

def classesRHEL3 : List Command := [FC3_Authconfig.cls, FC3_AutoPart.cls, FC3_AutoStep.cls, FC3_Bootloader.cls, FC3_Cdrom.cls, FC3_ClearPart.cls, FC3_DisplayMode.cls, FC3_Device.cls, FC3_DeviceProbe.cls, FC3_DriverDisk.cls FC3_DriverDiskData.cls, FC3_Firewall.cls, FC3_Firstboot.cls, FC3_Reboot.cls, FC3_HardDrive.cls, FC3_IgnoreDisk.cls, FC3_Upgrade.cls, FC3_Interactive.cls, FC3_Keyboard.cls, FC3_Lang.cls, FC3_LangSupport.cls, FC3_Lilo.cls, FC3_LiloCheck.cls, FC3_LogVol.cls FC3_LogVolData.cls, FC3_Method.cls, FC3_Monitor.cls, RHEL3_Mouse.cls, FC3_Network.cls RHEL4_NetworkData.cls, FC3_NFS.cls, FC3_Partition.cls FC3_PartData.cls, FC3_Raid.cls FC3_RaidData.cls, FC3_RootPw.cls, FC3_SkipX.cls, FC3_Timezone.cls, FC3_Url.cls, FC3_Vnc.cls, FC3_VolGroup.cls FC3_VolGroupData.cls, FC3_XConfig.cls, FC3_ZeroMbr.cls]

theorem commandMapRHEL3_mapOk : MapOk Version.RHEL3 commandMapRHEL3 where
  dict := nodup_codes (by decide +kernel)
  classes := ⟨classesRHEL3, [c!"FC3_Authconfig", c!"FC3_AutoPart", c!"FC3_AutoStep", c!"FC3_Bootloader", c!"FC3_Cdrom", c!"FC3_ClearPart", c!"FC3_DisplayMode", c!"FC3_Device", c!"FC3_DeviceProbe", c!"FC3_DriverDisk", c!"FC3_Firewall", c!"FC3_Firstboot", c!"FC3_Reboot", c!"FC3_HardDrive", c!"FC3_IgnoreDisk", c!"FC3_Upgrade", c!"FC3_Interactive", c!"FC3_Keyboard", c!"FC3_Lang", c!"FC3_LangSupport", c!"FC3_Lilo", c!"FC3_LiloCheck", c!"FC3_LogVol", c!"FC3_Method", c!"FC3_Monitor", c!"RHEL3_Mouse", c!"FC3_Network", c!"FC3_NFS", c!"FC3_Partition", c!"FC3_Raid", c!"FC3_RootPw", c!"FC3_SkipX", c!"FC3_Timezone", c!"FC3_Url", c!"FC3_Vnc", c!"FC3_VolGroup", c!"FC3_XConfig", c!"FC3_ZeroMbr"], [c!"authconfig", c!"autopart", c!"autostep", c!"bootloader", c!"cdrom", c!"clearpart", c!"displaymode", c!"device", c!"deviceprobe", c!"driverdisk", c!"firewall", c!"firstboot", c!"reboot", c!"harddrive", c!"ignoredisk", c!"upgrade", c!"interactive", c!"keyboard", c!"lang", c!"langsupport", c!"lilo", c!"lilocheck", c!"logvol", c!"method", c!"monitor", c!"mouse", c!"network", c!"nfs", c!"partition", c!"raid", c!"rootpw", c!"skipx", c!"timezone", c!"url", c!"vnc", c!"volgroup", c!"xconfig", c!"zerombr"], rfl, by decide +kernel, nodup_codes (by decide +kernel), nodup_codes (by decide +kernel), by
    unfold commandMapRHEL3
    exact (forall_mem_cons' (mem_at 0 rfl) (forall_mem_cons' (mem_at 0 rfl) (forall_mem_cons' (mem_at 1 rfl) (forall_mem_cons' (mem_at 2 rfl) (forall_mem_cons' (mem_at 3 rfl) (forall_mem_cons' (mem_at 4 rfl) (forall_mem_cons' (mem_at 5 rfl) (forall_mem_cons' (mem_at 6 rfl) (forall_mem_cons' (mem_at 7 rfl) (forall_mem_cons' (mem_at 8 rfl) (forall_mem_cons' (mem_at 9 rfl) (forall_mem_cons' (mem_at 10 rfl) (forall_mem_cons' (mem_at 11 rfl) (forall_mem_cons' (mem_at 6 rfl) (forall_mem_cons' (mem_at 12 rfl) (forall_mem_cons' (mem_at 13 rfl) (forall_mem_cons' (mem_at 14 rfl) (forall_mem_cons' (mem_at 15 rfl) (forall_mem_cons' (mem_at 16 rfl) (forall_mem_cons' (mem_at 17 rfl) (forall_mem_cons' (mem_at 18 rfl) (forall_mem_cons' (mem_at 19 rfl) (forall_mem_cons' (mem_at 20 rfl) (forall_mem_cons' (mem_at 21 rfl) (forall_mem_cons' (mem_at 22 rfl) (forall_mem_cons' (mem_at 23 rfl) (forall_mem_cons' (mem_at 24 rfl) (forall_mem_cons' (mem_at 25 rfl) (forall_mem_cons' (mem_at 26 rfl) (forall_mem_cons' (mem_at 27 rfl) (forall_mem_cons' (mem_at 28 rfl) (forall_mem_cons' (mem_at 28 rfl) (forall_mem_cons' (mem_at 12 rfl) (forall_mem_cons' (mem_at 29 rfl) (forall_mem_cons' (mem_at 12 rfl) (forall_mem_cons' (mem_at 30 rfl) (forall_mem_cons' (mem_at 12 rfl) (forall_mem_cons' (mem_at 31 rfl) (forall_mem_cons' (mem_at 6 rfl) (forall_mem_cons' (mem_at 32 rfl) (forall_mem_cons' (mem_at 15 rfl) (forall_mem_cons' (mem_at 33 rfl) (forall_mem_cons' (mem_at 34 rfl) (forall_mem_cons' (mem_at 35 rfl) (forall_mem_cons' (mem_at 36 rfl) (forall_mem_cons' (mem_at 37 rfl) (List.forall_mem_nil _)))))))))))))))))))))))))))))))))))))))))))))))⟩
  storage := by decide +kernel
  ok := commandMapRHEL3_ok

theorem commandMapRHEL4_ok : ∀ x ∈ commandMapRHEL4, ∃ I, x.2.Ok I (Allowed Version.RHEL4 x.1) := by
  unfold commandMapRHEL4
  simp only [List.forall_mem_cons]
  exact ⟨⟨_, allow_parse ok_FC3_Authconfig⟩,
    ⟨_, allow_parse ok_FC3_Authconfig⟩,
    ⟨_, allow_parse ok_FC3_AutoPart⟩,
    ⟨_, allow_parse ok_FC3_AutoStep⟩,
    ⟨_, allow_parse ok_FC3_Bootloader⟩,
    ⟨_, allow_parse ok_FC3_Cdrom⟩,
    ⟨_, allow_parse ok_FC3_ClearPart⟩,
    ⟨_, allow_parse ok_FC3_DisplayMode⟩,
    ⟨_, allow_parse ok_FC3_Device⟩,
    ⟨_, allow_parse ok_FC3_DeviceProbe⟩,
    ⟨_, allow_parse ok_FC4_DriverDisk_FC4_DriverDiskData⟩,
    ⟨_, allow_parse ok_FC3_Firewall⟩,
    ⟨_, allow_parse ok_FC3_Firstboot⟩,
    ⟨_, allow_parse ok_FC3_DisplayMode⟩,
    ⟨_, allow_parse ok_FC3_Reboot⟩,
    ⟨_, allow_parse ok_FC3_HardDrive⟩,
    ⟨_, allow_parse ok_F8_IgnoreDisk⟩,
    ⟨_, allow_parse ok_FC3_Upgrade⟩,
    ⟨_, allow_parse ok_FC3_Interactive⟩,
    ⟨_, allow_parse ok_FC3_Keyboard⟩,
    ⟨_, allow_parse ok_FC3_Lang⟩,
    ⟨_, allow_parse ok_FC3_LangSupport⟩,
    ⟨_, allow_parse ok_FC3_Lilo⟩,
    ⟨_, allow_parse ok_FC3_LiloCheck⟩,
    ⟨_, allow_parse ok_FC3_LogVol_FC3_LogVolData⟩,
    ⟨_, allow_method (by decide) ok_FC3_Method⟩,
    ⟨_, allow_parse ok_FC3_Monitor⟩,
    ⟨_, allow_parse ok_FC3_Mouse⟩,
    ⟨_, allow_parse ok_RHEL4_Network_RHEL4_NetworkData⟩,
    ⟨_, allow_parse ok_FC3_NFS⟩,
    ⟨_, allow_parse ok_FC3_Partition_FC3_PartData⟩,
    ⟨_, allow_parse ok_FC3_Partition_FC3_PartData⟩,
    ⟨_, allow_parse ok_FC3_Reboot⟩,
    ⟨_, allow_raid (by decide) ok_FC3_Raid_FC3_RaidData⟩,
    ⟨_, allow_parse ok_FC3_Reboot⟩,
    ⟨_, allow_parse ok_FC3_RootPw⟩,
    ⟨_, allow_parse ok_FC3_SELinux⟩,
    ⟨_, allow_parse ok_FC3_Reboot⟩,
    ⟨_, allow_parse ok_FC3_SkipX⟩,
    ⟨_, allow_parse ok_FC3_DisplayMode⟩,
    ⟨_, allow_parse ok_FC3_Timezone⟩,
    ⟨_, allow_parse ok_FC3_Upgrade⟩,
    ⟨_, allow_parse ok_FC3_Url⟩,
    ⟨_, allow_parse ok_FC3_Vnc⟩,
    ⟨_, allow_parse ok_FC3_VolGroup_FC3_VolGroupData⟩,
    ⟨_, allow_parse ok_FC3_XConfig⟩,
    ⟨_, allow_parse ok_FC3_ZeroMbr⟩,
    ⟨_, allow_parse ok_FC3_ZFCP_FC3_ZFCPData⟩,
    List.forall_mem_nil _⟩

def classesRHEL4 : List Command := [FC3_Authconfig.cls, FC3_AutoPart.cls, FC3_AutoStep.cls, FC3_Bootloader.cls, FC3_Cdrom.cls, FC3_ClearPart.cls, FC3_DisplayMode.cls, FC3_Device.cls, FC3_DeviceProbe.cls, FC4_DriverDisk.cls FC4_DriverDiskData.cls, FC3_Firewall.cls, FC3_Firstboot.cls, FC3_Reboot.cls, FC3_HardDrive.cls, F8_IgnoreDisk.cls, FC3_Upgrade.cls, FC3_Interactive.cls, FC3_Keyboard.cls, FC3_Lang.cls, FC3_LangSupport.cls, FC3_Lilo.cls, FC3_LiloCheck.cls, FC3_LogVol.cls FC3_LogVolData.cls, FC3_Method.cls, FC3_Monitor.cls, FC3_Mouse.cls, RHEL4_Network.cls RHEL4_NetworkData.cls, FC3_NFS.cls, FC3_Partition.cls FC3_PartData.cls, FC3_Raid.cls FC3_RaidData.cls, FC3_RootPw.cls, FC3_SELinux.cls, FC3_SkipX.cls, FC3_Timezone.cls, FC3_Url.cls, FC3_Vnc.cls, FC3_VolGroup.cls FC3_VolGroupData.cls, FC3_XConfig.cls, FC3_ZeroMbr.cls, FC3_ZFCP.cls FC3_ZFCPData.cls]

theorem commandMapRHEL4_mapOk : MapOk Version.RHEL4 commandMapRHEL4 where
  dict := nodup_codes (by decide +kernel)
  classes := ⟨classesRHEL4, [c!"FC3_Authconfig", c!"FC3_AutoPart", c!"FC3_AutoStep", c!"FC3_Bootloader", c!"FC3_Cdrom", c!"FC3_ClearPart", c!"FC3_DisplayMode", c!"FC3_Device", c!"FC3_DeviceProbe", c!"FC4_DriverDisk", c!"FC3_Firewall", c!"FC3_Firstboot", c!"FC3_Reboot", c!"FC3_HardDrive", c!"F8_IgnoreDisk", c!"FC3_Upgrade", c!"FC3_Interactive", c!"FC3_Keyboard", c!"FC3_Lang", c!"FC3_LangSupport", c!"FC3_Lilo", c!"FC3_LiloCheck", c!"FC3_LogVol", c!"FC3_Method", c!"FC3_Monitor", c!"FC3_Mouse", c!"RHEL4_Network", c!"FC3_NFS", c!"FC3_Partition", c!"FC3_Raid", c!"FC3_RootPw", c!"FC3_SELinux", c!"FC3_SkipX", c!"FC3_Timezone", c!"FC3_Url", c!"FC3_Vnc", c!"FC3_VolGroup", c!"FC3_XConfig", c!"FC3_ZeroMbr", c!"FC3_ZFCP"], [c!"authconfig", c!"autopart", c!"autostep", c!"bootloader", c!"cdrom", c!"clearpart", c!"displaymode", c!"device", c!"deviceprobe", c!"driverdisk", c!"firewall", c!"firstboot", c!"reboot", c!"harddrive", c!"ignoredisk", c!"upgrade", c!"interactive", c!"keyboard", c!"lang", c!"langsupport", c!"lilo", c!"lilocheck", c!"logvol", c!"method", c!"monitor", c!"mouse", c!"network", c!"nfs", c!"partition", c!"raid", c!"rootpw", c!"selinux", c!"skipx", c!"timezone", c!"url", c!"vnc", c!"volgroup", c!"xconfig", c!"zerombr", c!"zfcp"], rfl, by decide +kernel, nodup_codes (by decide +kernel), nodup_codes (by decide +kernel), by
    unfold commandMapRHEL4
    exact (forall_mem_cons' (mem_at 0 rfl) (forall_mem_cons' (mem_at 0 rfl) (forall_mem_cons' (mem_at 1 rfl) (forall_mem_cons' (mem_at 2 rfl) (forall_mem_cons' (mem_at 3 rfl) (forall_mem_cons' (mem_at 4 rfl) (forall_mem_cons' (mem_at 5 rfl) (forall_mem_cons' (mem_at 6 rfl) (forall_mem_cons' (mem_at 7 rfl) (forall_mem_cons' (mem_at 8 rfl) (forall_mem_cons' (mem_at 9 rfl) (forall_mem_cons' (mem_at 10 rfl) (forall_mem_cons' (mem_at 11 rfl) (forall_mem_cons' (mem_at 6 rfl) (forall_mem_cons' (mem_at 12 rfl) (forall_mem_cons' (mem_at 13 rfl) (forall_mem_cons' (mem_at 14 rfl) (forall_mem_cons' (mem_at 15 rfl) (forall_mem_cons' (mem_at 16 rfl) (forall_mem_cons' (mem_at 17 rfl) (forall_mem_cons' (mem_at 18 rfl) (forall_mem_cons' (mem_at 19 rfl) (forall_mem_cons' (mem_at 20 rfl) (forall_mem_cons' (mem_at 21 rfl) (forall_mem_cons' (mem_at 22 rfl) (forall_mem_cons' (mem_at 23 rfl) (forall_mem_cons' (mem_at 24 rfl) (forall_mem_cons' (mem_at 25 rfl) (forall_mem_cons' (mem_at 26 rfl) (forall_mem_cons' (mem_at 27 rfl) (forall_mem_cons' (mem_at 28 rfl) (forall_mem_cons' (mem_at 28 rfl) (forall_mem_cons' (mem_at 12 rfl) (forall_mem_cons' (mem_at 29 rfl) (forall_mem_cons' (mem_at 12 rfl) (forall_mem_cons' (mem_at 30 rfl) (forall_mem_cons' (mem_at 31 rfl) (forall_mem_cons' (mem_at 12 rfl) (forall_mem_cons' (mem_at 32 rfl) (forall_mem_cons' (mem_at 6 rfl) (forall_mem_cons' (mem_at 33 rfl) (forall_mem_cons' (mem_at 15 rfl) (forall_mem_cons' (mem_at 34 rfl) (forall_mem_cons' (mem_at 35 rfl) (forall_mem_cons' (mem_at 36 rfl) (forall_mem_cons' (mem_at 37 rfl) (forall_mem_cons' (mem_at 38 rfl) (forall_mem_cons' (mem_at 39 rfl) (List.forall_mem_nil _)))))))))))))))))))))))))))))))))))))))))))))))))⟩
  storage := by decide +kernel
  ok := commandMapRHEL4_ok

theorem commandMapRHEL5_ok : ∀ x ∈ commandMapRHEL5, ∃ I, x.2.Ok I (Allowed Version.RHEL5 x.1) := by
  unfold commandMapRHEL5
  simp only [List.forall_mem_cons]
  exact ⟨⟨_, allow_parse ok_FC3_Authconfig⟩,
    ⟨_, allow_parse ok_FC3_Authconfig⟩,
    ⟨_, allow_parse ok_F9_AutoPart⟩,
    ⟨_, allow_parse ok_FC3_AutoStep⟩,
    ⟨_, allow_parse ok_RHEL5_Bootloader⟩,
    ⟨_, allow_parse ok_FC3_Cdrom⟩,
    ⟨_, allow_parse ok_FC3_ClearPart⟩,
    ⟨_, allow_parse ok_FC3_DisplayMode⟩,
    ⟨_, allow_parse ok_FC3_Device⟩,
    ⟨_, allow_parse ok_FC3_DeviceProbe⟩,
    ⟨_, allow_parse ok_FC6_DmRaid_FC6_DmRaidData⟩,
    ⟨_, allow_parse ok_F12_DriverDisk_F12_DriverDiskData⟩,
    ⟨_, allow_parse ok_FC3_Firewall⟩,
    ⟨_, allow_parse ok_FC3_Firstboot⟩,
    ⟨_, allow_parse ok_FC3_DisplayMode⟩,
    ⟨_, allow_parse ok_FC6_Reboot⟩,
    ⟨_, allow_parse ok_FC3_HardDrive⟩,
    ⟨_, allow_parse ok_F8_IgnoreDisk⟩,
    ⟨_, allow_parse ok_FC3_Upgrade⟩,
    ⟨_, allow_parse ok_FC3_Interactive⟩,
    ⟨_, allow_parse ok_FC6_Iscsi_FC6_IscsiData⟩,
    ⟨_, allow_parse ok_FC6_IscsiName⟩,
    ⟨_, allow_parse ok_RHEL5_Key⟩,
    ⟨_, allow_parse ok_FC3_Keyboard⟩,
    ⟨_, allow_parse ok_FC3_Lang⟩,
    ⟨_, allow_parse ok_FC5_LangSupport⟩,
    ⟨_, allow_parse ok_FC6_Logging⟩,
    ⟨_, allow_parse ok_RHEL5_LogVol_RHEL5_LogVolData⟩,
    ⟨_, allow_parse ok_FC4_MediaCheck⟩,
    ⟨_, allow_method (by decide) ok_FC6_Method⟩,
    ⟨_, allow_parse ok_FC6_Monitor⟩,
    ⟨_, allow_parse ok_FC3_Mouse⟩,
    ⟨_, allow_multipath (by decide) ok_FC6_MultiPath_FC6_MultiPathData⟩,
    ⟨_, allow_parse ok_RHEL5_Network_FC6_NetworkData⟩,
    ⟨_, allow_parse ok_FC6_NFS⟩,
    ⟨_, allow_parse ok_RHEL5_Partition_RHEL5_PartData⟩,
    ⟨_, allow_parse ok_RHEL5_Partition_RHEL5_PartData⟩,
    ⟨_, allow_parse ok_FC6_Reboot⟩,
    ⟨_, allow_raid (by decide) ok_RHEL5_Raid_RHEL5_RaidData⟩,
    ⟨_, allow_parse ok_FC6_Reboot⟩,
    ⟨_, allow_parse ok_FC6_Repo_FC6_RepoData⟩,
    ⟨_, allow_parse ok_FC3_RootPw⟩,
    ⟨_, allow_parse ok_FC6_Services⟩,
    ⟨_, allow_parse ok_FC3_SELinux⟩,
    ⟨_, allow_parse ok_FC6_Reboot⟩,
    ⟨_, allow_parse ok_FC3_SkipX⟩,
    ⟨_, allow_parse ok_FC3_DisplayMode⟩,
    ⟨_, allow_parse ok_FC6_Timezone⟩,
    ⟨_, allow_parse ok_FC3_Upgrade⟩,
    ⟨_, allow_parse ok_FC6_User_FC6_UserData⟩,
    ⟨_, allow_parse ok_FC3_Url⟩,
    ⟨_, allow_parse ok_FC6_Vnc⟩,
    ⟨_, allow_parse ok_FC3_VolGroup_FC3_VolGroupData⟩,
    ⟨_, allow_parse ok_FC6_XConfig⟩,
    ⟨_, allow_parse ok_FC3_ZeroMbr⟩,
    ⟨_, allow_parse ok_FC3_ZFCP_FC3_ZFCPData⟩,
    List.forall_mem_nil _⟩

def classesRHEL5 : List Command := [FC3_Authconfig.cls, F9_AutoPart.cls, FC3_AutoStep.cls, RHEL5_Bootloader.cls, FC3_Cdrom.cls, FC3_ClearPart.cls, FC3_DisplayMode.cls, FC3_Device.cls, FC3_DeviceProbe.cls, FC6_DmRaid.cls FC6_DmRaidData.cls, F12_DriverDisk.cls F12_DriverDiskData.cls, FC3_Firewall.cls, FC3_Firstboot.cls, FC6_Reboot.cls, FC3_HardDrive.cls, F8_IgnoreDisk.cls, FC3_Upgrade.cls, FC3_Interactive.cls, FC6_Iscsi.cls FC6_IscsiData.cls, FC6_IscsiName.cls, RHEL5_Key.cls, FC3_Keyboard.cls, FC3_Lang.cls, FC5_LangSupport.cls, FC6_Logging.cls, RHEL5_LogVol.cls RHEL5_LogVolData.cls, FC4_MediaCheck.cls, FC6_Method.cls, FC6_Monitor.cls, FC3_Mouse.cls, FC6_MultiPath.cls FC6_MultiPathData.cls, RHEL5_Network.cls FC6_NetworkData.cls, FC6_NFS.cls, RHEL5_Partition.cls RHEL5_PartData.cls, RHEL5_Raid.cls RHEL5_RaidData.cls, FC6_Repo.cls FC6_RepoData.cls, FC3_RootPw.cls, FC6_Services.cls, FC3_SELinux.cls, FC3_SkipX.cls, FC6_Timezone.cls, FC6_User.cls FC6_UserData.cls, FC3_Url.cls, FC6_Vnc.cls, FC3_VolGroup.cls FC3_VolGroupData.cls, FC6_XConfig.cls, FC3_ZeroMbr.cls, FC3_ZFCP.cls FC3_ZFCPData.cls]

theorem commandMapRHEL5_mapOk : MapOk Version.RHEL5 commandMapRHEL5 where
  dict := nodup_codes (by decide +kernel)
  classes := ⟨classesRHEL5, [c!"FC3_Authconfig", c!"F9_AutoPart", c!"FC3_AutoStep", c!"RHEL5_Bootloader", c!"FC3_Cdrom", c!"FC3_ClearPart", c!"FC3_DisplayMode", c!"FC3_Device", c!"FC3_DeviceProbe", c!"FC6_DmRaid", c!"F12_DriverDisk", c!"FC3_Firewall", c!"FC3_Firstboot", c!"FC6_Reboot", c!"FC3_HardDrive", c!"F8_IgnoreDisk", c!"FC3_Upgrade", c!"FC3_Interactive", c!"FC6_Iscsi", c!"FC6_IscsiName", c!"RHEL5_Key", c!"FC3_Keyboard", c!"FC3_Lang", c!"FC5_LangSupport", c!"FC6_Logging", c!"RHEL5_LogVol", c!"FC4_MediaCheck", c!"FC6_Method", c!"FC6_Monitor", c!"FC3_Mouse", c!"FC6_MultiPath", c!"RHEL5_Network", c!"FC6_NFS", c!"RHEL5_Partition", c!"RHEL5_Raid", c!"FC6_Repo", c!"FC3_RootPw", c!"FC6_Services", c!"FC3_SELinux", c!"FC3_SkipX", c!"FC6_Timezone", c!"FC6_User", c!"FC3_Url", c!"FC6_Vnc", c!"FC3_VolGroup", c!"FC6_XConfig", c!"FC3_ZeroMbr", c!"FC3_ZFCP"], [c!"authconfig", c!"autopart", c!"autostep", c!"bootloader", c!"cdrom", c!"clearpart", c!"displaymode", c!"device", c!"deviceprobe", c!"dmraid", c!"driverdisk", c!"firewall", c!"firstboot", c!"reboot", c!"harddrive", c!"ignoredisk", c!"upgrade", c!"interactive", c!"iscsi", c!"iscsiname", c!"key", c!"keyboard", c!"lang", c!"langsupport", c!"logging", c!"logvol", c!"mediacheck", c!"method", c!"monitor", c!"mouse", c!"multipath", c!"network", c!"nfs", c!"partition", c!"raid", c!"repo", c!"rootpw", c!"services", c!"selinux", c!"skipx", c!"timezone", c!"user", c!"url", c!"vnc", c!"volgroup", c!"xconfig", c!"zerombr", c!"zfcp"], rfl, by decide +kernel, nodup_codes (by decide +kernel), nodup_codes (by decide +kernel), by
    unfold commandMapRHEL5
    exact (forall_mem_cons' (mem_at 0 rfl) (forall_mem_cons' (mem_at 0 rfl) (forall_mem_cons' (mem_at 1 rfl) (forall_mem_cons' (mem_at 2 rfl) (forall_mem_cons' (mem_at 3 rfl) (forall_mem_cons' (mem_at 4 rfl) (forall_mem_cons' (mem_at 5 rfl) (forall_mem_cons' (mem_at 6 rfl) (forall_mem_cons' (mem_at 7 rfl) (forall_mem_cons' (mem_at 8 rfl) (forall_mem_cons' (mem_at 9 rfl) (forall_mem_cons' (mem_at 10 rfl) (forall_mem_cons' (mem_at 11 rfl) (forall_mem_cons' (mem_at 12 rfl) (forall_mem_cons' (mem_at 6 rfl) (forall_mem_cons' (mem_at 13 rfl) (forall_mem_cons' (mem_at 14 rfl) (forall_mem_cons' (mem_at 15 rfl) (forall_mem_cons' (mem_at 16 rfl) (forall_mem_cons' (mem_at 17 rfl) (forall_mem_cons' (mem_at 18 rfl) (forall_mem_cons' (mem_at 19 rfl) (forall_mem_cons' (mem_at 20 rfl) (forall_mem_cons' (mem_at 21 rfl) (forall_mem_cons' (mem_at 22 rfl) (forall_mem_cons' (mem_at 23 rfl) (forall_mem_cons' (mem_at 24 rfl) (forall_mem_cons' (mem_at 25 rfl) (forall_mem_cons' (mem_at 26 rfl) (forall_mem_cons' (mem_at 27 rfl) (forall_mem_cons' (mem_at 28 rfl) (forall_mem_cons' (mem_at 29 rfl) (forall_mem_cons' (mem_at 30 rfl) (forall_mem_cons' (mem_at 31 rfl) (forall_mem_cons' (mem_at 32 rfl) (forall_mem_cons' (mem_at 33 rfl) (forall_mem_cons' (mem_at 33 rfl) (forall_mem_cons' (mem_at 13 rfl) (forall_mem_cons' (mem_at 34 rfl) (forall_mem_cons' (mem_at 13 rfl) (forall_mem_cons' (mem_at 35 rfl) (forall_mem_cons' (mem_at 36 rfl) (forall_mem_cons' (mem_at 37 rfl) (forall_mem_cons' (mem_at 38 rfl) (forall_mem_cons' (mem_at 13 rfl) (forall_mem_cons' (mem_at 39 rfl) (forall_mem_cons' (mem_at 6 rfl) (forall_mem_cons' (mem_at 40 rfl) (forall_mem_cons' (mem_at 16 rfl) (forall_mem_cons' (mem_at 41 rfl) (forall_mem_cons' (mem_at 42 rfl) (forall_mem_cons' (mem_at 43 rfl) (forall_mem_cons' (mem_at 44 rfl) (forall_mem_cons' (mem_at 45 rfl) (forall_mem_cons' (mem_at 46 rfl) (forall_mem_cons' (mem_at 47 rfl) (List.forall_mem_nil _)))))))))))))))))))))))))))))))))))))))))))))))))))))))))⟩
  storage := by decide +kernel
  ok := commandMapRHEL5_ok

theorem commandMapRHEL6_ok : ∀ x ∈ commandMapRHEL6, ∃ I, x.2.Ok I (Allowed Version.RHEL6 x.1) := by
  unfold commandMapRHEL6
  simp only [List.forall_mem_cons]
  exact ⟨⟨_, allow_parse ok_FC3_Authconfig⟩,
    ⟨_, allow_parse ok_FC3_Authconfig⟩,
    ⟨_, allow_parse ok_RHEL6_AutoPart⟩,
    ⟨_, allow_parse ok_FC3_AutoStep⟩,
    ⟨_, allow_parse ok_RHEL6_Bootloader⟩,
    ⟨_, allow_parse ok_FC3_Cdrom⟩,
    ⟨_, allow_parse ok_FC3_ClearPart⟩,
    ⟨_, allow_parse ok_FC3_DisplayMode⟩,
    ⟨_, allow_parse ok_F8_Device_F8_DeviceData⟩,
    ⟨_, allow_parse ok_FC3_DeviceProbe⟩,
    ⟨_, allow_parse ok_FC6_DmRaid_FC6_DmRaidData⟩,
    ⟨_, allow_parse ok_F12_DriverDisk_F12_DriverDiskData⟩,
    ⟨_, allow_parse ok_F13_Fcoe_F13_FcoeData⟩,
    ⟨_, allow_parse ok_F10_Firewall⟩,
    ⟨_, allow_parse ok_FC3_Firstboot⟩,
    ⟨_, allow_parse ok_FC3_DisplayMode⟩,
    ⟨_, allow_parse ok_F12_Group_F12_GroupData⟩,
    ⟨_, allow_parse ok_FC6_Reboot⟩,
    ⟨_, allow_parse ok_FC3_HardDrive⟩,
    ⟨_, allow_parse ok_RHEL6_IgnoreDisk⟩,
    ⟨_, allow_parse ok_F11_Upgrade⟩,
    ⟨_, allow_parse ok_FC3_Interactive⟩,
    ⟨_, allow_parse ok_RHEL6_Iscsi_RHEL6_IscsiData⟩,
    ⟨_, allow_parse ok_FC6_IscsiName⟩,
    ⟨_, allow_parse ok_RHEL5_Key⟩,
    ⟨_, allow_parse ok_FC3_Keyboard⟩,
    ⟨_, allow_parse ok_FC3_Lang⟩,
    ⟨_, allow_parse ok_FC6_Logging⟩,
    ⟨_, allow_parse ok_RHEL6_LogVol_RHEL6_LogVolData⟩,
    ⟨_, allow_parse ok_FC4_MediaCheck⟩,
    ⟨_, allow_method (by decide) ok_RHEL6_Method⟩,
    ⟨_, allow_parse ok_F10_Monitor⟩,
    ⟨_, allow_multipath (by decide) ok_FC6_MultiPath_FC6_MultiPathData⟩,
    ⟨_, allow_parse ok_RHEL6_Network_RHEL6_NetworkData⟩,
    ⟨_, allow_parse ok_FC6_NFS⟩,
    ⟨_, allow_parse ok_RHEL6_Partition_RHEL6_PartData⟩,
    ⟨_, allow_parse ok_RHEL6_Partition_RHEL6_PartData⟩,
    ⟨_, allow_parse ok_FC6_Reboot⟩,
    ⟨_, allow_raid (by decide) ok_RHEL6_Raid_RHEL6_RaidData⟩,
    ⟨_, allow_parse ok_FC6_Reboot⟩,
    ⟨_, allow_parse ok_RHEL6_Repo_RHEL6_RepoData⟩,
    ⟨_, allow_parse ok_F10_Rescue⟩,
    ⟨_, allow_parse ok_F8_RootPw⟩,
    ⟨_, allow_parse ok_FC3_SELinux⟩,
    ⟨_, allow_parse ok_FC6_Services⟩,
    ⟨_, allow_parse ok_FC6_Reboot⟩,
    ⟨_, allow_parse ok_FC3_SkipX⟩,
    ⟨_, allow_parse ok_F13_SshPw_F13_SshPwData⟩,
    ⟨_, allow_parse ok_FC3_DisplayMode⟩,
    ⟨_, allow_parse ok_FC6_Timezone⟩,
    ⟨_, allow_parse ok_RHEL6_UnsupportedHardware⟩,
    ⟨_, allow_parse ok_F7_Updates⟩,
    ⟨_, allow_parse ok_F11_Upgrade⟩,
    ⟨_, allow_parse ok_RHEL6_Url⟩,
    ⟨_, allow_parse ok_F12_User_F12_UserData⟩,
    ⟨_, allow_parse ok_F9_Vnc⟩,
    ⟨_, allow_parse ok_F16_VolGroup_F16_VolGroupData⟩,
    ⟨_, allow_parse ok_F10_XConfig⟩,
    ⟨_, allow_parse ok_F9_ZeroMbr⟩,
    ⟨_, allow_parse ok_F12_ZFCP_F12_ZFCPData⟩,
    List.forall_mem_nil _⟩

def classesRHEL6 : List Command := [FC3_Authconfig.cls, RHEL6_AutoPart.cls, FC3_AutoStep.cls, RHEL6_Bootloader.cls, FC3_Cdrom.cls, FC3_ClearPart.cls, FC3_DisplayMode.cls, F8_Device.cls F8_DeviceData.cls, FC3_DeviceProbe.cls, FC6_DmRaid.cls FC6_DmRaidData.cls, F12_DriverDisk.cls F12_DriverDiskData.cls, F13_Fcoe.cls F13_FcoeData.cls, F10_Firewall.cls, FC3_Firstboot.cls, F12_Group.cls F12_GroupData.cls, FC6_Reboot.cls, FC3_HardDrive.cls, RHEL6_IgnoreDisk.cls, F11_Upgrade.cls, FC3_Interactive.cls, RHEL6_Iscsi.cls RHEL6_IscsiData.cls, FC6_IscsiName.cls, RHEL5_Key.cls, FC3_Keyboard.cls, FC3_Lang.cls, FC6_Logging.cls, RHEL6_LogVol.cls RHEL6_LogVolData.cls, FC4_MediaCheck.cls, RHEL6_Method.cls, F10_Monitor.cls, FC6_MultiPath.cls FC6_MultiPathData.cls, RHEL6_Network.cls RHEL6_NetworkData.cls, FC6_NFS.cls, RHEL6_Partition.cls RHEL6_PartData.cls, RHEL6_Raid.cls RHEL6_RaidData.cls, RHEL6_Repo.cls RHEL6_RepoData.cls, F10_Rescue.cls, F8_RootPw.cls, FC3_SELinux.cls, FC6_Services.cls, FC3_SkipX.cls, F13_SshPw.cls F13_SshPwData.cls, FC6_Timezone.cls, RHEL6_UnsupportedHardware.cls, F7_Updates.cls, RHEL6_Url.cls, F12_User.cls F12_UserData.cls, F9_Vnc.cls, F16_VolGroup.cls F16_VolGroupData.cls, F10_XConfig.cls, F9_ZeroMbr.cls, F12_ZFCP.cls F12_ZFCPData.cls]

theorem commandMapRHEL6_mapOk : MapOk Version.RHEL6 commandMapRHEL6 where
  dict := nodup_codes (by decide +kernel)
  classes := ⟨classesRHEL6, [c!"FC3_Authconfig", c!"RHEL6_AutoPart", c!"FC3_AutoStep", c!"RHEL6_Bootloader", c!"FC3_Cdrom", c!"FC3_ClearPart", c!"FC3_DisplayMode", c!"F8_Device", c!"FC3_DeviceProbe", c!"FC6_DmRaid", c!"F12_DriverDisk", c!"F13_Fcoe", c!"F10_Firewall", c!"FC3_Firstboot", c!"F12_Group", c!"FC6_Reboot", c!"FC3_HardDrive", c!"RHEL6_IgnoreDisk", c!"F11_Upgrade", c!"FC3_Interactive", c!"RHEL6_Iscsi", c!"FC6_IscsiName", c!"RHEL5_Key", c!"FC3_Keyboard", c!"FC3_Lang", c!"FC6_Logging", c!"RHEL6_LogVol", c!"FC4_MediaCheck", c!"RHEL6_Method", c!"F10_Monitor", c!"FC6_MultiPath", c!"RHEL6_Network", c!"FC6_NFS", c!"RHEL6_Partition", c!"RHEL6_Raid", c!"RHEL6_Repo", c!"F10_Rescue", c!"F8_RootPw", c!"FC3_SELinux", c!"FC6_Services", c!"FC3_SkipX", c!"F13_SshPw", c!"FC6_Timezone", c!"RHEL6_UnsupportedHardware", c!"F7_Updates", c!"RHEL6_Url", c!"F12_User", c!"F9_Vnc", c!"F16_VolGroup", c!"F10_XConfig", c!"F9_ZeroMbr", c!"F12_ZFCP"], [c!"authconfig", c!"autopart", c!"autostep", c!"bootloader", c!"cdrom", c!"clearpart", c!"displaymode", c!"device", c!"deviceprobe", c!"dmraid", c!"driverdisk", c!"fcoe", c!"firewall", c!"firstboot", c!"group", c!"reboot", c!"harddrive", c!"ignoredisk", c!"upgrade", c!"interactive", c!"iscsi", c!"iscsiname", c!"key", c!"keyboard", c!"lang", c!"logging", c!"logvol", c!"mediacheck", c!"method", c!"monitor", c!"multipath", c!"network", c!"nfs", c!"partition", c!"raid", c!"repo", c!"rescue", c!"rootpw", c!"selinux", c!"services", c!"skipx", c!"sshpw", c!"timezone", c!"unsupportedhardware", c!"updates", c!"url", c!"user", c!"vnc", c!"volgroup", c!"xconfig", c!"zerombr", c!"zfcp"], rfl, by decide +kernel, nodup_codes (by decide +kernel), nodup_codes (by decide +kernel), by
    unfold commandMapRHEL6
    exact (forall_mem_cons' (mem_at 0 rfl) (forall_mem_cons' (mem_at 0 rfl) (forall_mem_cons' (mem_at 1 rfl) (forall_mem_cons' (mem_at 2 rfl) (forall_mem_cons' (mem_at 3 rfl) (forall_mem_cons' (mem_at 4 rfl) (forall_mem_cons' (mem_at 5 rfl) (forall_mem_cons' (mem_at 6 rfl) (forall_mem_cons' (mem_at 7 rfl) (forall_mem_cons' (mem_at 8 rfl) (forall_mem_cons' (mem_at 9 rfl) (forall_mem_cons' (mem_at 10 rfl) (forall_mem_cons' (mem_at 11 rfl) (forall_mem_cons' (mem_at 12 rfl) (forall_mem_cons' (mem_at 13 rfl) (forall_mem_cons' (mem_at 6 rfl) (forall_mem_cons' (mem_at 14 rfl) (forall_mem_cons' (mem_at 15 rfl) (forall_mem_cons' (mem_at 16 rfl) (forall_mem_cons' (mem_at 17 rfl) (forall_mem_cons' (mem_at 18 rfl) (forall_mem_cons' (mem_at 19 rfl) (forall_mem_cons' (mem_at 20 rfl) (forall_mem_cons' (mem_at 21 rfl) (forall_mem_cons' (mem_at 22 rfl) (forall_mem_cons' (mem_at 23 rfl) (forall_mem_cons' (mem_at 24 rfl) (forall_mem_cons' (mem_at 25 rfl) (forall_mem_cons' (mem_at 26 rfl) (forall_mem_cons' (mem_at 27 rfl) (forall_mem_cons' (mem_at 28 rfl) (forall_mem_cons' (mem_at 29 rfl) (forall_mem_cons' (mem_at 30 rfl) (forall_mem_cons' (mem_at 31 rfl) (forall_mem_cons' (mem_at 32 rfl) (forall_mem_cons' (mem_at 33 rfl) (forall_mem_cons' (mem_at 33 rfl) (forall_mem_cons' (mem_at 15 rfl) (forall_mem_cons' (mem_at 34 rfl) (forall_mem_cons' (mem_at 15 rfl) (forall_mem_cons' (mem_at 35 rfl) (forall_mem_cons' (mem_at 36 rfl) (forall_mem_cons' (mem_at 37 rfl) (forall_mem_cons' (mem_at 38 rfl) (forall_mem_cons' (mem_at 39 rfl) (forall_mem_cons' (mem_at 15 rfl) (forall_mem_cons' (mem_at 40 rfl) (forall_mem_cons' (mem_at 41 rfl) (forall_mem_cons' (mem_at 6 rfl) (forall_mem_cons' (mem_at 42 rfl) (forall_mem_cons' (mem_at 43 rfl) (forall_mem_cons' (mem_at 44 rfl) (forall_mem_cons' (mem_at 18 rfl) (forall_mem_cons' (mem_at 45 rfl) (forall_mem_cons' (mem_at 46 rfl) (forall_mem_cons' (mem_at 47 rfl) (forall_mem_cons' (mem_at 48 rfl) (forall_mem_cons' (mem_at 49 rfl) (forall_mem_cons' (mem_at 50 rfl) (forall_mem_cons' (mem_at 51 rfl) (List.forall_mem_nil _)))))))))))))))))))))))))))))))))))))))))))))))))))))))))))))⟩
  storage := by decide +kernel
  ok := commandMapRHEL6_ok

theorem commandMapRHEL7_ok : ∀ x ∈ commandMapRHEL7, ∃ I, x.2.Ok I (Allowed Version.RHEL7 x.1) := by
  unfold commandMapRHEL7
  simp only [List.forall_mem_cons]
  exact ⟨⟨_, allow_parse ok_FC3_Authconfig⟩,
    ⟨_, allow_parse ok_FC3_Authconfig⟩,
    ⟨_, allow_parse ok_RHEL7_AutoPart⟩,
    ⟨_, allow_parse ok_FC3_AutoStep⟩,
    ⟨_, allow_parse ok_RHEL7_Bootloader⟩,
    ⟨_, allow_parse ok_RHEL7_BTRFS_RHEL7_BTRFSData⟩,
    ⟨_, allow_parse ok_FC3_Cdrom⟩,
    ⟨_, allow_parse ok_RHEL7_ClearPart⟩,
    ⟨_, allow_parse ok_FC3_DisplayMode⟩,
    ⟨_, allow_parse ok_F8_Device_F8_DeviceData⟩,
    ⟨_, allow_parse ok_FC3_DeviceProbe⟩,
    ⟨_, allow_parse ok_FC6_DmRaid_FC6_DmRaidData⟩,
    ⟨_, allow_parse ok_F14_DriverDisk_F14_DriverDiskData⟩,
    ⟨_, allow_parse ok_F20_Eula⟩,
    ⟨_, allow_parse ok_RHEL7_Fcoe_RHEL7_FcoeData⟩,
    ⟨_, allow_parse ok_F20_Firewall⟩,
    ⟨_, allow_parse ok_FC3_Firstboot⟩,
    ⟨_, allow_parse ok_FC3_DisplayMode⟩,
    ⟨_, allow_parse ok_F12_Group_F12_GroupData⟩,
    ⟨_, allow_parse ok_F18_Reboot⟩,
    ⟨_, allow_parse ok_FC3_HardDrive⟩,
    ⟨_, allow_parse ok_RHEL7_Hmc⟩,
    ⟨_, allow_parse ok_F14_IgnoreDisk⟩,
    ⟨_, allow_parse ok_F11_Upgrade⟩,
    ⟨_, allow_parse ok_F17_Iscsi_F17_IscsiData⟩,
    ⟨_, allow_parse ok_FC6_IscsiName⟩,
    ⟨_, allow_parse ok_F18_Keyboard⟩,
    ⟨_, allow_parse ok_F19_Lang⟩,
    ⟨_, allow_parse ok_F19_Liveimg⟩,
    ⟨_, allow_parse ok_FC6_Logging⟩,
    ⟨_, allow_parse ok_RHEL7_LogVol_RHEL7_LogVolData⟩,
    ⟨_, allow_parse ok_FC4_MediaCheck⟩,
    ⟨_, allow_method (by decide) ok_RHEL7_Method⟩,
    ⟨_, allow_multipath (by decide) ok_FC6_MultiPath_FC6_MultiPathData⟩,
    ⟨_, allow_parse ok_RHEL7_Network_RHEL7_NetworkData⟩,
    ⟨_, allow_parse ok_FC6_NFS⟩,
    ⟨_, allow_nvdimm ok_F28_Nvdimm_F28_NvdimmData⟩,
    ⟨_, allow_parse ok_RHEL7_OSTreeSetup⟩,
    ⟨_, allow_parse ok_RHEL7_Partition_RHEL7_PartData⟩,
    ⟨_, allow_parse ok_RHEL7_Partition_RHEL7_PartData⟩,
    ⟨_, allow_parse ok_F18_Reboot⟩,
    ⟨_, allow_parse ok_RHEL7_Raid_RHEL7_RaidData⟩,
    ⟨_, allow_realm ok_F19_Realm⟩,
    ⟨_, allow_parse ok_F18_Reboot⟩,
    ⟨_, allow_parse ok_RHEL7_Repo_RHEL7_RepoData⟩,
    ⟨_, allow_parse ok_RHEL7_ReqPart⟩,
    ⟨_, allow_parse ok_F10_Rescue⟩,
    ⟨_, allow_parse ok_F18_RootPw⟩,
    ⟨_, allow_parse ok_FC3_SELinux⟩,
    ⟨_, allow_parse ok_FC6_Services⟩,
    ⟨_, allow_parse ok_F18_Reboot⟩,
    ⟨_, allow_parse ok_FC3_SkipX⟩,
    ⟨_, allow_parse ok_F26_Snapshot_F26_SnapshotData⟩,
    ⟨_, allow_parse ok_F13_SshPw_F13_SshPwData⟩,
    ⟨_, allow_parse ok_FC3_DisplayMode⟩,
    ⟨_, allow_parse ok_RHEL7_Timezone⟩,
    ⟨_, allow_parse ok_RHEL6_UnsupportedHardware⟩,
    ⟨_, allow_parse ok_F7_Updates⟩,
    ⟨_, allow_parse ok_F20_Upgrade⟩,
    ⟨_, allow_parse ok_F18_Url⟩,
    ⟨_, allow_parse ok_F19_User_F19_UserData⟩,
    ⟨_, allow_parse ok_F9_Vnc⟩,
    ⟨_, allow_parse ok_RHEL7_VolGroup_RHEL7_VolGroupData⟩,
    ⟨_, allow_parse ok_F14_XConfig⟩,
    ⟨_, allow_parse ok_F9_ZeroMbr⟩,
    ⟨_, allow_parse ok_F14_ZFCP_F14_ZFCPData⟩,
    List.forall_mem_nil _⟩

def classesRHEL7 : List Command := [FC3_Authconfig.cls, RHEL7_AutoPart.cls, FC3_AutoStep.cls, RHEL7_Bootloader.cls, RHEL7_BTRFS.cls RHEL7_BTRFSData.cls, FC3_Cdrom.cls, RHEL7_ClearPart.cls, FC3_DisplayMode.cls, F8_Device.cls F8_DeviceData.cls, FC3_DeviceProbe.cls, FC6_DmRaid.cls FC6_DmRaidData.cls, F14_DriverDisk.cls F14_DriverDiskData.cls, F20_Eula.cls, RHEL7_Fcoe.cls RHEL7_FcoeData.cls, F20_Firewall.cls, FC3_Firstboot.cls, F12_Group.cls F12_GroupData.cls, F18_Reboot.cls, FC3_HardDrive.cls, RHEL7_Hmc.cls, F14_IgnoreDisk.cls, F11_Upgrade.cls, F17_Iscsi.cls F17_IscsiData.cls, FC6_IscsiName.cls, F18_Keyboard.cls, F19_Lang.cls, F19_Liveimg.cls, FC6_Logging.cls, RHEL7_LogVol.cls RHEL7_LogVolData.cls, FC4_MediaCheck.cls, RHEL7_Method.cls, FC6_MultiPath.cls FC6_MultiPathData.cls, RHEL7_Network.cls RHEL7_NetworkData.cls, FC6_NFS.cls, F28_Nvdimm.cls F28_NvdimmData.cls, RHEL7_OSTreeSetup.cls, RHEL7_Partition.cls RHEL7_PartData.cls, RHEL7_Raid.cls RHEL7_RaidData.cls, F19_Realm.cls, RHEL7_Repo.cls RHEL7_RepoData.cls, RHEL7_ReqPart.cls, F10_Rescue.cls, F18_RootPw.cls, FC3_SELinux.cls, FC6_Services.cls, FC3_SkipX.cls, F26_Snapshot.cls F26_SnapshotData.cls, F13_SshPw.cls F13_SshPwData.cls, RHEL7_Timezone.cls, RHEL6_UnsupportedHardware.cls, F7_Updates.cls, F20_Upgrade.cls, F18_Url.cls, F19_User.cls F19_UserData.cls, F9_Vnc.cls, RHEL7_VolGroup.cls RHEL7_VolGroupData.cls, F14_XConfig.cls, F9_ZeroMbr.cls, F14_ZFCP.cls F14_ZFCPData.cls]

theorem commandMapRHEL7_mapOk : MapOk Version.RHEL7 commandMapRHEL7 where
  dict := nodup_codes (by decide +kernel)
  classes := ⟨classesRHEL7, [c!"FC3_Authconfig", c!"RHEL7_AutoPart", c!"FC3_AutoStep", c!"RHEL7_Bootloader", c!"RHEL7_BTRFS", c!"FC3_Cdrom", c!"RHEL7_ClearPart", c!"FC3_DisplayMode", c!"F8_Device", c!"FC3_DeviceProbe", c!"FC6_DmRaid", c!"F14_DriverDisk", c!"F20_Eula", c!"RHEL7_Fcoe", c!"F20_Firewall", c!"FC3_Firstboot", c!"F12_Group", c!"F18_Reboot", c!"FC3_HardDrive", c!"RHEL7_Hmc", c!"F14_IgnoreDisk", c!"F11_Upgrade", c!"F17_Iscsi", c!"FC6_IscsiName", c!"F18_Keyboard", c!"F19_Lang", c!"F19_Liveimg", c!"FC6_Logging", c!"RHEL7_LogVol", c!"FC4_MediaCheck", c!"RHEL7_Method", c!"FC6_MultiPath", c!"RHEL7_Network", c!"FC6_NFS", c!"F28_Nvdimm", c!"RHEL7_OSTreeSetup", c!"RHEL7_Partition", c!"RHEL7_Raid", c!"F19_Realm", c!"RHEL7_Repo", c!"RHEL7_ReqPart", c!"F10_Rescue", c!"F18_RootPw", c!"FC3_SELinux", c!"FC6_Services", c!"FC3_SkipX", c!"F26_Snapshot", c!"F13_SshPw", c!"RHEL7_Timezone", c!"RHEL6_UnsupportedHardware", c!"F7_Updates", c!"F20_Upgrade", c!"F18_Url", c!"F19_User", c!"F9_Vnc", c!"RHEL7_VolGroup", c!"F14_XConfig", c!"F9_ZeroMbr", c!"F14_ZFCP"], [c!"authconfig", c!"autopart", c!"autostep", c!"bootloader", c!"btrfs", c!"cdrom", c!"clearpart", c!"displaymode", c!"device", c!"deviceprobe", c!"dmraid", c!"driverdisk", c!"eula", c!"fcoe", c!"firewall", c!"firstboot", c!"group", c!"reboot", c!"harddrive", c!"hmc", c!"ignoredisk", c!"upgrade", c!"iscsi", c!"iscsiname", c!"keyboard", c!"lang", c!"liveimg", c!"logging", c!"logvol", c!"mediacheck", c!"method", c!"multipath", c!"network", c!"nfs", c!"nvdimm", c!"ostreesetup", c!"partition", c!"raid", c!"realm", c!"repo", c!"reqpart", c!"rescue", c!"rootpw", c!"selinux", c!"services", c!"skipx", c!"snapshot", c!"sshpw", c!"timezone", c!"unsupportedhardware", c!"updates", c!"upgrade", c!"url", c!"user", c!"vnc", c!"volgroup", c!"xconfig", c!"zerombr", c!"zfcp"], rfl, by decide +kernel, nodup_codes (by decide +kernel), nodup_codes (by decide +kernel), by
    unfold commandMapRHEL7
    exact (forall_mem_cons' (mem_at 0 rfl) (forall_mem_cons' (mem_at 0 rfl) (forall_mem_cons' (mem_at 1 rfl) (forall_mem_cons' (mem_at 2 rfl) (forall_mem_cons' (mem_at 3 rfl) (forall_mem_cons' (mem_at 4 rfl) (forall_mem_cons' (mem_at 5 rfl) (forall_mem_cons' (mem_at 6 rfl) (forall_mem_cons' (mem_at 7 rfl) (forall_mem_cons' (mem_at 8 rfl) (forall_mem_cons' (mem_at 9 rfl) (forall_mem_cons' (mem_at 10 rfl) (forall_mem_cons' (mem_at 11 rfl) (forall_mem_cons' (mem_at 12 rfl) (forall_mem_cons' (mem_at 13 rfl) (forall_mem_cons' (mem_at 14 rfl) (forall_mem_cons' (mem_at 15 rfl) (forall_mem_cons' (mem_at 7 rfl) (forall_mem_cons' (mem_at 16 rfl) (forall_mem_cons' (mem_at 17 rfl) (forall_mem_cons' (mem_at 18 rfl) (forall_mem_cons' (mem_at 19 rfl) (forall_mem_cons' (mem_at 20 rfl) (forall_mem_cons' (mem_at 21 rfl) (forall_mem_cons' (mem_at 22 rfl) (forall_mem_cons' (mem_at 23 rfl) (forall_mem_cons' (mem_at 24 rfl) (forall_mem_cons' (mem_at 25 rfl) (forall_mem_cons' (mem_at 26 rfl) (forall_mem_cons' (mem_at 27 rfl) (forall_mem_cons' (mem_at 28 rfl) (forall_mem_cons' (mem_at 29 rfl) (forall_mem_cons' (mem_at 30 rfl) (forall_mem_cons' (mem_at 31 rfl) (forall_mem_cons' (mem_at 32 rfl) (forall_mem_cons' (mem_at 33 rfl) (forall_mem_cons' (mem_at 34 rfl) (forall_mem_cons' (mem_at 35 rfl) (forall_mem_cons' (mem_at 36 rfl) (forall_mem_cons' (mem_at 36 rfl) (forall_mem_cons' (mem_at 17 rfl) (forall_mem_cons' (mem_at 37 rfl) (forall_mem_cons' (mem_at 38 rfl) (forall_mem_cons' (mem_at 17 rfl) (forall_mem_cons' (mem_at 39 rfl) (forall_mem_cons' (mem_at 40 rfl) (forall_mem_cons' (mem_at 41 rfl) (forall_mem_cons' (mem_at 42 rfl) (forall_mem_cons' (mem_at 43 rfl) (forall_mem_cons' (mem_at 44 rfl) (forall_mem_cons' (mem_at 17 rfl) (forall_mem_cons' (mem_at 45 rfl) (forall_mem_cons' (mem_at 46 rfl) (forall_mem_cons' (mem_at 47 rfl) (forall_mem_cons' (mem_at 7 rfl) (forall_mem_cons' (mem_at 48 rfl) (forall_mem_cons' (mem_at 49 rfl) (forall_mem_cons' (mem_at 50 rfl) (forall_mem_cons' (mem_at 51 rfl) (forall_mem_cons' (mem_at 52 rfl) (forall_mem_cons' (mem_at 53 rfl) (forall_mem_cons' (mem_at 54 rfl) (forall_mem_cons' (mem_at 55 rfl) (forall_mem_cons' (mem_at 56 rfl) (forall_mem_cons' (mem_at 57 rfl) (forall_mem_cons' (mem_at 58 rfl) (List.forall_mem_nil _)))))))))))))))))))))))))))))))))))))))))))))))))))))))))))))))))))⟩
  storage := by decide +kernel
  ok := commandMapRHEL7_ok

theorem commandMapRHEL8_ok : ∀ x ∈ commandMapRHEL8, ∃ I, x.2.Ok I (Allowed Version.RHEL8 x.1) := by
  unfold commandMapRHEL8
  simp only [List.forall_mem_cons]
  exact ⟨⟨_, allow_parse ok_F28_Authconfig⟩,
    ⟨_, allow_parse ok_F28_Authconfig⟩,
    ⟨_, allow_parse ok_F28_Authselect⟩,
    ⟨_, allow_parse ok_RHEL8_AutoPart⟩,
    ⟨_, allow_parse ok_FC3_AutoStep⟩,
    ⟨_, allow_parse ok_RHEL8_Bootloader⟩,
    ⟨_, allow_parse ok_RHEL8_BTRFS⟩,
    ⟨_, allow_parse ok_FC3_Cdrom⟩,
    ⟨_, allow_parse ok_F28_ClearPart⟩,
    ⟨_, allow_parse ok_F26_DisplayMode⟩,
    ⟨_, allow_parse ok_F24_Device⟩,
    ⟨_, allow_parse ok_F29_DeviceProbe⟩,
    ⟨_, allow_parse ok_F24_DmRaid⟩,
    ⟨_, allow_parse ok_F14_DriverDisk_F14_DriverDiskData⟩,
    ⟨_, allow_parse ok_RHEL8_Module_RHEL8_ModuleData⟩,
    ⟨_, allow_parse ok_F20_Eula⟩,
    ⟨_, allow_parse ok_RHEL8_Fcoe_RHEL8_FcoeData⟩,
    ⟨_, allow_parse ok_F28_Firewall⟩,
    ⟨_, allow_parse ok_FC3_Firstboot⟩,
    ⟨_, allow_parse ok_F26_DisplayMode⟩,
    ⟨_, allow_parse ok_F12_Group_F12_GroupData⟩,
    ⟨_, allow_parse ok_F23_Reboot⟩,
    ⟨_, allow_parse ok_FC3_HardDrive⟩,
    ⟨_, allow_parse ok_F28_Hmc⟩,
    ⟨_, allow_parse ok_F29_IgnoreDisk⟩,
    ⟨_, allow_parse ok_F29_Install⟩,
    ⟨_, allow_parse ok_F17_Iscsi_F17_IscsiData⟩,
    ⟨_, allow_parse ok_FC6_IscsiName⟩,
    ⟨_, allow_parse ok_F18_Keyboard⟩,
    ⟨_, allow_parse ok_F19_Lang⟩,
    ⟨_, allow_parse ok_F19_Liveimg⟩,
    ⟨_, allow_parse ok_FC6_Logging⟩,
    ⟨_, allow_parse ok_RHEL8_LogVol_RHEL8_LogVolData⟩,
    ⟨_, allow_parse ok_FC4_MediaCheck⟩,
    ⟨_, allow_method (by decide) ok_F28_Method⟩,
    ⟨_, allow_mount ok_F27_Mount_F27_MountData⟩,
    ⟨_, allow_parse ok_F24_MultiPath⟩,
    ⟨_, allow_parse ok_F27_Network_F27_NetworkData⟩,
    ⟨_, allow_parse ok_FC6_NFS⟩,
    ⟨_, allow_nvdimm ok_F28_Nvdimm_F28_NvdimmData⟩,
    ⟨_, allow_parse ok_RHEL8_OSTreeSetup⟩,
    ⟨_, allow_parse ok_RHEL8_Partition_RHEL8_PartData⟩,
    ⟨_, allow_parse ok_RHEL8_Partition_RHEL8_PartData⟩,
    ⟨_, allow_parse ok_F23_Reboot⟩,
    ⟨_, allow_parse ok_RHEL8_Raid_RHEL8_RaidData⟩,
    ⟨_, allow_realm ok_F19_Realm⟩,
    ⟨_, allow_parse ok_F23_Reboot⟩,
    ⟨_, allow_parse ok_RHEL8_Repo_RHEL8_RepoData⟩,
    ⟨_, allow_parse ok_F23_ReqPart⟩,
    ⟨_, allow_parse ok_F10_Rescue⟩,
    ⟨_, allow_parse ok_RHEL8_RHSM⟩,
    ⟨_, allow_parse ok_F18_RootPw⟩,
    ⟨_, allow_parse ok_FC3_SELinux⟩,
    ⟨_, allow_parse ok_FC6_Services⟩,
    ⟨_, allow_parse ok_F23_Reboot⟩,
    ⟨_, allow_parse ok_FC3_SkipX⟩,
    ⟨_, allow_parse ok_F26_Snapshot_F26_SnapshotData⟩,
    ⟨_, allow_parse ok_F24_SshPw_F24_SshPwData⟩,
    ⟨_, allow_parse ok_F22_SshKey_F22_SshKeyData⟩,
    ⟨_, allow_parse ok_RHEL8_Syspurpose⟩,
    ⟨_, allow_parse ok_F26_DisplayMode⟩,
    ⟨_, allow_parse ok_F25_Timezone⟩,
    ⟨_, allow_parse ok_F7_Updates⟩,
    ⟨_, allow_parse ok_RHEL8_Url⟩,
    ⟨_, allow_parse ok_F24_User_F19_UserData⟩,
    ⟨_, allow_parse ok_F9_Vnc⟩,
    ⟨_, allow_parse ok_RHEL8_VolGroup_RHEL8_VolGroupData⟩,
    ⟨_, allow_parse ok_F14_XConfig⟩,
    ⟨_, allow_parse ok_F9_ZeroMbr⟩,
    ⟨_, allow_parse ok_F14_ZFCP_F14_ZFCPData⟩,
    ⟨_, allow_parse ok_RHEL8_Zipl⟩,
    List.forall_mem_nil _⟩

def classesRHEL8 : List Command := [F28_Authconfig.cls, F28_Authselect.cls, RHEL8_AutoPart.cls, FC3_AutoStep.cls, RHEL8_Bootloader.cls, RHEL8_BTRFS.cls, FC3_Cdrom.cls, F28_ClearPart.cls, F26_DisplayMode.cls, F24_Device.cls, F29_DeviceProbe.cls, F24_DmRaid.cls, F14_DriverDisk.cls F14_DriverDiskData.cls, RHEL8_Module.cls RHEL8_ModuleData.cls, F20_Eula.cls, RHEL8_Fcoe.cls RHEL8_FcoeData.cls, F28_Firewall.cls, FC3_Firstboot.cls, F12_Group.cls F12_GroupData.cls, F23_Reboot.cls, FC3_HardDrive.cls, F28_Hmc.cls, F29_IgnoreDisk.cls, F29_Install.cls, F17_Iscsi.cls F17_IscsiData.cls, FC6_IscsiName.cls, F18_Keyboard.cls, F19_Lang.cls, F19_Liveimg.cls, FC6_Logging.cls, RHEL8_LogVol.cls RHEL8_LogVolData.cls, FC4_MediaCheck.cls, F28_Method.cls, F27_Mount.cls F27_MountData.cls, F24_MultiPath.cls, F27_Network.cls F27_NetworkData.cls, FC6_NFS.cls, F28_Nvdimm.cls F28_NvdimmData.cls, RHEL8_OSTreeSetup.cls, RHEL8_Partition.cls RHEL8_PartData.cls, RHEL8_Raid.cls RHEL8_RaidData.cls, F19_Realm.cls, RHEL8_Repo.cls RHEL8_RepoData.cls, F23_ReqPart.cls, F10_Rescue.cls, RHEL8_RHSM.cls, F18_RootPw.cls, FC3_SELinux.cls, FC6_Services.cls, FC3_SkipX.cls, F26_Snapshot.cls F26_SnapshotData.cls, F24_SshPw.cls F24_SshPwData.cls, F22_SshKey.cls F22_SshKeyData.cls, RHEL8_Syspurpose.cls, F25_Timezone.cls, F7_Updates.cls, RHEL8_Url.cls, F24_User.cls F19_UserData.cls, F9_Vnc.cls, RHEL8_VolGroup.cls RHEL8_VolGroupData.cls, F14_XConfig.cls, F9_ZeroMbr.cls, F14_ZFCP.cls F14_ZFCPData.cls, RHEL8_Zipl.cls]

theorem commandMapRHEL8_mapOk : MapOk Version.RHEL8 commandMapRHEL8 where
  dict := nodup_codes (by decide +kernel)
  classes := ⟨classesRHEL8, [c!"F28_Authconfig", c!"F28_Authselect", c!"RHEL8_AutoPart", c!"FC3_AutoStep", c!"RHEL8_Bootloader", c!"RHEL8_BTRFS", c!"FC3_Cdrom", c!"F28_ClearPart", c!"F26_DisplayMode", c!"F24_Device", c!"F29_DeviceProbe", c!"F24_DmRaid", c!"F14_DriverDisk", c!"RHEL8_Module", c!"F20_Eula", c!"RHEL8_Fcoe", c!"F28_Firewall", c!"FC3_Firstboot", c!"F12_Group", c!"F23_Reboot", c!"FC3_HardDrive", c!"F28_Hmc", c!"F29_IgnoreDisk", c!"F29_Install", c!"F17_Iscsi", c!"FC6_IscsiName", c!"F18_Keyboard", c!"F19_Lang", c!"F19_Liveimg", c!"FC6_Logging", c!"RHEL8_LogVol", c!"FC4_MediaCheck", c!"F28_Method", c!"F27_Mount", c!"F24_MultiPath", c!"F27_Network", c!"FC6_NFS", c!"F28_Nvdimm", c!"RHEL8_OSTreeSetup", c!"RHEL8_Partition", c!"RHEL8_Raid", c!"F19_Realm", c!"RHEL8_Repo", c!"F23_ReqPart", c!"F10_Rescue", c!"RHEL8_RHSM", c!"F18_RootPw", c!"FC3_SELinux", c!"FC6_Services", c!"FC3_SkipX", c!"F26_Snapshot", c!"F24_SshPw", c!"F22_SshKey", c!"RHEL8_Syspurpose", c!"F25_Timezone", c!"F7_Updates", c!"RHEL8_Url", c!"F24_User", c!"F9_Vnc", c!"RHEL8_VolGroup", c!"F14_XConfig", c!"F9_ZeroMbr", c!"F14_ZFCP", c!"RHEL8_Zipl"], [c!"authconfig", c!"authselect", c!"autopart", c!"autostep", c!"bootloader", c!"btrfs", c!"cdrom", c!"clearpart", c!"displaymode", c!"device", c!"deviceprobe", c!"dmraid", c!"driverdisk", c!"module", c!"eula", c!"fcoe", c!"firewall", c!"firstboot", c!"group", c!"reboot", c!"harddrive", c!"hmc", c!"ignoredisk", c!"install", c!"iscsi", c!"iscsiname", c!"keyboard", c!"lang", c!"liveimg", c!"logging", c!"logvol", c!"mediacheck", c!"method", c!"mount", c!"multipath", c!"network", c!"nfs", c!"nvdimm", c!"ostreesetup", c!"partition", c!"raid", c!"realm", c!"repo", c!"reqpart", c!"rescue", c!"rhsm", c!"rootpw", c!"selinux", c!"services", c!"skipx", c!"snapshot", c!"sshpw", c!"sshkey", c!"syspurpose", c!"timezone", c!"updates", c!"url", c!"user", c!"vnc", c!"volgroup", c!"xconfig", c!"zerombr", c!"zfcp", c!"zipl"], rfl, by decide +kernel, nodup_codes (by decide +kernel), nodup_codes (by decide +kernel), by
    unfold commandMapRHEL8
    exact (forall_mem_cons' (mem_at 0 rfl) (forall_mem_cons' (mem_at 0 rfl) (forall_mem_cons' (mem_at 1 rfl) (forall_mem_cons' (mem_at 2 rfl) (forall_mem_cons' (mem_at 3 rfl) (forall_mem_cons' (mem_at 4 rfl) (forall_mem_cons' (mem_at 5 rfl) (forall_mem_cons' (mem_at 6 rfl) (forall_mem_cons' (mem_at 7 rfl) (forall_mem_cons' (mem_at 8 rfl) (forall_mem_cons' (mem_at 9 rfl) (forall_mem_cons' (mem_at 10 rfl) (forall_mem_cons' (mem_at 11 rfl) (forall_mem_cons' (mem_at 12 rfl) (forall_mem_cons' (mem_at 13 rfl) (forall_mem_cons' (mem_at 14 rfl) (forall_mem_cons' (mem_at 15 rfl) (forall_mem_cons' (mem_at 16 rfl) (forall_mem_cons' (mem_at 17 rfl) (forall_mem_cons' (mem_at 8 rfl) (forall_mem_cons' (mem_at 18 rfl) (forall_mem_cons' (mem_at 19 rfl) (forall_mem_cons' (mem_at 20 rfl) (forall_mem_cons' (mem_at 21 rfl) (forall_mem_cons' (mem_at 22 rfl) (forall_mem_cons' (mem_at 23 rfl) (forall_mem_cons' (mem_at 24 rfl) (forall_mem_cons' (mem_at 25 rfl) (forall_mem_cons' (mem_at 26 rfl) (forall_mem_cons' (mem_at 27 rfl) (forall_mem_cons' (mem_at 28 rfl) (forall_mem_cons' (mem_at 29 rfl) (forall_mem_cons' (mem_at 30 rfl) (forall_mem_cons' (mem_at 31 rfl) (forall_mem_cons' (mem_at 32 rfl) (forall_mem_cons' (mem_at 33 rfl) (forall_mem_cons' (mem_at 34 rfl) (forall_mem_cons' (mem_at 35 rfl) (forall_mem_cons' (mem_at 36 rfl) (forall_mem_cons' (mem_at 37 rfl) (forall_mem_cons' (mem_at 38 rfl) (forall_mem_cons' (mem_at 39 rfl) (forall_mem_cons' (mem_at 39 rfl) (forall_mem_cons' (mem_at 19 rfl) (forall_mem_cons' (mem_at 40 rfl) (forall_mem_cons' (mem_at 41 rfl) (forall_mem_cons' (mem_at 19 rfl) (forall_mem_cons' (mem_at 42 rfl) (forall_mem_cons' (mem_at 43 rfl) (forall_mem_cons' (mem_at 44 rfl) (forall_mem_cons' (mem_at 45 rfl) (forall_mem_cons' (mem_at 46 rfl) (forall_mem_cons' (mem_at 47 rfl) (forall_mem_cons' (mem_at 48 rfl) (forall_mem_cons' (mem_at 19 rfl) (forall_mem_cons' (mem_at 49 rfl) (forall_mem_cons' (mem_at 50 rfl) (forall_mem_cons' (mem_at 51 rfl) (forall_mem_cons' (mem_at 52 rfl) (forall_mem_cons' (mem_at 53 rfl) (forall_mem_cons' (mem_at 8 rfl) (forall_mem_cons' (mem_at 54 rfl) (forall_mem_cons' (mem_at 55 rfl) (forall_mem_cons' (mem_at 56 rfl) (forall_mem_cons' (mem_at 57 rfl) (forall_mem_cons' (mem_at 58 rfl) (forall_mem_cons' (mem_at 59 rfl) (forall_mem_cons' (mem_at 60 rfl) (forall_mem_cons' (mem_at 61 rfl) (forall_mem_cons' (mem_at 62 rfl) (forall_mem_cons' (mem_at 63 rfl) (List.forall_mem_nil _))))))))))))))))))))))))))))))))))))))))))))))))))))))))))))))))))))))))⟩
  storage := by decide +kernel
  ok := commandMapRHEL8_ok

theorem commandMaps_ok : ∀ x ∈ commandMaps, MapOk x.1 x.2 := by
  unfold commandMaps
  exact (forall_mem_cons' commandMapF10_mapOk (forall_mem_cons' commandMapF11_mapOk (forall_mem_cons' commandMapF12_mapOk (forall_mem_cons' commandMapF13_mapOk (forall_mem_cons' commandMapF14_mapOk (forall_mem_cons' commandMapF15_mapOk (forall_mem_cons' commandMapF16_mapOk (forall_mem_cons' commandMapF17_mapOk (forall_mem_cons' commandMapF18_mapOk (forall_mem_cons' commandMapF19_mapOk (forall_mem_cons' commandMapF20_mapOk (forall_mem_cons' commandMapF21_mapOk (forall_mem_cons' commandMapF22_mapOk (forall_mem_cons' commandMapF23_mapOk (forall_mem_cons' commandMapF24_mapOk (forall_mem_cons' commandMapF25_mapOk (forall_mem_cons' commandMapF26_mapOk (forall_mem_cons' commandMapF27_mapOk (forall_mem_cons' commandMapF28_mapOk (forall_mem_cons' commandMapF29_mapOk (forall_mem_cons' commandMapF30_mapOk (forall_mem_cons' commandMapF31_mapOk (forall_mem_cons' commandMapF32_mapOk (forall_mem_cons' commandMapF33_mapOk (forall_mem_cons' commandMapF34_mapOk (forall_mem_cons' commandMapF7_mapOk (forall_mem_cons' commandMapF8_mapOk (forall_mem_cons' commandMapF9_mapOk (forall_mem_cons' commandMapFC3_mapOk (forall_mem_cons' commandMapFC4_mapOk (forall_mem_cons' commandMapFC5_mapOk (forall_mem_cons' commandMapFC6_mapOk (forall_mem_cons' commandMapRHEL3_mapOk (forall_mem_cons' commandMapRHEL4_mapOk (forall_mem_cons' commandMapRHEL5_mapOk (forall_mem_cons' commandMapRHEL6_mapOk (forall_mem_cons' commandMapRHEL7_mapOk (forall_mem_cons' commandMapRHEL8_mapOk (List.forall_mem_nil _)))))))))))))))))))))))))))))))))))))))

end Ks.Cmd
