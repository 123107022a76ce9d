import Verif.Commands.OpTable
import Verif.ArgparseLemmas
/-!
# The parsers of the command classes are built with `add_argument` and `remove_argument`

Written by `scripts/gen_optable.py`.
-/
namespace Ks.Cmd

def namesOk (l : List Str) : Bool := decide (({ names := l } : Arg).Ok)

theorem ok_names {a : Arg} (h : namesOk a.names = true) : a.Ok := (of_decide_eq_true h : ({ names := a.names } : Arg).Ok)

theorem built_FC3_AutoPart_op : FC3_AutoPart.op.Built := by
  unfold FC3_AutoPart.op
  exact .empty
theorem built_F9_AutoPart_op : F9_AutoPart.op.Built := by
  unfold F9_AutoPart.op
  refine .add ?_ (ok_names (by dsimp only; decide +kernel))
  refine .add ?_ (ok_names (by dsimp only; decide +kernel))
  exact built_FC3_AutoPart_op
theorem built_F12_AutoPart_op : F12_AutoPart.op.Built := by
  unfold F12_AutoPart.op
  refine .add ?_ (ok_names (by dsimp only; decide +kernel))
  refine .add ?_ (ok_names (by dsimp only; decide +kernel))
  exact built_F9_AutoPart_op
theorem built_RHEL6_AutoPart_op : RHEL6_AutoPart.op.Built := by
  unfold RHEL6_AutoPart.op
  refine .add ?_ (ok_names (by dsimp only; decide +kernel))
  exact built_F12_AutoPart_op
theorem built_F16_AutoPart_op : F16_AutoPart.op.Built := by
  unfold F16_AutoPart.op
  refine .add ?_ (ok_names (by dsimp only; decide +kernel))
  exact built_F12_AutoPart_op
theorem built_F17_AutoPart_opWith (a) : (F17_AutoPart.opWith a).Built := by
  unfold F17_AutoPart.opWith
  refine .add ?_ (ok_names (by dsimp only; decide +kernel))
  refine .add ?_ (ok_names (by dsimp only; decide +kernel))
  exact built_F16_AutoPart_op
theorem built_F18_AutoPart_opWith (a) : (F18_AutoPart.opWith a).Built := by
  unfold F18_AutoPart.opWith
  refine .add ?_ (ok_names (by dsimp only; decide +kernel))
  exact built_F17_AutoPart_opWith _
theorem built_F20_AutoPart_opWith (a) : (F20_AutoPart.opWith a).Built := by
  unfold F20_AutoPart.opWith
  exact built_F18_AutoPart_opWith _
theorem built_F21_AutoPart_opWith (a) : (F21_AutoPart.opWith a).Built := by
  unfold F21_AutoPart.opWith
  refine .add ?_ (ok_names (by dsimp only; decide +kernel))
  exact built_F20_AutoPart_opWith _
theorem built_RHEL7_AutoPart_opWith (a) : (RHEL7_AutoPart.opWith a).Built := by
  unfold RHEL7_AutoPart.opWith
  refine .add ?_ (ok_names (by dsimp only; decide +kernel))
  exact built_F21_AutoPart_opWith _
theorem built_F26_AutoPart_opWith (a) : (F26_AutoPart.opWith a).Built := by
  unfold F26_AutoPart.opWith
  refine .add ?_ (ok_names (by dsimp only; decide +kernel))
  refine .add ?_ (ok_names (by dsimp only; decide +kernel))
  refine .add ?_ (ok_names (by dsimp only; decide +kernel))
  exact built_F21_AutoPart_opWith _
theorem built_F29_AutoPart_opWith (a) : (F29_AutoPart.opWith a).Built := by
  unfold F29_AutoPart.opWith
  refine .add ?_ (ok_names (by dsimp only; decide +kernel))
  refine .add ?_ (ok_names (by dsimp only; decide +kernel))
  refine .add ?_ (ok_names (by dsimp only; decide +kernel))
  refine .add ?_ (ok_names (by dsimp only; decide +kernel))
  refine .add ?_ (ok_names (by dsimp only; decide +kernel))
  exact built_F26_AutoPart_opWith _
theorem built_RHEL8_AutoPart_opWith (a) : (RHEL8_AutoPart.opWith a).Built := by
  unfold RHEL8_AutoPart.opWith
  exact built_F29_AutoPart_opWith _
theorem built_FC3_AutoStep_op : FC3_AutoStep.op.Built := by
  unfold FC3_AutoStep.op
  refine .add ?_ (ok_names (by dsimp only; decide +kernel))
  exact .empty
theorem built_FC3_Bootloader_op : FC3_Bootloader.op.Built := by
  unfold FC3_Bootloader.op
  refine .add ?_ (ok_names (by dsimp only; decide +kernel))
  refine .add ?_ (ok_names (by dsimp only; decide +kernel))
  refine .add ?_ (ok_names (by dsimp only; decide +kernel))
  refine .add ?_ (ok_names (by dsimp only; decide +kernel))
  refine .add ?_ (ok_names (by dsimp only; decide +kernel))
  refine .add ?_ (ok_names (by dsimp only; decide +kernel))
  refine .add ?_ (ok_names (by dsimp only; decide +kernel))
  refine .add ?_ (ok_names (by dsimp only; decide +kernel))
  refine .add ?_ (ok_names (by dsimp only; decide +kernel))
  refine .add ?_ (ok_names (by dsimp only; decide +kernel))
  exact .empty
theorem built_FC3_Lilo_op : FC3_Lilo.op.Built := by
  unfold FC3_Lilo.op
  exact built_FC3_Bootloader_op
theorem built_FC4_Bootloader_op : FC4_Bootloader.op.Built := by
  unfold FC4_Bootloader.op
  refine .remove _ ?_
  refine .remove _ ?_
  refine .remove _ ?_
  exact built_FC3_Bootloader_op
theorem built_F8_Bootloader_op : F8_Bootloader.op.Built := by
  unfold F8_Bootloader.op
  refine .add ?_ (ok_names (by dsimp only; decide +kernel))
  refine .add ?_ (ok_names (by dsimp only; decide +kernel))
  exact built_FC4_Bootloader_op
theorem built_F12_Bootloader_op : F12_Bootloader.op.Built := by
  unfold F12_Bootloader.op
  refine .add ?_ (ok_names (by dsimp only; decide +kernel))
  exact built_F8_Bootloader_op
theorem built_F14_Bootloader_op : F14_Bootloader.op.Built := by
  unfold F14_Bootloader.op
  refine .remove _ ?_
  exact built_F12_Bootloader_op
theorem built_F15_Bootloader_op : F15_Bootloader.op.Built := by
  unfold F15_Bootloader.op
  refine .add ?_ (ok_names (by dsimp only; decide +kernel))
  refine .add ?_ (ok_names (by dsimp only; decide +kernel))
  exact built_F14_Bootloader_op
theorem built_F17_Bootloader_op : F17_Bootloader.op.Built := by
  unfold F17_Bootloader.op
  refine .add ?_ (ok_names (by dsimp only; decide +kernel))
  exact built_F15_Bootloader_op
theorem built_F18_Bootloader_op : F18_Bootloader.op.Built := by
  unfold F18_Bootloader.op
  refine .add ?_ (ok_names (by dsimp only; decide +kernel))
  exact built_F17_Bootloader_op
theorem built_RHEL5_Bootloader_op : RHEL5_Bootloader.op.Built := by
  unfold RHEL5_Bootloader.op
  refine .add ?_ (ok_names (by dsimp only; decide +kernel))
  exact built_FC4_Bootloader_op
theorem built_RHEL6_Bootloader_op : RHEL6_Bootloader.op.Built := by
  unfold RHEL6_Bootloader.op
  refine .add ?_ (ok_names (by dsimp only; decide +kernel))
  refine .add ?_ (ok_names (by dsimp only; decide +kernel))
  exact built_F12_Bootloader_op
theorem built_F19_Bootloader_op : F19_Bootloader.op.Built := by
  unfold F19_Bootloader.op
  refine .add ?_ (ok_names (by dsimp only; decide +kernel))
  exact built_F18_Bootloader_op
theorem built_F21_Bootloader_op : F21_Bootloader.op.Built := by
  unfold F21_Bootloader.op
  refine .add ?_ (ok_names (by dsimp only; decide +kernel))
  refine .add ?_ (ok_names (by dsimp only; decide +kernel))
  exact built_F19_Bootloader_op
theorem built_F29_Bootloader_op : F29_Bootloader.op.Built := by
  unfold F29_Bootloader.op
  refine .add ?_ (ok_names (by dsimp only; decide +kernel))
  exact built_F21_Bootloader_op
theorem built_F34_Bootloader_op : F34_Bootloader.op.Built := by
  unfold F34_Bootloader.op
  refine .remove _ ?_
  exact built_F29_Bootloader_op
theorem built_F17_BTRFS_opWith (a) : (F17_BTRFS.opWith a).Built := by
  unfold F17_BTRFS.opWith
  refine .add ?_ (ok_names (by dsimp only; decide +kernel))
  refine .add ?_ (ok_names (by dsimp only; decide +kernel))
  refine .add ?_ (ok_names (by dsimp only; decide +kernel))
  refine .add ?_ (ok_names (by dsimp only; decide +kernel))
  refine .add ?_ (ok_names (by dsimp only; decide +kernel))
  refine .add ?_ (ok_names (by dsimp only; decide +kernel))
  refine .add ?_ (ok_names (by dsimp only; decide +kernel))
  refine .add ?_ (ok_names (by dsimp only; decide +kernel))
  exact .empty
theorem built_F23_BTRFS_opWith (a) : (F23_BTRFS.opWith a).Built := by
  unfold F23_BTRFS.opWith
  refine .add ?_ (ok_names (by dsimp only; decide +kernel))
  exact built_F17_BTRFS_opWith _
theorem built_FC3_ClearPart_op : FC3_ClearPart.op.Built := by
  unfold FC3_ClearPart.op
  refine .add ?_ (ok_names (by dsimp only; decide +kernel))
  refine .add ?_ (ok_names (by dsimp only; decide +kernel))
  refine .add ?_ (ok_names (by dsimp only; decide +kernel))
  refine .add ?_ (ok_names (by dsimp only; decide +kernel))
  refine .add ?_ (ok_names (by dsimp only; decide +kernel))
  exact .empty
theorem built_F17_ClearPart_op : F17_ClearPart.op.Built := by
  unfold F17_ClearPart.op
  refine .add ?_ (ok_names (by dsimp only; decide +kernel))
  exact built_FC3_ClearPart_op
theorem built_F21_ClearPart_op : F21_ClearPart.op.Built := by
  unfold F21_ClearPart.op
  refine .add ?_ (ok_names (by dsimp only; decide +kernel))
  exact built_F17_ClearPart_op
theorem built_F28_ClearPart_op : F28_ClearPart.op.Built := by
  unfold F28_ClearPart.op
  refine .add ?_ (ok_names (by dsimp only; decide +kernel))
  exact built_F21_ClearPart_op
theorem built_FC3_Device_op : FC3_Device.op.Built := by
  unfold FC3_Device.op
  refine .add ?_ (ok_names (by dsimp only; decide +kernel))
  exact .empty
theorem built_FC3_DisplayMode_op : FC3_DisplayMode.op.Built := by
  unfold FC3_DisplayMode.op
  exact .empty
theorem built_F26_DisplayMode_op : F26_DisplayMode.op.Built := by
  unfold F26_DisplayMode.op
  refine .add ?_ (ok_names (by dsimp only; decide +kernel))
  exact built_FC3_DisplayMode_op
theorem built_FC6_DmRaid_op : FC6_DmRaid.op.Built := by
  unfold FC6_DmRaid.op
  refine .add ?_ (ok_names (by dsimp only; decide +kernel))
  refine .add ?_ (ok_names (by dsimp only; decide +kernel))
  exact .empty
theorem built_FC3_DriverDisk_op : FC3_DriverDisk.op.Built := by
  unfold FC3_DriverDisk.op
  refine .add ?_ (ok_names (by dsimp only; decide +kernel))
  refine .add ?_ (ok_names (by dsimp only; decide +kernel))
  refine .add ?_ (ok_names (by dsimp only; decide +kernel))
  exact .empty
theorem built_FC4_DriverDisk_op : FC4_DriverDisk.op.Built := by
  unfold FC4_DriverDisk.op
  refine .add ?_ (ok_names (by dsimp only; decide +kernel))
  exact built_FC3_DriverDisk_op
theorem built_F12_DriverDisk_op : F12_DriverDisk.op.Built := by
  unfold F12_DriverDisk.op
  refine .add ?_ (ok_names (by dsimp only; decide +kernel))
  exact built_FC4_DriverDisk_op
theorem built_F14_DriverDisk_op : F14_DriverDisk.op.Built := by
  unfold F14_DriverDisk.op
  refine .remove _ ?_
  exact built_F12_DriverDisk_op
theorem built_F20_Eula_op : F20_Eula.op.Built := by
  unfold F20_Eula.op
  refine .add ?_ (ok_names (by dsimp only; decide +kernel))
  exact .empty
theorem built_F12_Fcoe_op : F12_Fcoe.op.Built := by
  unfold F12_Fcoe.op
  refine .add ?_ (ok_names (by dsimp only; decide +kernel))
  exact .empty
theorem built_F13_Fcoe_op : F13_Fcoe.op.Built := by
  unfold F13_Fcoe.op
  refine .add ?_ (ok_names (by dsimp only; decide +kernel))
  exact built_F12_Fcoe_op
theorem built_RHEL7_Fcoe_op : RHEL7_Fcoe.op.Built := by
  unfold RHEL7_Fcoe.op
  refine .add ?_ (ok_names (by dsimp only; decide +kernel))
  exact built_F13_Fcoe_op
theorem built_F28_Fcoe_op : F28_Fcoe.op.Built := by
  unfold F28_Fcoe.op
  refine .add ?_ (ok_names (by dsimp only; decide +kernel))
  exact built_F13_Fcoe_op
theorem built_FC3_Firewall_op : FC3_Firewall.op.Built := by
  unfold FC3_Firewall.op
  refine .add ?_ (ok_names (by dsimp only; decide +kernel))
  refine .add ?_ (ok_names (by dsimp only; decide +kernel))
  refine .add ?_ (ok_names (by dsimp only; decide +kernel))
  refine .add ?_ (ok_names (by dsimp only; decide +kernel))
  refine .add ?_ (ok_names (by dsimp only; decide +kernel))
  refine .add ?_ (ok_names (by dsimp only; decide +kernel))
  refine .add ?_ (ok_names (by dsimp only; decide +kernel))
  refine .add ?_ (ok_names (by dsimp only; decide +kernel))
  refine .add ?_ (ok_names (by dsimp only; decide +kernel))
  refine .add ?_ (ok_names (by dsimp only; decide +kernel))
  refine .add ?_ (ok_names (by dsimp only; decide +kernel))
  exact .empty
theorem built_F9_Firewall_op : F9_Firewall.op.Built := by
  unfold F9_Firewall.op
  refine .remove _ ?_
  refine .remove _ ?_
  exact built_FC3_Firewall_op
theorem built_F10_Firewall_op : F10_Firewall.op.Built := by
  unfold F10_Firewall.op
  refine .add ?_ (ok_names (by dsimp only; decide +kernel))
  refine .add ?_ (ok_names (by dsimp only; decide +kernel))
  refine .add ?_ (ok_names (by dsimp only; decide +kernel))
  refine .add ?_ (ok_names (by dsimp only; decide +kernel))
  refine .add ?_ (ok_names (by dsimp only; decide +kernel))
  refine .add ?_ (ok_names (by dsimp only; decide +kernel))
  exact built_F9_Firewall_op
theorem built_F14_Firewall_op : F14_Firewall.op.Built := by
  unfold F14_Firewall.op
  refine .remove _ ?_
  exact built_F10_Firewall_op
theorem built_F20_Firewall_op : F20_Firewall.op.Built := by
  unfold F20_Firewall.op
  refine .add ?_ (ok_names (by dsimp only; decide +kernel))
  exact built_F14_Firewall_op
theorem built_F28_Firewall_op : F28_Firewall.op.Built := by
  unfold F28_Firewall.op
  refine .add ?_ (ok_names (by dsimp only; decide +kernel))
  exact built_F20_Firewall_op
theorem built_FC3_Firstboot_op : FC3_Firstboot.op.Built := by
  unfold FC3_Firstboot.op
  refine .add ?_ (ok_names (by dsimp only; decide +kernel))
  refine .add ?_ (ok_names (by dsimp only; decide +kernel))
  refine .add ?_ (ok_names (by dsimp only; decide +kernel))
  exact .empty
theorem built_F12_Group_op : F12_Group.op.Built := by
  unfold F12_Group.op
  refine .add ?_ (ok_names (by dsimp only; decide +kernel))
  refine .add ?_ (ok_names (by dsimp only; decide +kernel))
  exact .empty
theorem built_FC3_HardDrive_op : FC3_HardDrive.op.Built := by
  unfold FC3_HardDrive.op
  refine .add ?_ (ok_names (by dsimp only; decide +kernel))
  refine .add ?_ (ok_names (by dsimp only; decide +kernel))
  refine .add ?_ (ok_names (by dsimp only; decide +kernel))
  exact .empty
theorem built_F33_HardDrive_op : F33_HardDrive.op.Built := by
  unfold F33_HardDrive.op
  refine .add ?_ (ok_names (by dsimp only; decide +kernel))
  refine .remove _ ?_
  exact built_FC3_HardDrive_op
theorem built_FC3_IgnoreDisk_op : FC3_IgnoreDisk.op.Built := by
  unfold FC3_IgnoreDisk.op
  refine .add ?_ (ok_names (by dsimp only; decide +kernel))
  exact .empty
theorem built_F8_IgnoreDisk_op : F8_IgnoreDisk.op.Built := by
  unfold F8_IgnoreDisk.op
  refine .add ?_ (ok_names (by dsimp only; decide +kernel))
  refine .add ?_ (ok_names (by dsimp only; decide +kernel))
  exact built_FC3_IgnoreDisk_op
theorem built_RHEL6_IgnoreDisk_op : RHEL6_IgnoreDisk.op.Built := by
  unfold RHEL6_IgnoreDisk.op
  refine .add ?_ (ok_names (by dsimp only; decide +kernel))
  exact built_F8_IgnoreDisk_op
theorem built_F29_IgnoreDisk_op : F29_IgnoreDisk.op.Built := by
  unfold F29_IgnoreDisk.op
  refine .add ?_ (ok_names (by dsimp only; decide +kernel))
  exact built_RHEL6_IgnoreDisk_op
theorem built_F34_IgnoreDisk_op : F34_IgnoreDisk.op.Built := by
  unfold F34_IgnoreDisk.op
  refine .remove _ ?_
  exact built_F29_IgnoreDisk_op
theorem built_FC3_Upgrade_op : FC3_Upgrade.op.Built := by
  unfold FC3_Upgrade.op
  exact .empty
theorem built_F11_Upgrade_op : F11_Upgrade.op.Built := by
  unfold F11_Upgrade.op
  refine .add ?_ (ok_names (by dsimp only; decide +kernel))
  exact built_FC3_Upgrade_op
theorem built_F20_Install_op : F20_Install.op.Built := by
  unfold F20_Install.op
  exact built_F11_Upgrade_op
theorem built_FC3_Interactive_op : FC3_Interactive.op.Built := by
  unfold FC3_Interactive.op
  exact .empty
theorem built_FC6_Iscsi_op : FC6_Iscsi.op.Built := by
  unfold FC6_Iscsi.op
  refine .add ?_ (ok_names (by dsimp only; decide +kernel))
  refine .add ?_ (ok_names (by dsimp only; decide +kernel))
  refine .add ?_ (ok_names (by dsimp only; decide +kernel))
  refine .add ?_ (ok_names (by dsimp only; decide +kernel))
  refine .add ?_ (ok_names (by dsimp only; decide +kernel))
  exact .empty
theorem built_F10_Iscsi_op : F10_Iscsi.op.Built := by
  unfold F10_Iscsi.op
  refine .add ?_ (ok_names (by dsimp only; decide +kernel))
  refine .add ?_ (ok_names (by dsimp only; decide +kernel))
  exact built_FC6_Iscsi_op
theorem built_RHEL6_Iscsi_op : RHEL6_Iscsi.op.Built := by
  unfold RHEL6_Iscsi.op
  refine .add ?_ (ok_names (by dsimp only; decide +kernel))
  exact built_F10_Iscsi_op
theorem built_F17_Iscsi_op : F17_Iscsi.op.Built := by
  unfold F17_Iscsi.op
  exact built_RHEL6_Iscsi_op
theorem built_FC6_IscsiName_op : FC6_IscsiName.op.Built := by
  unfold FC6_IscsiName.op
  refine .add ?_ (ok_names (by dsimp only; decide +kernel))
  exact .empty
theorem built_RHEL5_Key_op : RHEL5_Key.op.Built := by
  unfold RHEL5_Key.op
  refine .add ?_ (ok_names (by dsimp only; decide +kernel))
  exact .empty
theorem built_FC3_Keyboard_op : FC3_Keyboard.op.Built := by
  unfold FC3_Keyboard.op
  refine .add ?_ (ok_names (by dsimp only; decide +kernel))
  exact .empty
theorem built_F18_Keyboard_op : F18_Keyboard.op.Built := by
  unfold F18_Keyboard.op
  refine .add ?_ (ok_names (by dsimp only; decide +kernel))
  refine .add ?_ (ok_names (by dsimp only; decide +kernel))
  refine .add ?_ (ok_names (by dsimp only; decide +kernel))
  exact built_FC3_Keyboard_op
theorem built_FC3_Lang_op : FC3_Lang.op.Built := by
  unfold FC3_Lang.op
  refine .add ?_ (ok_names (by dsimp only; decide +kernel))
  exact .empty
theorem built_F19_Lang_op : F19_Lang.op.Built := by
  unfold F19_Lang.op
  refine .add ?_ (ok_names (by dsimp only; decide +kernel))
  exact built_FC3_Lang_op
theorem built_FC3_LangSupport_op : FC3_LangSupport.op.Built := by
  unfold FC3_LangSupport.op
  refine .add ?_ (ok_names (by dsimp only; decide +kernel))
  exact .empty
theorem built_FC3_LiloCheck_op : FC3_LiloCheck.op.Built := by
  unfold FC3_LiloCheck.op
  exact .empty
theorem built_F19_Liveimg_op : F19_Liveimg.op.Built := by
  unfold F19_Liveimg.op
  refine .add ?_ (ok_names (by dsimp only; decide +kernel))
  refine .add ?_ (ok_names (by dsimp only; decide +kernel))
  refine .add ?_ (ok_names (by dsimp only; decide +kernel))
  refine .add ?_ (ok_names (by dsimp only; decide +kernel))
  exact .empty
theorem built_FC6_Logging_op : FC6_Logging.op.Built := by
  unfold FC6_Logging.op
  refine .add ?_ (ok_names (by dsimp only; decide +kernel))
  refine .add ?_ (ok_names (by dsimp only; decide +kernel))
  refine .add ?_ (ok_names (by dsimp only; decide +kernel))
  exact .empty
theorem built_F34_Logging_op : F34_Logging.op.Built := by
  unfold F34_Logging.op
  refine .add ?_ (ok_names (by dsimp only; decide +kernel))
  exact built_FC6_Logging_op
theorem built_FC3_LogVol_op : FC3_LogVol.op.Built := by
  unfold FC3_LogVol.op
  refine .add ?_ (ok_names (by dsimp only; decide +kernel))
  refine .add ?_ (ok_names (by dsimp only; decide +kernel))
  refine .add ?_ (ok_names (by dsimp only; decide +kernel))
  refine .add ?_ (ok_names (by dsimp only; decide +kernel))
  refine .add ?_ (ok_names (by dsimp only; decide +kernel))
  refine .add ?_ (ok_names (by dsimp only; decide +kernel))
  refine .add ?_ (ok_names (by dsimp only; decide +kernel))
  refine .add ?_ (ok_names (by dsimp only; decide +kernel))
  refine .add ?_ (ok_names (by dsimp only; decide +kernel))
  refine .add ?_ (ok_names (by dsimp only; decide +kernel))
  refine .add ?_ (ok_names (by dsimp only; decide +kernel))
  exact .empty
theorem built_FC4_LogVol_op : FC4_LogVol.op.Built := by
  unfold FC4_LogVol.op
  refine .add ?_ (ok_names (by dsimp only; decide +kernel))
  refine .add ?_ (ok_names (by dsimp only; decide +kernel))
  exact built_FC3_LogVol_op
theorem built_RHEL5_LogVol_op : RHEL5_LogVol.op.Built := by
  unfold RHEL5_LogVol.op
  refine .add ?_ (ok_names (by dsimp only; decide +kernel))
  refine .add ?_ (ok_names (by dsimp only; decide +kernel))
  exact built_FC4_LogVol_op
theorem built_F9_LogVol_op : F9_LogVol.op.Built := by
  unfold F9_LogVol.op
  refine .add ?_ (ok_names (by dsimp only; decide +kernel))
  refine .add ?_ (ok_names (by dsimp only; decide +kernel))
  refine .add ?_ (ok_names (by dsimp only; decide +kernel))
  refine .add ?_ (ok_names (by dsimp only; decide +kernel))
  exact built_FC4_LogVol_op
theorem built_F12_LogVol_op : F12_LogVol.op.Built := by
  unfold F12_LogVol.op
  refine .add ?_ (ok_names (by dsimp only; decide +kernel))
  refine .add ?_ (ok_names (by dsimp only; decide +kernel))
  exact built_F9_LogVol_op
theorem built_RHEL6_LogVol_op : RHEL6_LogVol.op.Built := by
  unfold RHEL6_LogVol.op
  refine .add ?_ (ok_names (by dsimp only; decide +kernel))
  refine .add ?_ (ok_names (by dsimp only; decide +kernel))
  refine .add ?_ (ok_names (by dsimp only; decide +kernel))
  refine .add ?_ (ok_names (by dsimp only; decide +kernel))
  refine .add ?_ (ok_names (by dsimp only; decide +kernel))
  refine .add ?_ (ok_names (by dsimp only; decide +kernel))
  refine .add ?_ (ok_names (by dsimp only; decide +kernel))
  refine .add ?_ (ok_names (by dsimp only; decide +kernel))
  exact built_F12_LogVol_op
theorem built_F14_LogVol_op : F14_LogVol.op.Built := by
  unfold F14_LogVol.op
  refine .remove _ ?_
  exact built_F12_LogVol_op
theorem built_F15_LogVol_op : F15_LogVol.op.Built := by
  unfold F15_LogVol.op
  refine .add ?_ (ok_names (by dsimp only; decide +kernel))
  exact built_F14_LogVol_op
theorem built_F17_LogVol_op : F17_LogVol.op.Built := by
  unfold F17_LogVol.op
  refine .add ?_ (ok_names (by dsimp only; decide +kernel))
  exact built_F15_LogVol_op
theorem built_F18_LogVol_op : F18_LogVol.op.Built := by
  unfold F18_LogVol.op
  refine .add ?_ (ok_names (by dsimp only; decide +kernel))
  refine .add ?_ (ok_names (by dsimp only; decide +kernel))
  exact built_F17_LogVol_op
theorem built_F20_LogVol_op : F20_LogVol.op.Built := by
  unfold F20_LogVol.op
  refine .add ?_ (ok_names (by dsimp only; decide +kernel))
  refine .add ?_ (ok_names (by dsimp only; decide +kernel))
  refine .add ?_ (ok_names (by dsimp only; decide +kernel))
  refine .add ?_ (ok_names (by dsimp only; decide +kernel))
  refine .add ?_ (ok_names (by dsimp only; decide +kernel))
  exact built_F18_LogVol_op
theorem built_F21_LogVol_op : F21_LogVol.op.Built := by
  unfold F21_LogVol.op
  refine .add ?_ (ok_names (by dsimp only; decide +kernel))
  exact built_F20_LogVol_op
theorem built_RHEL7_LogVol_op : RHEL7_LogVol.op.Built := by
  unfold RHEL7_LogVol.op
  refine .add ?_ (ok_names (by dsimp only; decide +kernel))
  exact built_F21_LogVol_op
theorem built_F23_LogVol_op : F23_LogVol.op.Built := by
  unfold F23_LogVol.op
  refine .add ?_ (ok_names (by dsimp only; decide +kernel))
  refine .add ?_ (ok_names (by dsimp only; decide +kernel))
  refine .add ?_ (ok_names (by dsimp only; decide +kernel))
  refine .add ?_ (ok_names (by dsimp only; decide +kernel))
  exact built_F21_LogVol_op
theorem built_F29_LogVol_op : F29_LogVol.op.Built := by
  unfold F29_LogVol.op
  refine .add ?_ (ok_names (by dsimp only; decide +kernel))
  refine .add ?_ (ok_names (by dsimp only; decide +kernel))
  refine .add ?_ (ok_names (by dsimp only; decide +kernel))
  refine .add ?_ (ok_names (by dsimp only; decide +kernel))
  refine .add ?_ (ok_names (by dsimp only; decide +kernel))
  exact built_F23_LogVol_op
theorem built_RHEL8_LogVol_op : RHEL8_LogVol.op.Built := by
  unfold RHEL8_LogVol.op
  exact built_F29_LogVol_op
theorem built_FC4_MediaCheck_op : FC4_MediaCheck.op.Built := by
  unfold FC4_MediaCheck.op
  exact .empty
theorem built_F29_Module_op : F29_Module.op.Built := by
  unfold F29_Module.op
  refine .add ?_ (ok_names (by dsimp only; decide +kernel))
  refine .add ?_ (ok_names (by dsimp only; decide +kernel))
  exact .empty
theorem built_RHEL8_Module_op : RHEL8_Module.op.Built := by
  unfold RHEL8_Module.op
  refine .add ?_ (ok_names (by dsimp only; decide +kernel))
  exact built_F29_Module_op
theorem built_FC3_Monitor_op : FC3_Monitor.op.Built := by
  unfold FC3_Monitor.op
  refine .add ?_ (ok_names (by dsimp only; decide +kernel))
  refine .add ?_ (ok_names (by dsimp only; decide +kernel))
  refine .add ?_ (ok_names (by dsimp only; decide +kernel))
  exact .empty
theorem built_FC6_Monitor_op : FC6_Monitor.op.Built := by
  unfold FC6_Monitor.op
  refine .add ?_ (ok_names (by dsimp only; decide +kernel))
  exact built_FC3_Monitor_op
theorem built_F27_Mount_op : F27_Mount.op.Built := by
  unfold F27_Mount.op
  refine .add ?_ (ok_names (by dsimp only; decide +kernel))
  refine .add ?_ (ok_names (by dsimp only; decide +kernel))
  refine .add ?_ (ok_names (by dsimp only; decide +kernel))
  refine .add ?_ (ok_names (by dsimp only; decide +kernel))
  refine .add ?_ (ok_names (by dsimp only; decide +kernel))
  exact .empty
theorem built_RHEL3_Mouse_op : RHEL3_Mouse.op.Built := by
  unfold RHEL3_Mouse.op
  refine .add ?_ (ok_names (by dsimp only; decide +kernel))
  refine .add ?_ (ok_names (by dsimp only; decide +kernel))
  exact .empty
theorem built_FC6_MultiPath_op : FC6_MultiPath.op.Built := by
  unfold FC6_MultiPath.op
  refine .add ?_ (ok_names (by dsimp only; decide +kernel))
  refine .add ?_ (ok_names (by dsimp only; decide +kernel))
  refine .add ?_ (ok_names (by dsimp only; decide +kernel))
  exact .empty
theorem built_FC3_Network_opWith (a) : (FC3_Network.opWith a).Built := by
  unfold FC3_Network.opWith
  refine .add ?_ (ok_names (by dsimp only; decide +kernel))
  refine .add ?_ (ok_names (by dsimp only; decide +kernel))
  refine .add ?_ (ok_names (by dsimp only; decide +kernel))
  refine .add ?_ (ok_names (by dsimp only; decide +kernel))
  refine .add ?_ (ok_names (by dsimp only; decide +kernel))
  refine .add ?_ (ok_names (by dsimp only; decide +kernel))
  refine .add ?_ (ok_names (by dsimp only; decide +kernel))
  refine .add ?_ (ok_names (by dsimp only; decide +kernel))
  refine .add ?_ (ok_names (by dsimp only; decide +kernel))
  refine .add ?_ (ok_names (by dsimp only; decide +kernel))
  refine .add ?_ (ok_names (by dsimp only; decide +kernel))
  refine .add ?_ (ok_names (by dsimp only; decide +kernel))
  refine .add ?_ (ok_names (by dsimp only; decide +kernel))
  refine .add ?_ (ok_names (by dsimp only; decide +kernel))
  exact .empty
theorem built_FC4_Network_opWith (a) : (FC4_Network.opWith a).Built := by
  unfold FC4_Network.opWith
  refine .add ?_ (ok_names (by dsimp only; decide +kernel))
  exact built_FC3_Network_opWith _
theorem built_FC6_Network_opWith (a) : (FC6_Network.opWith a).Built := by
  unfold FC6_Network.opWith
  refine .add ?_ (ok_names (by dsimp only; decide +kernel))
  refine .add ?_ (ok_names (by dsimp only; decide +kernel))
  exact built_FC4_Network_opWith _
theorem built_F8_Network_opWith (a) : (F8_Network.opWith a).Built := by
  unfold F8_Network.opWith
  refine .add ?_ (ok_names (by dsimp only; decide +kernel))
  exact built_FC6_Network_opWith _
theorem built_F9_Network_opWith (a) : (F9_Network.opWith a).Built := by
  unfold F9_Network.opWith
  exact built_F8_Network_opWith _
theorem built_F16_Network_opWith (a) : (F16_Network.opWith a).Built := by
  unfold F16_Network.opWith
  refine .add ?_ (ok_names (by dsimp only; decide +kernel))
  refine .add ?_ (ok_names (by dsimp only; decide +kernel))
  refine .add ?_ (ok_names (by dsimp only; decide +kernel))
  exact built_F9_Network_opWith _
theorem built_F19_Network_opWith (a) : (F19_Network.opWith a).Built := by
  unfold F19_Network.opWith
  refine .add ?_ (ok_names (by dsimp only; decide +kernel))
  refine .add ?_ (ok_names (by dsimp only; decide +kernel))
  refine .add ?_ (ok_names (by dsimp only; decide +kernel))
  refine .add ?_ (ok_names (by dsimp only; decide +kernel))
  exact built_F16_Network_opWith _
theorem built_F20_Network_opWith (a) : (F20_Network.opWith a).Built := by
  unfold F20_Network.opWith
  refine .add ?_ (ok_names (by dsimp only; decide +kernel))
  refine .add ?_ (ok_names (by dsimp only; decide +kernel))
  exact built_F19_Network_opWith _
theorem built_F21_Network_opWith (a) : (F21_Network.opWith a).Built := by
  unfold F21_Network.opWith
  refine .add ?_ (ok_names (by dsimp only; decide +kernel))
  exact built_F20_Network_opWith _
theorem built_F22_Network_opWith (a) : (F22_Network.opWith a).Built := by
  unfold F22_Network.opWith
  refine .add ?_ (ok_names (by dsimp only; decide +kernel))
  refine .add ?_ (ok_names (by dsimp only; decide +kernel))
  exact built_F21_Network_opWith _
theorem built_F25_Network_opWith (a) : (F25_Network.opWith a).Built := by
  unfold F25_Network.opWith
  refine .add ?_ (ok_names (by dsimp only; decide +kernel))
  exact built_F22_Network_opWith _
theorem built_F27_Network_opWith (a) (b) : (F27_Network.opWith a b).Built := by
  unfold F27_Network.opWith
  refine .add ?_ (ok_names (by dsimp only; decide +kernel))
  exact built_F25_Network_opWith _
theorem built_RHEL4_Network_opWith (a) : (RHEL4_Network.opWith a).Built := by
  unfold RHEL4_Network.opWith
  refine .add ?_ (ok_names (by dsimp only; decide +kernel))
  exact built_FC3_Network_opWith _
theorem built_RHEL5_Network_opWith (a) : (RHEL5_Network.opWith a).Built := by
  unfold RHEL5_Network.opWith
  exact built_FC6_Network_opWith _
theorem built_RHEL6_Network_opWith (a) : (RHEL6_Network.opWith a).Built := by
  unfold RHEL6_Network.opWith
  refine .add ?_ (ok_names (by dsimp only; decide +kernel))
  refine .add ?_ (ok_names (by dsimp only; decide +kernel))
  refine .add ?_ (ok_names (by dsimp only; decide +kernel))
  refine .add ?_ (ok_names (by dsimp only; decide +kernel))
  refine .add ?_ (ok_names (by dsimp only; decide +kernel))
  exact built_F9_Network_opWith _
theorem built_RHEL7_Network_opWith (a) (b) : (RHEL7_Network.opWith a b).Built := by
  unfold RHEL7_Network.opWith
  refine .add ?_ (ok_names (by dsimp only; decide +kernel))
  refine .add ?_ (ok_names (by dsimp only; decide +kernel))
  refine .add ?_ (ok_names (by dsimp only; decide +kernel))
  refine .add ?_ (ok_names (by dsimp only; decide +kernel))
  exact built_F21_Network_opWith _
theorem built_FC3_NFS_op : FC3_NFS.op.Built := by
  unfold FC3_NFS.op
  refine .add ?_ (ok_names (by dsimp only; decide +kernel))
  refine .add ?_ (ok_names (by dsimp only; decide +kernel))
  exact .empty
theorem built_FC6_NFS_op : FC6_NFS.op.Built := by
  unfold FC6_NFS.op
  refine .add ?_ (ok_names (by dsimp only; decide +kernel))
  exact built_FC3_NFS_op
theorem built_F28_Nvdimm_opWith (a) (b) : (F28_Nvdimm.opWith a b).Built := by
  unfold F28_Nvdimm.opWith
  refine .add ?_ (ok_names (by dsimp only; decide +kernel))
  refine .add ?_ (ok_names (by dsimp only; decide +kernel))
  refine .add ?_ (ok_names (by dsimp only; decide +kernel))
  refine .add ?_ (ok_names (by dsimp only; decide +kernel))
  refine .add ?_ (ok_names (by dsimp only; decide +kernel))
  exact .empty
theorem built_F21_OSTreeSetup_op : F21_OSTreeSetup.op.Built := by
  unfold F21_OSTreeSetup.op
  refine .add ?_ (ok_names (by dsimp only; decide +kernel))
  refine .add ?_ (ok_names (by dsimp only; decide +kernel))
  refine .add ?_ (ok_names (by dsimp only; decide +kernel))
  refine .add ?_ (ok_names (by dsimp only; decide +kernel))
  refine .add ?_ (ok_names (by dsimp only; decide +kernel))
  exact .empty
theorem built_FC3_Partition_op : FC3_Partition.op.Built := by
  unfold FC3_Partition.op
  refine .add ?_ (ok_names (by dsimp only; decide +kernel))
  refine .add ?_ (ok_names (by dsimp only; decide +kernel))
  refine .add ?_ (ok_names (by dsimp only; decide +kernel))
  refine .add ?_ (ok_names (by dsimp only; decide +kernel))
  refine .add ?_ (ok_names (by dsimp only; decide +kernel))
  refine .add ?_ (ok_names (by dsimp only; decide +kernel))
  refine .add ?_ (ok_names (by dsimp only; decide +kernel))
  refine .add ?_ (ok_names (by dsimp only; decide +kernel))
  refine .add ?_ (ok_names (by dsimp only; decide +kernel))
  refine .add ?_ (ok_names (by dsimp only; decide +kernel))
  refine .add ?_ (ok_names (by dsimp only; decide +kernel))
  refine .add ?_ (ok_names (by dsimp only; decide +kernel))
  refine .add ?_ (ok_names (by dsimp only; decide +kernel))
  refine .add ?_ (ok_names (by dsimp only; decide +kernel))
  exact .empty
theorem built_FC4_Partition_op : FC4_Partition.op.Built := by
  unfold FC4_Partition.op
  refine .add ?_ (ok_names (by dsimp only; decide +kernel))
  refine .add ?_ (ok_names (by dsimp only; decide +kernel))
  refine .add ?_ (ok_names (by dsimp only; decide +kernel))
  exact built_FC3_Partition_op
theorem built_RHEL5_Partition_op : RHEL5_Partition.op.Built := by
  unfold RHEL5_Partition.op
  refine .add ?_ (ok_names (by dsimp only; decide +kernel))
  refine .add ?_ (ok_names (by dsimp only; decide +kernel))
  exact built_FC4_Partition_op
theorem built_F9_Partition_op : F9_Partition.op.Built := by
  unfold F9_Partition.op
  refine .add ?_ (ok_names (by dsimp only; decide +kernel))
  refine .add ?_ (ok_names (by dsimp only; decide +kernel))
  refine .add ?_ (ok_names (by dsimp only; decide +kernel))
  refine .add ?_ (ok_names (by dsimp only; decide +kernel))
  exact built_FC4_Partition_op
theorem built_F11_Partition_op : F11_Partition.op.Built := by
  unfold F11_Partition.op
  refine .add ?_ (ok_names (by dsimp only; decide +kernel))
  refine .add ?_ (ok_names (by dsimp only; decide +kernel))
  exact built_F9_Partition_op
theorem built_F12_Partition_op : F12_Partition.op.Built := by
  unfold F12_Partition.op
  refine .add ?_ (ok_names (by dsimp only; decide +kernel))
  refine .add ?_ (ok_names (by dsimp only; decide +kernel))
  exact built_F11_Partition_op
theorem built_RHEL6_Partition_op : RHEL6_Partition.op.Built := by
  unfold RHEL6_Partition.op
  refine .add ?_ (ok_names (by dsimp only; decide +kernel))
  refine .add ?_ (ok_names (by dsimp only; decide +kernel))
  exact built_F12_Partition_op
theorem built_F14_Partition_op : F14_Partition.op.Built := by
  unfold F14_Partition.op
  refine .remove _ ?_
  refine .remove _ ?_
  refine .remove _ ?_
  exact built_F12_Partition_op
theorem built_F17_Partition_op : F17_Partition.op.Built := by
  unfold F17_Partition.op
  refine .add ?_ (ok_names (by dsimp only; decide +kernel))
  exact built_F14_Partition_op
theorem built_F18_Partition_op : F18_Partition.op.Built := by
  unfold F18_Partition.op
  refine .add ?_ (ok_names (by dsimp only; decide +kernel))
  refine .add ?_ (ok_names (by dsimp only; decide +kernel))
  exact built_F17_Partition_op
theorem built_F23_Partition_op : F23_Partition.op.Built := by
  unfold F23_Partition.op
  refine .add ?_ (ok_names (by dsimp only; decide +kernel))
  exact built_F18_Partition_op
theorem built_F29_Partition_op : F29_Partition.op.Built := by
  unfold F29_Partition.op
  refine .add ?_ (ok_names (by dsimp only; decide +kernel))
  refine .add ?_ (ok_names (by dsimp only; decide +kernel))
  refine .add ?_ (ok_names (by dsimp only; decide +kernel))
  refine .add ?_ (ok_names (by dsimp only; decide +kernel))
  refine .add ?_ (ok_names (by dsimp only; decide +kernel))
  refine .add ?_ (ok_names (by dsimp only; decide +kernel))
  exact built_F23_Partition_op
theorem built_RHEL8_Partition_op : RHEL8_Partition.op.Built := by
  unfold RHEL8_Partition.op
  exact built_F29_Partition_op
theorem built_F34_Partition_op : F34_Partition.op.Built := by
  unfold F34_Partition.op
  refine .remove _ ?_
  exact built_F29_Partition_op
theorem built_FC3_Raid_opWith (a) : (FC3_Raid.opWith a).Built := by
  unfold FC3_Raid.opWith
  refine .add ?_ (ok_names (by dsimp only; decide +kernel))
  refine .add ?_ (ok_names (by dsimp only; decide +kernel))
  refine .add ?_ (ok_names (by dsimp only; decide +kernel))
  refine .add ?_ (ok_names (by dsimp only; decide +kernel))
  refine .add ?_ (ok_names (by dsimp only; decide +kernel))
  refine .add ?_ (ok_names (by dsimp only; decide +kernel))
  refine .add ?_ (ok_names (by dsimp only; decide +kernel))
  refine .add ?_ (ok_names (by dsimp only; decide +kernel))
  exact .empty
theorem built_FC4_Raid_opWith (a) : (FC4_Raid.opWith a).Built := by
  unfold FC4_Raid.opWith
  refine .add ?_ (ok_names (by dsimp only; decide +kernel))
  exact built_FC3_Raid_opWith _
theorem built_FC5_Raid_opWith (a) : (FC5_Raid.opWith a).Built := by
  unfold FC5_Raid.opWith
  refine .add ?_ (ok_names (by dsimp only; decide +kernel))
  exact built_FC4_Raid_opWith _
theorem built_RHEL5_Raid_opWith (a) : (RHEL5_Raid.opWith a).Built := by
  unfold RHEL5_Raid.opWith
  refine .add ?_ (ok_names (by dsimp only; decide +kernel))
  refine .add ?_ (ok_names (by dsimp only; decide +kernel))
  exact built_FC5_Raid_opWith _
theorem built_F7_Raid_opWith (a) : (F7_Raid.opWith a).Built := by
  unfold F7_Raid.opWith
  exact built_FC5_Raid_opWith _
theorem built_F9_Raid_opWith (a) : (F9_Raid.opWith a).Built := by
  unfold F9_Raid.opWith
  refine .add ?_ (ok_names (by dsimp only; decide +kernel))
  refine .add ?_ (ok_names (by dsimp only; decide +kernel))
  refine .add ?_ (ok_names (by dsimp only; decide +kernel))
  refine .add ?_ (ok_names (by dsimp only; decide +kernel))
  exact built_F7_Raid_opWith _
theorem built_F12_Raid_opWith (a) : (F12_Raid.opWith a).Built := by
  unfold F12_Raid.opWith
  refine .add ?_ (ok_names (by dsimp only; decide +kernel))
  refine .add ?_ (ok_names (by dsimp only; decide +kernel))
  exact built_F9_Raid_opWith _
theorem built_F13_Raid_opWith (a) : (F13_Raid.opWith a).Built := by
  unfold F13_Raid.opWith
  exact built_F12_Raid_opWith _
theorem built_RHEL6_Raid_opWith (a) : (RHEL6_Raid.opWith a).Built := by
  unfold RHEL6_Raid.opWith
  refine .add ?_ (ok_names (by dsimp only; decide +kernel))
  exact built_F13_Raid_opWith _
theorem built_F14_Raid_opWith (a) : (F14_Raid.opWith a).Built := by
  unfold F14_Raid.opWith
  refine .remove _ ?_
  exact built_F13_Raid_opWith _
theorem built_F15_Raid_opWith (a) : (F15_Raid.opWith a).Built := by
  unfold F15_Raid.opWith
  refine .add ?_ (ok_names (by dsimp only; decide +kernel))
  exact built_F14_Raid_opWith _
theorem built_F18_Raid_opWith (a) : (F18_Raid.opWith a).Built := by
  unfold F18_Raid.opWith
  refine .add ?_ (ok_names (by dsimp only; decide +kernel))
  exact built_F15_Raid_opWith _
theorem built_F23_Raid_opWith (a) : (F23_Raid.opWith a).Built := by
  unfold F23_Raid.opWith
  refine .add ?_ (ok_names (by dsimp only; decide +kernel))
  exact built_F18_Raid_opWith _
theorem built_F25_Raid_opWith (a) : (F25_Raid.opWith a).Built := by
  unfold F25_Raid.opWith
  refine .add ?_ (ok_names (by dsimp only; decide +kernel))
  exact built_F23_Raid_opWith _
theorem built_F29_Raid_opWith (a) : (F29_Raid.opWith a).Built := by
  unfold F29_Raid.opWith
  refine .add ?_ (ok_names (by dsimp only; decide +kernel))
  refine .add ?_ (ok_names (by dsimp only; decide +kernel))
  refine .add ?_ (ok_names (by dsimp only; decide +kernel))
  refine .add ?_ (ok_names (by dsimp only; decide +kernel))
  refine .add ?_ (ok_names (by dsimp only; decide +kernel))
  exact built_F25_Raid_opWith _
theorem built_RHEL8_Raid_opWith (a) : (RHEL8_Raid.opWith a).Built := by
  unfold RHEL8_Raid.opWith
  exact built_F29_Raid_opWith _
theorem built_FC3_Reboot_op : FC3_Reboot.op.Built := by
  unfold FC3_Reboot.op
  exact .empty
theorem built_FC6_Reboot_op : FC6_Reboot.op.Built := by
  unfold FC6_Reboot.op
  refine .add ?_ (ok_names (by dsimp only; decide +kernel))
  exact built_FC3_Reboot_op
theorem built_F18_Reboot_op : F18_Reboot.op.Built := by
  unfold F18_Reboot.op
  exact built_FC6_Reboot_op
theorem built_F23_Reboot_op : F23_Reboot.op.Built := by
  unfold F23_Reboot.op
  refine .add ?_ (ok_names (by dsimp only; decide +kernel))
  exact built_F18_Reboot_op
theorem built_FC6_Repo_op : FC6_Repo.op.Built := by
  unfold FC6_Repo.op
  refine .add ?_ (ok_names (by dsimp only; decide +kernel))
  refine .add ?_ (ok_names (by dsimp only; decide +kernel))
  refine .add ?_ (ok_names (by dsimp only; decide +kernel))
  exact .empty
theorem built_F8_Repo_op : F8_Repo.op.Built := by
  unfold F8_Repo.op
  refine .add ?_ (ok_names (by dsimp only; decide +kernel))
  refine .add ?_ (ok_names (by dsimp only; decide +kernel))
  refine .add ?_ (ok_names (by dsimp only; decide +kernel))
  exact built_FC6_Repo_op
theorem built_F11_Repo_op : F11_Repo.op.Built := by
  unfold F11_Repo.op
  refine .add ?_ (ok_names (by dsimp only; decide +kernel))
  exact built_F8_Repo_op
theorem built_F13_Repo_op : F13_Repo.op.Built := by
  unfold F13_Repo.op
  refine .add ?_ (ok_names (by dsimp only; decide +kernel))
  exact built_F11_Repo_op
theorem built_F14_Repo_op : F14_Repo.op.Built := by
  unfold F14_Repo.op
  refine .add ?_ (ok_names (by dsimp only; decide +kernel))
  exact built_F13_Repo_op
theorem built_F15_Repo_op : F15_Repo.op.Built := by
  unfold F15_Repo.op
  exact built_F14_Repo_op
theorem built_F21_Repo_op : F21_Repo.op.Built := by
  unfold F21_Repo.op
  refine .add ?_ (ok_names (by dsimp only; decide +kernel))
  exact built_F15_Repo_op
theorem built_F27_Repo_op : F27_Repo.op.Built := by
  unfold F27_Repo.op
  refine .add ?_ (ok_names (by dsimp only; decide +kernel))
  exact built_F21_Repo_op
theorem built_F30_Repo_op : F30_Repo.op.Built := by
  unfold F30_Repo.op
  refine .add ?_ (ok_names (by dsimp only; decide +kernel))
  refine .add ?_ (ok_names (by dsimp only; decide +kernel))
  refine .add ?_ (ok_names (by dsimp only; decide +kernel))
  exact built_F27_Repo_op
theorem built_F33_Repo_op : F33_Repo.op.Built := by
  unfold F33_Repo.op
  refine .add ?_ (ok_names (by dsimp only; decide +kernel))
  exact built_F30_Repo_op
theorem built_F23_ReqPart_op : F23_ReqPart.op.Built := by
  unfold F23_ReqPart.op
  refine .add ?_ (ok_names (by dsimp only; decide +kernel))
  exact .empty
theorem built_F10_Rescue_op : F10_Rescue.op.Built := by
  unfold F10_Rescue.op
  refine .add ?_ (ok_names (by dsimp only; decide +kernel))
  refine .add ?_ (ok_names (by dsimp only; decide +kernel))
  exact .empty
theorem built_RHEL8_RHSM_op : RHEL8_RHSM.op.Built := by
  unfold RHEL8_RHSM.op
  refine .add ?_ (ok_names (by dsimp only; decide +kernel))
  refine .add ?_ (ok_names (by dsimp only; decide +kernel))
  refine .add ?_ (ok_names (by dsimp only; decide +kernel))
  refine .add ?_ (ok_names (by dsimp only; decide +kernel))
  refine .add ?_ (ok_names (by dsimp only; decide +kernel))
  refine .add ?_ (ok_names (by dsimp only; decide +kernel))
  exact .empty
theorem built_FC3_RootPw_op : FC3_RootPw.op.Built := by
  unfold FC3_RootPw.op
  refine .add ?_ (ok_names (by dsimp only; decide +kernel))
  refine .add ?_ (ok_names (by dsimp only; decide +kernel))
  exact .empty
theorem built_F8_RootPw_op : F8_RootPw.op.Built := by
  unfold F8_RootPw.op
  refine .add ?_ (ok_names (by dsimp only; decide +kernel))
  refine .add ?_ (ok_names (by dsimp only; decide +kernel))
  exact built_FC3_RootPw_op
theorem built_FC3_SELinux_op : FC3_SELinux.op.Built := by
  unfold FC3_SELinux.op
  refine .add ?_ (ok_names (by dsimp only; decide +kernel))
  refine .add ?_ (ok_names (by dsimp only; decide +kernel))
  refine .add ?_ (ok_names (by dsimp only; decide +kernel))
  exact .empty
theorem built_FC6_Services_op : FC6_Services.op.Built := by
  unfold FC6_Services.op
  refine .add ?_ (ok_names (by dsimp only; decide +kernel))
  refine .add ?_ (ok_names (by dsimp only; decide +kernel))
  exact .empty
theorem built_FC3_SkipX_op : FC3_SkipX.op.Built := by
  unfold FC3_SkipX.op
  exact .empty
theorem built_F26_Snapshot_opWith (a) : (F26_Snapshot.opWith a).Built := by
  unfold F26_Snapshot.opWith
  refine .add ?_ (ok_names (by dsimp only; decide +kernel))
  refine .add ?_ (ok_names (by dsimp only; decide +kernel))
  refine .add ?_ (ok_names (by dsimp only; decide +kernel))
  exact .empty
theorem built_F22_SshKey_op : F22_SshKey.op.Built := by
  unfold F22_SshKey.op
  refine .add ?_ (ok_names (by dsimp only; decide +kernel))
  refine .add ?_ (ok_names (by dsimp only; decide +kernel))
  exact .empty
theorem built_F13_SshPw_op : F13_SshPw.op.Built := by
  unfold F13_SshPw.op
  refine .add ?_ (ok_names (by dsimp only; decide +kernel))
  refine .add ?_ (ok_names (by dsimp only; decide +kernel))
  refine .add ?_ (ok_names (by dsimp only; decide +kernel))
  refine .add ?_ (ok_names (by dsimp only; decide +kernel))
  refine .add ?_ (ok_names (by dsimp only; decide +kernel))
  exact .empty
theorem built_F24_SshPw_op : F24_SshPw.op.Built := by
  unfold F24_SshPw.op
  refine .add ?_ (ok_names (by dsimp only; decide +kernel))
  exact built_F13_SshPw_op
theorem built_RHEL8_Syspurpose_op : RHEL8_Syspurpose.op.Built := by
  unfold RHEL8_Syspurpose.op
  refine .add ?_ (ok_names (by dsimp only; decide +kernel))
  refine .add ?_ (ok_names (by dsimp only; decide +kernel))
  refine .add ?_ (ok_names (by dsimp only; decide +kernel))
  refine .add ?_ (ok_names (by dsimp only; decide +kernel))
  exact .empty
theorem built_F33_Timesource_op : F33_Timesource.op.Built := by
  unfold F33_Timesource.op
  refine .add ?_ (ok_names (by dsimp only; decide +kernel))
  refine .add ?_ (ok_names (by dsimp only; decide +kernel))
  refine .add ?_ (ok_names (by dsimp only; decide +kernel))
  refine .add ?_ (ok_names (by dsimp only; decide +kernel))
  exact .empty
theorem built_FC3_Timezone_op : FC3_Timezone.op.Built := by
  unfold FC3_Timezone.op
  refine .add ?_ (ok_names (by dsimp only; decide +kernel))
  refine .add ?_ (ok_names (by dsimp only; decide +kernel))
  exact .empty
theorem built_FC6_Timezone_op : FC6_Timezone.op.Built := by
  unfold FC6_Timezone.op
  refine .add ?_ (ok_names (by dsimp only; decide +kernel))
  exact built_FC3_Timezone_op
theorem built_F18_Timezone_op : F18_Timezone.op.Built := by
  unfold F18_Timezone.op
  refine .add ?_ (ok_names (by dsimp only; decide +kernel))
  refine .add ?_ (ok_names (by dsimp only; decide +kernel))
  exact built_FC6_Timezone_op
theorem built_RHEL7_Timezone_op : RHEL7_Timezone.op.Built := by
  unfold RHEL7_Timezone.op
  refine .add ?_ (ok_names (by dsimp only; decide +kernel))
  refine .add ?_ (ok_names (by dsimp only; decide +kernel))
  refine .add ?_ (ok_names (by dsimp only; decide +kernel))
  refine .add ?_ (ok_names (by dsimp only; decide +kernel))
  exact .empty
theorem built_F25_Timezone_op : F25_Timezone.op.Built := by
  unfold F25_Timezone.op
  refine .add ?_ (ok_names (by dsimp only; decide +kernel))
  refine .add ?_ (ok_names (by dsimp only; decide +kernel))
  refine .add ?_ (ok_names (by dsimp only; decide +kernel))
  refine .add ?_ (ok_names (by dsimp only; decide +kernel))
  exact .empty
theorem built_RHEL6_UnsupportedHardware_op : RHEL6_UnsupportedHardware.op.Built := by
  unfold RHEL6_UnsupportedHardware.op
  exact .empty
theorem built_F7_Updates_op : F7_Updates.op.Built := by
  unfold F7_Updates.op
  refine .add ?_ (ok_names (by dsimp only; decide +kernel))
  exact .empty
theorem built_F34_Updates_op : F34_Updates.op.Built := by
  unfold F34_Updates.op
  refine .add ?_ (ok_names (by dsimp only; decide +kernel))
  exact .empty
theorem built_FC3_Url_op : FC3_Url.op.Built := by
  unfold FC3_Url.op
  refine .add ?_ (ok_names (by dsimp only; decide +kernel))
  exact .empty
theorem built_F13_Url_op : F13_Url.op.Built := by
  unfold F13_Url.op
  refine .add ?_ (ok_names (by dsimp only; decide +kernel))
  exact built_FC3_Url_op
theorem built_F14_Url_op : F14_Url.op.Built := by
  unfold F14_Url.op
  refine .add ?_ (ok_names (by dsimp only; decide +kernel))
  exact built_F13_Url_op
theorem built_F18_Url_op : F18_Url.op.Built := by
  unfold F18_Url.op
  refine .add ?_ (ok_names (by dsimp only; decide +kernel))
  refine .add ?_ (ok_names (by dsimp only; decide +kernel))
  exact built_F14_Url_op
theorem built_F27_Url_op : F27_Url.op.Built := by
  unfold F27_Url.op
  refine .add ?_ (ok_names (by dsimp only; decide +kernel))
  refine .add ?_ (ok_names (by dsimp only; decide +kernel))
  exact built_F18_Url_op
theorem built_F30_Url_op : F30_Url.op.Built := by
  unfold F30_Url.op
  refine .add ?_ (ok_names (by dsimp only; decide +kernel))
  refine .add ?_ (ok_names (by dsimp only; decide +kernel))
  refine .add ?_ (ok_names (by dsimp only; decide +kernel))
  exact built_F27_Url_op
theorem built_FC6_User_op : FC6_User.op.Built := by
  unfold FC6_User.op
  refine .add ?_ (ok_names (by dsimp only; decide +kernel))
  refine .add ?_ (ok_names (by dsimp only; decide +kernel))
  refine .add ?_ (ok_names (by dsimp only; decide +kernel))
  refine .add ?_ (ok_names (by dsimp only; decide +kernel))
  refine .add ?_ (ok_names (by dsimp only; decide +kernel))
  refine .add ?_ (ok_names (by dsimp only; decide +kernel))
  refine .add ?_ (ok_names (by dsimp only; decide +kernel))
  exact .empty
theorem built_F8_User_op : F8_User.op.Built := by
  unfold F8_User.op
  refine .add ?_ (ok_names (by dsimp only; decide +kernel))
  refine .add ?_ (ok_names (by dsimp only; decide +kernel))
  exact built_FC6_User_op
theorem built_F12_User_op : F12_User.op.Built := by
  unfold F12_User.op
  refine .add ?_ (ok_names (by dsimp only; decide +kernel))
  exact built_F8_User_op
theorem built_F19_User_op : F19_User.op.Built := by
  unfold F19_User.op
  refine .add ?_ (ok_names (by dsimp only; decide +kernel))
  exact built_F12_User_op
theorem built_F24_User_op : F24_User.op.Built := by
  unfold F24_User.op
  refine .add ?_ (ok_names (by dsimp only; decide +kernel))
  exact built_F19_User_op
theorem built_FC3_Vnc_op : FC3_Vnc.op.Built := by
  unfold FC3_Vnc.op
  refine .add ?_ (ok_names (by dsimp only; decide +kernel))
  refine .add ?_ (ok_names (by dsimp only; decide +kernel))
  exact .empty
theorem built_FC6_Vnc_op : FC6_Vnc.op.Built := by
  unfold FC6_Vnc.op
  refine .add ?_ (ok_names (by dsimp only; decide +kernel))
  refine .add ?_ (ok_names (by dsimp only; decide +kernel))
  refine .add ?_ (ok_names (by dsimp only; decide +kernel))
  exact built_FC3_Vnc_op
theorem built_F9_Vnc_op : F9_Vnc.op.Built := by
  unfold F9_Vnc.op
  refine .remove _ ?_
  exact built_FC6_Vnc_op
theorem built_FC3_VolGroup_op : FC3_VolGroup.op.Built := by
  unfold FC3_VolGroup.op
  refine .add ?_ (ok_names (by dsimp only; decide +kernel))
  refine .add ?_ (ok_names (by dsimp only; decide +kernel))
  refine .add ?_ (ok_names (by dsimp only; decide +kernel))
  refine .add ?_ (ok_names (by dsimp only; decide +kernel))
  refine .add ?_ (ok_names (by dsimp only; decide +kernel))
  exact .empty
theorem built_F16_VolGroup_op : F16_VolGroup.op.Built := by
  unfold F16_VolGroup.op
  refine .add ?_ (ok_names (by dsimp only; decide +kernel))
  refine .add ?_ (ok_names (by dsimp only; decide +kernel))
  exact built_FC3_VolGroup_op
theorem built_F21_VolGroup_op : F21_VolGroup.op.Built := by
  unfold F21_VolGroup.op
  refine .add ?_ (ok_names (by dsimp only; decide +kernel))
  exact built_F16_VolGroup_op
theorem built_FC3_XConfig_op : FC3_XConfig.op.Built := by
  unfold FC3_XConfig.op
  refine .add ?_ (ok_names (by dsimp only; decide +kernel))
  refine .add ?_ (ok_names (by dsimp only; decide +kernel))
  refine .add ?_ (ok_names (by dsimp only; decide +kernel))
  refine .add ?_ (ok_names (by dsimp only; decide +kernel))
  refine .add ?_ (ok_names (by dsimp only; decide +kernel))
  refine .add ?_ (ok_names (by dsimp only; decide +kernel))
  refine .add ?_ (ok_names (by dsimp only; decide +kernel))
  refine .add ?_ (ok_names (by dsimp only; decide +kernel))
  refine .add ?_ (ok_names (by dsimp only; decide +kernel))
  refine .add ?_ (ok_names (by dsimp only; decide +kernel))
  refine .add ?_ (ok_names (by dsimp only; decide +kernel))
  exact .empty
theorem built_FC6_XConfig_op : FC6_XConfig.op.Built := by
  unfold FC6_XConfig.op
  refine .remove _ ?_
  refine .add ?_ (ok_names (by dsimp only; decide +kernel))
  refine .add ?_ (ok_names (by dsimp only; decide +kernel))
  refine .add ?_ (ok_names (by dsimp only; decide +kernel))
  refine .add ?_ (ok_names (by dsimp only; decide +kernel))
  refine .add ?_ (ok_names (by dsimp only; decide +kernel))
  refine .add ?_ (ok_names (by dsimp only; decide +kernel))
  exact built_FC3_XConfig_op
theorem built_F9_XConfig_op : F9_XConfig.op.Built := by
  unfold F9_XConfig.op
  refine .remove _ ?_
  refine .remove _ ?_
  refine .remove _ ?_
  refine .remove _ ?_
  refine .remove _ ?_
  exact built_FC6_XConfig_op
theorem built_F10_XConfig_op : F10_XConfig.op.Built := by
  unfold F10_XConfig.op
  refine .add ?_ (ok_names (by dsimp only; decide +kernel))
  refine .add ?_ (ok_names (by dsimp only; decide +kernel))
  refine .add ?_ (ok_names (by dsimp only; decide +kernel))
  refine .add ?_ (ok_names (by dsimp only; decide +kernel))
  exact built_F9_XConfig_op
theorem built_F14_XConfig_op : F14_XConfig.op.Built := by
  unfold F14_XConfig.op
  refine .remove _ ?_
  refine .remove _ ?_
  refine .remove _ ?_
  refine .remove _ ?_
  exact built_F10_XConfig_op
theorem built_FC3_ZeroMbr_op : FC3_ZeroMbr.op.Built := by
  unfold FC3_ZeroMbr.op
  exact .empty
theorem built_FC3_ZFCP_op : FC3_ZFCP.op.Built := by
  unfold FC3_ZFCP.op
  refine .add ?_ (ok_names (by dsimp only; decide +kernel))
  refine .add ?_ (ok_names (by dsimp only; decide +kernel))
  refine .add ?_ (ok_names (by dsimp only; decide +kernel))
  refine .add ?_ (ok_names (by dsimp only; decide +kernel))
  refine .add ?_ (ok_names (by dsimp only; decide +kernel))
  exact .empty
theorem built_F12_ZFCP_op : F12_ZFCP.op.Built := by
  unfold F12_ZFCP.op
  refine .add ?_ (ok_names (by dsimp only; decide +kernel))
  refine .add ?_ (ok_names (by dsimp only; decide +kernel))
  exact built_FC3_ZFCP_op
theorem built_F14_ZFCP_op : F14_ZFCP.op.Built := by
  unfold F14_ZFCP.op
  refine .remove _ ?_
  refine .remove _ ?_
  exact built_F12_ZFCP_op
theorem built_F32_Zipl_op : F32_Zipl.op.Built := by
  unfold F32_Zipl.op
  refine .add ?_ (ok_names (by dsimp only; decide +kernel))
  refine .add ?_ (ok_names (by dsimp only; decide +kernel))
  refine .add ?_ (ok_names (by dsimp only; decide +kernel))
  exact .empty
theorem built_info_F10_Firewall : (F10_Firewall.info).op.Built := by unfold F10_Firewall.info; dsimp only; exact built_F10_Firewall_op
theorem built_info_F10_Iscsi : (F10_Iscsi.info F10_IscsiData.cls).op.Built := by unfold F10_Iscsi.info; dsimp only; exact built_F10_Iscsi_op
theorem built_info_F10_Rescue : (F10_Rescue.info).op.Built := by unfold F10_Rescue.info; dsimp only; exact built_F10_Rescue_op
theorem built_info_F10_XConfig : (F10_XConfig.info).op.Built := by unfold F10_XConfig.info; dsimp only; exact built_F10_XConfig_op
theorem built_info_F11_Partition : (F11_Partition.info F11_PartData.cls).op.Built := by unfold F11_Partition.info; dsimp only; exact built_F11_Partition_op
theorem built_info_F11_Repo : (F11_Repo.info F11_RepoData.cls).op.Built := by unfold F11_Repo.info; dsimp only; exact built_F11_Repo_op
theorem built_info_F11_Upgrade : (F11_Upgrade.info).op.Built := by unfold F11_Upgrade.info; dsimp only; exact built_F11_Upgrade_op
theorem built_info_F12_AutoPart : (F12_AutoPart.info).op.Built := by unfold F12_AutoPart.info; dsimp only; exact built_F12_AutoPart_op
theorem built_info_F12_Bootloader : (F12_Bootloader.info).op.Built := by unfold F12_Bootloader.info; dsimp only; exact built_F12_Bootloader_op
theorem built_info_F12_DriverDisk : (F12_DriverDisk.info F12_DriverDiskData.cls).op.Built := by unfold F12_DriverDisk.info; dsimp only; exact built_F12_DriverDisk_op
theorem built_info_F12_Fcoe : (F12_Fcoe.info F12_FcoeData.cls).op.Built := by unfold F12_Fcoe.info; dsimp only; exact built_F12_Fcoe_op
theorem built_info_F12_Group : (F12_Group.info F12_GroupData.cls).op.Built := by unfold F12_Group.info; dsimp only; exact built_F12_Group_op
theorem built_info_F12_LogVol : (F12_LogVol.info F12_LogVolData.cls).op.Built := by unfold F12_LogVol.info; dsimp only; exact built_F12_LogVol_op
theorem built_info_F12_Partition : (F12_Partition.info F12_PartData.cls).op.Built := by unfold F12_Partition.info; dsimp only; exact built_F12_Partition_op
theorem built_info_F12_Raid : (F12_Raid.info F12_RaidData.cls).op.Built := by unfold F12_Raid.info; dsimp only; exact built_F12_Raid_opWith _
theorem built_info_F12_User : (F12_User.info F12_UserData.cls).op.Built := by unfold F12_User.info; dsimp only; exact built_F12_User_op
theorem built_info_F12_ZFCP : (F12_ZFCP.info F12_ZFCPData.cls).op.Built := by unfold F12_ZFCP.info; dsimp only; exact built_F12_ZFCP_op
theorem built_info_F13_Fcoe : (F13_Fcoe.info F13_FcoeData.cls).op.Built := by unfold F13_Fcoe.info; dsimp only; exact built_F13_Fcoe_op
theorem built_info_F13_Raid : (F13_Raid.info F13_RaidData.cls).op.Built := by unfold F13_Raid.info; dsimp only; exact built_F13_Raid_opWith _
theorem built_info_F13_Repo : (F13_Repo.info F13_RepoData.cls).op.Built := by unfold F13_Repo.info; dsimp only; exact built_F13_Repo_op
theorem built_info_F13_SshPw : (F13_SshPw.info F13_SshPwData.cls).op.Built := by unfold F13_SshPw.info; dsimp only; exact built_F13_SshPw_op
theorem built_info_F13_Url : (F13_Url.info).op.Built := by unfold F13_Url.info; dsimp only; exact built_F13_Url_op
theorem built_info_F14_Bootloader : (F14_Bootloader.info).op.Built := by unfold F14_Bootloader.info; dsimp only; exact built_F14_Bootloader_op
theorem built_info_F14_DriverDisk : (F14_DriverDisk.info F14_DriverDiskData.cls).op.Built := by unfold F14_DriverDisk.info; dsimp only; exact built_F14_DriverDisk_op
theorem built_info_F14_Firewall : (F14_Firewall.info).op.Built := by unfold F14_Firewall.info; dsimp only; exact built_F14_Firewall_op
theorem built_info_F14_IgnoreDisk : (F14_IgnoreDisk.info).op.Built := by unfold F14_IgnoreDisk.info; dsimp only; exact built_RHEL6_IgnoreDisk_op
theorem built_info_F14_LogVol : (F14_LogVol.info F14_LogVolData.cls).op.Built := by unfold F14_LogVol.info; dsimp only; exact built_F14_LogVol_op
theorem built_info_F14_Partition : (F14_Partition.info F14_PartData.cls).op.Built := by unfold F14_Partition.info; dsimp only; exact built_F14_Partition_op
theorem built_info_F14_Raid : (F14_Raid.info F14_RaidData.cls).op.Built := by unfold F14_Raid.info; dsimp only; exact built_F14_Raid_opWith _
theorem built_info_F14_Repo : (F14_Repo.info F14_RepoData.cls).op.Built := by unfold F14_Repo.info; dsimp only; exact built_F14_Repo_op
theorem built_info_F14_Url : (F14_Url.info).op.Built := by unfold F14_Url.info; dsimp only; exact built_F14_Url_op
theorem built_info_F14_XConfig : (F14_XConfig.info).op.Built := by unfold F14_XConfig.info; dsimp only; exact built_F14_XConfig_op
theorem built_info_F14_ZFCP : (F14_ZFCP.info F14_ZFCPData.cls).op.Built := by unfold F14_ZFCP.info; dsimp only; exact built_F14_ZFCP_op
theorem built_info_F15_Bootloader : (F15_Bootloader.info).op.Built := by unfold F15_Bootloader.info; dsimp only; exact built_F15_Bootloader_op
theorem built_info_F15_LogVol : (F15_LogVol.info F15_LogVolData.cls).op.Built := by unfold F15_LogVol.info; dsimp only; exact built_F15_LogVol_op
theorem built_info_F15_Raid : (F15_Raid.info F15_RaidData.cls).op.Built := by unfold F15_Raid.info; dsimp only; exact built_F15_Raid_opWith _
theorem built_info_F15_Repo : (F15_Repo.info F15_RepoData.cls).op.Built := by unfold F15_Repo.info; dsimp only; exact built_F15_Repo_op
theorem built_info_F16_AutoPart : (F16_AutoPart.info).op.Built := by unfold F16_AutoPart.info; dsimp only; exact built_F16_AutoPart_op
theorem built_info_F16_Network : (F16_Network.info F16_NetworkData.cls).op.Built := by unfold F16_Network.info; dsimp only; exact built_F16_Network_opWith _
theorem built_info_F16_VolGroup : (F16_VolGroup.info F16_VolGroupData.cls).op.Built := by unfold F16_VolGroup.info; dsimp only; exact built_F16_VolGroup_op
theorem built_info_F17_AutoPart : (F17_AutoPart.info).op.Built := by unfold F17_AutoPart.info; dsimp only; exact built_F17_AutoPart_opWith _
theorem built_info_F17_BTRFS : (F17_BTRFS.info F17_BTRFSData.cls).op.Built := by unfold F17_BTRFS.info; dsimp only; exact built_F17_BTRFS_opWith _
theorem built_info_F17_Bootloader : (F17_Bootloader.info).op.Built := by unfold F17_Bootloader.info; dsimp only; exact built_F17_Bootloader_op
theorem built_info_F17_ClearPart : (F17_ClearPart.info).op.Built := by unfold F17_ClearPart.info; dsimp only; exact built_F17_ClearPart_op
theorem built_info_F17_Iscsi : (F17_Iscsi.info F17_IscsiData.cls).op.Built := by unfold F17_Iscsi.info; dsimp only; exact built_F17_Iscsi_op
theorem built_info_F17_LogVol : (F17_LogVol.info F17_LogVolData.cls).op.Built := by unfold F17_LogVol.info; dsimp only; exact built_F17_LogVol_op
theorem built_info_F17_Partition : (F17_Partition.info F17_PartData.cls).op.Built := by unfold F17_Partition.info; dsimp only; exact built_F17_Partition_op
theorem built_info_F18_AutoPart : (F18_AutoPart.info).op.Built := by unfold F18_AutoPart.info; dsimp only; exact built_F18_AutoPart_opWith _
theorem built_info_F18_Bootloader : (F18_Bootloader.info).op.Built := by unfold F18_Bootloader.info; dsimp only; exact built_F18_Bootloader_op
theorem built_info_F18_Keyboard : (F18_Keyboard.info).op.Built := by unfold F18_Keyboard.info; dsimp only; exact built_F18_Keyboard_op
theorem built_info_F18_LogVol : (F18_LogVol.info F18_LogVolData.cls).op.Built := by unfold F18_LogVol.info; dsimp only; exact built_F18_LogVol_op
theorem built_info_F18_Network : (F18_Network.info F16_NetworkData.cls).op.Built := by unfold F18_Network.info; dsimp only; exact built_F16_Network_opWith _
theorem built_info_F18_Partition : (F18_Partition.info F18_PartData.cls).op.Built := by unfold F18_Partition.info; dsimp only; exact built_F18_Partition_op
theorem built_info_F18_Raid : (F18_Raid.info F18_RaidData.cls).op.Built := by unfold F18_Raid.info; dsimp only; exact built_F18_Raid_opWith _
theorem built_info_F18_Reboot : (F18_Reboot.info).op.Built := by unfold F18_Reboot.info; dsimp only; exact built_F18_Reboot_op
theorem built_info_F18_RootPw : (F18_RootPw.info).op.Built := by unfold F18_RootPw.info; dsimp only; exact built_F8_RootPw_op
theorem built_info_F18_Timezone : (F18_Timezone.info).op.Built := by unfold F18_Timezone.info; dsimp only; exact built_F18_Timezone_op
theorem built_info_F18_Url : (F18_Url.info).op.Built := by unfold F18_Url.info; dsimp only; exact built_F18_Url_op
theorem built_info_F19_Bootloader : (F19_Bootloader.info).op.Built := by unfold F19_Bootloader.info; dsimp only; exact built_F19_Bootloader_op
theorem built_info_F19_Lang : (F19_Lang.info).op.Built := by unfold F19_Lang.info; dsimp only; exact built_F19_Lang_op
theorem built_info_F19_Liveimg : (F19_Liveimg.info).op.Built := by unfold F19_Liveimg.info; dsimp only; exact built_F19_Liveimg_op
theorem built_info_F19_Network : (F19_Network.info F19_NetworkData.cls).op.Built := by unfold F19_Network.info; dsimp only; exact built_F19_Network_opWith _
theorem built_info_F19_Raid : (F19_Raid.info F18_RaidData.cls).op.Built := by unfold F19_Raid.info; dsimp only; exact built_F18_Raid_opWith _
theorem built_info_F19_User : (F19_User.info F19_UserData.cls).op.Built := by unfold F19_User.info; dsimp only; exact built_F19_User_op
theorem built_info_F20_AutoPart : (F20_AutoPart.info).op.Built := by unfold F20_AutoPart.info; dsimp only; exact built_F20_AutoPart_opWith _
theorem built_info_F20_Eula : (F20_Eula.info).op.Built := by unfold F20_Eula.info; dsimp only; exact built_F20_Eula_op
theorem built_info_F20_Firewall : (F20_Firewall.info).op.Built := by unfold F20_Firewall.info; dsimp only; exact built_F20_Firewall_op
theorem built_info_F20_Install : (F20_Install.info).op.Built := by unfold F20_Install.info; dsimp only; exact built_F20_Install_op
theorem built_info_F20_LogVol : (F20_LogVol.info F20_LogVolData.cls).op.Built := by unfold F20_LogVol.info; dsimp only; exact built_F20_LogVol_op
theorem built_info_F20_Network : (F20_Network.info F20_NetworkData.cls).op.Built := by unfold F20_Network.info; dsimp only; exact built_F20_Network_opWith _
theorem built_info_F20_Partition : (F20_Partition.info F18_PartData.cls).op.Built := by unfold F20_Partition.info; dsimp only; exact built_F18_Partition_op
theorem built_info_F20_Raid : (F20_Raid.info F18_RaidData.cls).op.Built := by unfold F20_Raid.info; dsimp only; exact built_F18_Raid_opWith _
theorem built_info_F21_AutoPart : (F21_AutoPart.info).op.Built := by unfold F21_AutoPart.info; dsimp only; exact built_F21_AutoPart_opWith _
theorem built_info_F21_Bootloader : (F21_Bootloader.info).op.Built := by unfold F21_Bootloader.info; dsimp only; exact built_F21_Bootloader_op
theorem built_info_F21_ClearPart : (F21_ClearPart.info).op.Built := by unfold F21_ClearPart.info; dsimp only; exact built_F21_ClearPart_op
theorem built_info_F21_LogVol : (F21_LogVol.info F21_LogVolData.cls).op.Built := by unfold F21_LogVol.info; dsimp only; exact built_F21_LogVol_op
theorem built_info_F21_Network : (F21_Network.info F21_NetworkData.cls).op.Built := by unfold F21_Network.info; dsimp only; exact built_F21_Network_opWith _
theorem built_info_F21_OSTreeSetup : (F21_OSTreeSetup.info).op.Built := by unfold F21_OSTreeSetup.info; dsimp only; exact built_F21_OSTreeSetup_op
theorem built_info_F21_Repo : (F21_Repo.info F21_RepoData.cls).op.Built := by unfold F21_Repo.info; dsimp only; exact built_F21_Repo_op
theorem built_info_F21_VolGroup : (F21_VolGroup.info F21_VolGroupData.cls).op.Built := by unfold F21_VolGroup.info; dsimp only; exact built_F21_VolGroup_op
theorem built_info_F22_Network : (F22_Network.info F22_NetworkData.cls).op.Built := by unfold F22_Network.info; dsimp only; exact built_F22_Network_opWith _
theorem built_info_F22_SshKey : (F22_SshKey.info F22_SshKeyData.cls).op.Built := by unfold F22_SshKey.info; dsimp only; exact built_F22_SshKey_op
theorem built_info_F23_AutoPart : (F23_AutoPart.info).op.Built := by unfold F23_AutoPart.info; dsimp only; exact built_F21_AutoPart_opWith _
theorem built_info_F23_BTRFS : (F23_BTRFS.info F23_BTRFSData.cls).op.Built := by unfold F23_BTRFS.info; dsimp only; exact built_F23_BTRFS_opWith _
theorem built_info_F23_LogVol : (F23_LogVol.info F23_LogVolData.cls).op.Built := by unfold F23_LogVol.info; dsimp only; exact built_F23_LogVol_op
theorem built_info_F23_Partition : (F23_Partition.info F23_PartData.cls).op.Built := by unfold F23_Partition.info; dsimp only; exact built_F23_Partition_op
theorem built_info_F23_Raid : (F23_Raid.info F23_RaidData.cls).op.Built := by unfold F23_Raid.info; dsimp only; exact built_F23_Raid_opWith _
theorem built_info_F23_Reboot : (F23_Reboot.info).op.Built := by unfold F23_Reboot.info; dsimp only; exact built_F23_Reboot_op
theorem built_info_F23_ReqPart : (F23_ReqPart.info).op.Built := by unfold F23_ReqPart.info; dsimp only; exact built_F23_ReqPart_op
theorem built_info_F23_Timezone : (F23_Timezone.info).op.Built := by unfold F23_Timezone.info; dsimp only; exact built_F18_Timezone_op
theorem built_info_F24_Network : (F24_Network.info F22_NetworkData.cls).op.Built := by unfold F24_Network.info; dsimp only; exact built_F22_Network_opWith _
theorem built_info_F24_SshPw : (F24_SshPw.info F24_SshPwData.cls).op.Built := by unfold F24_SshPw.info; dsimp only; exact built_F24_SshPw_op
theorem built_info_F24_User : (F24_User.info F19_UserData.cls).op.Built := by unfold F24_User.info; dsimp only; exact built_F24_User_op
theorem built_info_F25_Network : (F25_Network.info F25_NetworkData.cls).op.Built := by unfold F25_Network.info; dsimp only; exact built_F25_Network_opWith _
theorem built_info_F25_Raid : (F25_Raid.info F25_RaidData.cls).op.Built := by unfold F25_Raid.info; dsimp only; exact built_F25_Raid_opWith _
theorem built_info_F25_Timezone : (F25_Timezone.info).op.Built := by unfold F25_Timezone.info; dsimp only; exact built_F25_Timezone_op
theorem built_info_F26_AutoPart : (F26_AutoPart.info).op.Built := by unfold F26_AutoPart.info; dsimp only; exact built_F26_AutoPart_opWith _
theorem built_info_F26_DisplayMode : (F26_DisplayMode.info).op.Built := by unfold F26_DisplayMode.info; dsimp only; exact built_F26_DisplayMode_op
theorem built_info_F26_Snapshot : (F26_Snapshot.info F26_SnapshotData.cls).op.Built := by unfold F26_Snapshot.info; dsimp only; exact built_F26_Snapshot_opWith _
theorem built_info_F27_Mount : (F27_Mount.info F27_MountData.cls).op.Built := by unfold F27_Mount.info; dsimp only; exact built_F27_Mount_op
theorem built_info_F27_Network : (F27_Network.info F27_NetworkData.cls).op.Built := by unfold F27_Network.info; dsimp only; exact built_F27_Network_opWith _ _
theorem built_info_F27_Repo : (F27_Repo.info F27_RepoData.cls).op.Built := by unfold F27_Repo.info; dsimp only; exact built_F27_Repo_op
theorem built_info_F27_Url : (F27_Url.info).op.Built := by unfold F27_Url.info; dsimp only; exact built_F27_Url_op
theorem built_info_F28_ClearPart : (F28_ClearPart.info).op.Built := by unfold F28_ClearPart.info; dsimp only; exact built_F28_ClearPart_op
theorem built_info_F28_Fcoe : (F28_Fcoe.info F28_FcoeData.cls).op.Built := by unfold F28_Fcoe.info; dsimp only; exact built_F28_Fcoe_op
theorem built_info_F28_Firewall : (F28_Firewall.info).op.Built := by unfold F28_Firewall.info; dsimp only; exact built_F28_Firewall_op
theorem built_info_F28_Nvdimm : (F28_Nvdimm.info F28_NvdimmData.cls).op.Built := by unfold F28_Nvdimm.info; dsimp only; exact built_F28_Nvdimm_opWith _ _
theorem built_info_F29_AutoPart : (F29_AutoPart.info).op.Built := by unfold F29_AutoPart.info; dsimp only; exact built_F29_AutoPart_opWith _
theorem built_info_F29_Bootloader : (F29_Bootloader.info).op.Built := by unfold F29_Bootloader.info; dsimp only; exact built_F29_Bootloader_op
theorem built_info_F29_IgnoreDisk : (F29_IgnoreDisk.info).op.Built := by unfold F29_IgnoreDisk.info; dsimp only; exact built_F29_IgnoreDisk_op
theorem built_info_F29_LogVol : (F29_LogVol.info F29_LogVolData.cls).op.Built := by unfold F29_LogVol.info; dsimp only; exact built_F29_LogVol_op
theorem built_info_F29_Module : (F29_Module.info F29_ModuleData.cls).op.Built := by unfold F29_Module.info; dsimp only; exact built_F29_Module_op
theorem built_info_F29_Partition : (F29_Partition.info F29_PartData.cls).op.Built := by unfold F29_Partition.info; dsimp only; exact built_F29_Partition_op
theorem built_info_F29_Raid : (F29_Raid.info F29_RaidData.cls).op.Built := by unfold F29_Raid.info; dsimp only; exact built_F29_Raid_opWith _
theorem built_info_F30_Repo : (F30_Repo.info F30_RepoData.cls).op.Built := by unfold F30_Repo.info; dsimp only; exact built_F30_Repo_op
theorem built_info_F30_Url : (F30_Url.info).op.Built := by unfold F30_Url.info; dsimp only; exact built_F30_Url_op
theorem built_info_F31_Module : (F31_Module.info F31_ModuleData.cls).op.Built := by unfold F31_Module.info; dsimp only; exact built_RHEL8_Module_op
theorem built_info_F32_Timezone : (F32_Timezone.info).op.Built := by unfold F32_Timezone.info; dsimp only; exact built_F25_Timezone_op
theorem built_info_F32_Zipl : (F32_Zipl.info).op.Built := by unfold F32_Zipl.info; dsimp only; exact built_F32_Zipl_op
theorem built_info_F33_HardDrive : (F33_HardDrive.info).op.Built := by unfold F33_HardDrive.info; dsimp only; exact built_F33_HardDrive_op
theorem built_info_F33_Repo : (F33_Repo.info F30_RepoData.cls).op.Built := by unfold F33_Repo.info; dsimp only; exact built_F33_Repo_op
theorem built_info_F33_Timesource : (F33_Timesource.info F33_TimesourceData.cls).op.Built := by unfold F33_Timesource.info; dsimp only; exact built_F33_Timesource_op
theorem built_info_F33_Timezone : (F33_Timezone.info).op.Built := by unfold F33_Timezone.info; dsimp only; exact built_F25_Timezone_op
theorem built_info_F34_Bootloader : (F34_Bootloader.info).op.Built := by unfold F34_Bootloader.info; dsimp only; exact built_F34_Bootloader_op
theorem built_info_F34_IgnoreDisk : (F34_IgnoreDisk.info).op.Built := by unfold F34_IgnoreDisk.info; dsimp only; exact built_F34_IgnoreDisk_op
theorem built_info_F34_Logging : (F34_Logging.info).op.Built := by unfold F34_Logging.info; dsimp only; exact built_F34_Logging_op
theorem built_info_F34_Partition : (F34_Partition.info F29_PartData.cls).op.Built := by unfold F34_Partition.info; dsimp only; exact built_F34_Partition_op
theorem built_info_F34_Updates : (F34_Updates.info).op.Built := by unfold F34_Updates.info; dsimp only; exact built_F34_Updates_op
theorem built_info_F7_Raid : (F7_Raid.info F7_RaidData.cls).op.Built := by unfold F7_Raid.info; dsimp only; exact built_F7_Raid_opWith _
theorem built_info_F7_Updates : (F7_Updates.info).op.Built := by unfold F7_Updates.info; dsimp only; exact built_F7_Updates_op
theorem built_info_F8_Bootloader : (F8_Bootloader.info).op.Built := by unfold F8_Bootloader.info; dsimp only; exact built_F8_Bootloader_op
theorem built_info_F8_Device : (F8_Device.info F8_DeviceData.cls).op.Built := by unfold F8_Device.info; dsimp only; exact built_FC3_Device_op
theorem built_info_F8_IgnoreDisk : (F8_IgnoreDisk.info).op.Built := by unfold F8_IgnoreDisk.info; dsimp only; exact built_F8_IgnoreDisk_op
theorem built_info_F8_Network : (F8_Network.info F8_NetworkData.cls).op.Built := by unfold F8_Network.info; dsimp only; exact built_F8_Network_opWith _
theorem built_info_F8_Repo : (F8_Repo.info F8_RepoData.cls).op.Built := by unfold F8_Repo.info; dsimp only; exact built_F8_Repo_op
theorem built_info_F8_RootPw : (F8_RootPw.info).op.Built := by unfold F8_RootPw.info; dsimp only; exact built_F8_RootPw_op
theorem built_info_F8_User : (F8_User.info F8_UserData.cls).op.Built := by unfold F8_User.info; dsimp only; exact built_F8_User_op
theorem built_info_F9_AutoPart : (F9_AutoPart.info).op.Built := by unfold F9_AutoPart.info; dsimp only; exact built_F9_AutoPart_op
theorem built_info_F9_Firewall : (F9_Firewall.info).op.Built := by unfold F9_Firewall.info; dsimp only; exact built_F9_Firewall_op
theorem built_info_F9_LogVol : (F9_LogVol.info F9_LogVolData.cls).op.Built := by unfold F9_LogVol.info; dsimp only; exact built_F9_LogVol_op
theorem built_info_F9_Network : (F9_Network.info F8_NetworkData.cls).op.Built := by unfold F9_Network.info; dsimp only; exact built_F9_Network_opWith _
theorem built_info_F9_Partition : (F9_Partition.info F9_PartData.cls).op.Built := by unfold F9_Partition.info; dsimp only; exact built_F9_Partition_op
theorem built_info_F9_Raid : (F9_Raid.info F9_RaidData.cls).op.Built := by unfold F9_Raid.info; dsimp only; exact built_F9_Raid_opWith _
theorem built_info_F9_Vnc : (F9_Vnc.info).op.Built := by unfold F9_Vnc.info; dsimp only; exact built_F9_Vnc_op
theorem built_info_F9_XConfig : (F9_XConfig.info).op.Built := by unfold F9_XConfig.info; dsimp only; exact built_F9_XConfig_op
theorem built_info_F9_ZeroMbr : (F9_ZeroMbr.info).op.Built := by unfold F9_ZeroMbr.info; dsimp only; exact built_FC3_ZeroMbr_op
theorem built_info_FC3_AutoStep : (FC3_AutoStep.info).op.Built := by unfold FC3_AutoStep.info; dsimp only; exact built_FC3_AutoStep_op
theorem built_info_FC3_Bootloader : (FC3_Bootloader.info).op.Built := by unfold FC3_Bootloader.info; dsimp only; exact built_FC3_Bootloader_op
theorem built_info_FC3_ClearPart : (FC3_ClearPart.info).op.Built := by unfold FC3_ClearPart.info; dsimp only; exact built_FC3_ClearPart_op
theorem built_info_FC3_Device : (FC3_Device.info).op.Built := by unfold FC3_Device.info; dsimp only; exact built_FC3_Device_op
theorem built_info_FC3_DisplayMode : (FC3_DisplayMode.info).op.Built := by unfold FC3_DisplayMode.info; dsimp only; exact built_FC3_DisplayMode_op
theorem built_info_FC3_DriverDisk : (FC3_DriverDisk.info FC3_DriverDiskData.cls).op.Built := by unfold FC3_DriverDisk.info; dsimp only; exact built_FC3_DriverDisk_op
theorem built_info_FC3_Firewall : (FC3_Firewall.info).op.Built := by unfold FC3_Firewall.info; dsimp only; exact built_FC3_Firewall_op
theorem built_info_FC3_Firstboot : (FC3_Firstboot.info).op.Built := by unfold FC3_Firstboot.info; dsimp only; exact built_FC3_Firstboot_op
theorem built_info_FC3_HardDrive : (FC3_HardDrive.info).op.Built := by unfold FC3_HardDrive.info; dsimp only; exact built_FC3_HardDrive_op
theorem built_info_FC3_IgnoreDisk : (FC3_IgnoreDisk.info).op.Built := by unfold FC3_IgnoreDisk.info; dsimp only; exact built_FC3_IgnoreDisk_op
theorem built_info_FC3_Interactive : (FC3_Interactive.info).op.Built := by unfold FC3_Interactive.info; dsimp only; exact built_FC3_Interactive_op
theorem built_info_FC3_Keyboard : (FC3_Keyboard.info).op.Built := by unfold FC3_Keyboard.info; dsimp only; exact built_FC3_Keyboard_op
theorem built_info_FC3_Lang : (FC3_Lang.info).op.Built := by unfold FC3_Lang.info; dsimp only; exact built_FC3_Lang_op
theorem built_info_FC3_LangSupport : (FC3_LangSupport.info).op.Built := by unfold FC3_LangSupport.info; dsimp only; exact built_FC3_LangSupport_op
theorem built_info_FC3_Lilo : (FC3_Lilo.info).op.Built := by unfold FC3_Lilo.info; dsimp only; exact built_FC3_Lilo_op
theorem built_info_FC3_LiloCheck : (FC3_LiloCheck.info).op.Built := by unfold FC3_LiloCheck.info; dsimp only; exact built_FC3_LiloCheck_op
theorem built_info_FC3_LogVol : (FC3_LogVol.info FC3_LogVolData.cls).op.Built := by unfold FC3_LogVol.info; dsimp only; exact built_FC3_LogVol_op
theorem built_info_FC3_Monitor : (FC3_Monitor.info).op.Built := by unfold FC3_Monitor.info; dsimp only; exact built_FC3_Monitor_op
theorem built_info_FC3_NFS : (FC3_NFS.info).op.Built := by unfold FC3_NFS.info; dsimp only; exact built_FC3_NFS_op
theorem built_info_FC3_Network : (FC3_Network.info FC3_NetworkData.cls).op.Built := by unfold FC3_Network.info; dsimp only; exact built_FC3_Network_opWith _
theorem built_info_FC3_Partition : (FC3_Partition.info FC3_PartData.cls).op.Built := by unfold FC3_Partition.info; dsimp only; exact built_FC3_Partition_op
theorem built_info_FC3_Raid : (FC3_Raid.info FC3_RaidData.cls).op.Built := by unfold FC3_Raid.info; dsimp only; exact built_FC3_Raid_opWith _
theorem built_info_FC3_RootPw : (FC3_RootPw.info).op.Built := by unfold FC3_RootPw.info; dsimp only; exact built_FC3_RootPw_op
theorem built_info_FC3_SELinux : (FC3_SELinux.info).op.Built := by unfold FC3_SELinux.info; dsimp only; exact built_FC3_SELinux_op
theorem built_info_FC3_SkipX : (FC3_SkipX.info).op.Built := by unfold FC3_SkipX.info; dsimp only; exact built_FC3_SkipX_op
theorem built_info_FC3_Timezone : (FC3_Timezone.info).op.Built := by unfold FC3_Timezone.info; dsimp only; exact built_FC3_Timezone_op
theorem built_info_FC3_Upgrade : (FC3_Upgrade.info).op.Built := by unfold FC3_Upgrade.info; dsimp only; exact built_FC3_Upgrade_op
theorem built_info_FC3_Url : (FC3_Url.info).op.Built := by unfold FC3_Url.info; dsimp only; exact built_FC3_Url_op
theorem built_info_FC3_Vnc : (FC3_Vnc.info).op.Built := by unfold FC3_Vnc.info; dsimp only; exact built_FC3_Vnc_op
theorem built_info_FC3_VolGroup : (FC3_VolGroup.info FC3_VolGroupData.cls).op.Built := by unfold FC3_VolGroup.info; dsimp only; exact built_FC3_VolGroup_op
theorem built_info_FC3_XConfig : (FC3_XConfig.info).op.Built := by unfold FC3_XConfig.info; dsimp only; exact built_FC3_XConfig_op
theorem built_info_FC3_ZFCP : (FC3_ZFCP.info FC3_ZFCPData.cls).op.Built := by unfold FC3_ZFCP.info; dsimp only; exact built_FC3_ZFCP_op
theorem built_info_FC3_ZeroMbr : (FC3_ZeroMbr.info).op.Built := by unfold FC3_ZeroMbr.info; dsimp only; exact built_FC3_ZeroMbr_op
theorem built_info_FC4_Bootloader : (FC4_Bootloader.info).op.Built := by unfold FC4_Bootloader.info; dsimp only; exact built_FC4_Bootloader_op
theorem built_info_FC4_DriverDisk : (FC4_DriverDisk.info FC4_DriverDiskData.cls).op.Built := by unfold FC4_DriverDisk.info; dsimp only; exact built_FC4_DriverDisk_op
theorem built_info_FC4_LogVol : (FC4_LogVol.info FC4_LogVolData.cls).op.Built := by unfold FC4_LogVol.info; dsimp only; exact built_FC4_LogVol_op
theorem built_info_FC4_MediaCheck : (FC4_MediaCheck.info).op.Built := by unfold FC4_MediaCheck.info; dsimp only; exact built_FC4_MediaCheck_op
theorem built_info_FC4_Network : (FC4_Network.info FC4_NetworkData.cls).op.Built := by unfold FC4_Network.info; dsimp only; exact built_FC4_Network_opWith _
theorem built_info_FC4_Partition : (FC4_Partition.info FC4_PartData.cls).op.Built := by unfold FC4_Partition.info; dsimp only; exact built_FC4_Partition_op
theorem built_info_FC4_Raid : (FC4_Raid.info FC4_RaidData.cls).op.Built := by unfold FC4_Raid.info; dsimp only; exact built_FC4_Raid_opWith _
theorem built_info_FC5_Raid : (FC5_Raid.info FC5_RaidData.cls).op.Built := by unfold FC5_Raid.info; dsimp only; exact built_FC5_Raid_opWith _
theorem built_info_FC6_DmRaid : (FC6_DmRaid.info FC6_DmRaidData.cls).op.Built := by unfold FC6_DmRaid.info; dsimp only; exact built_FC6_DmRaid_op
theorem built_info_FC6_Iscsi : (FC6_Iscsi.info FC6_IscsiData.cls).op.Built := by unfold FC6_Iscsi.info; dsimp only; exact built_FC6_Iscsi_op
theorem built_info_FC6_IscsiName : (FC6_IscsiName.info).op.Built := by unfold FC6_IscsiName.info; dsimp only; exact built_FC6_IscsiName_op
theorem built_info_FC6_Logging : (FC6_Logging.info).op.Built := by unfold FC6_Logging.info; dsimp only; exact built_FC6_Logging_op
theorem built_info_FC6_Monitor : (FC6_Monitor.info).op.Built := by unfold FC6_Monitor.info; dsimp only; exact built_FC6_Monitor_op
theorem built_info_FC6_MultiPath : (FC6_MultiPath.info FC6_MultiPathData.cls).op.Built := by unfold FC6_MultiPath.info; dsimp only; exact built_FC6_MultiPath_op
theorem built_info_FC6_NFS : (FC6_NFS.info).op.Built := by unfold FC6_NFS.info; dsimp only; exact built_FC6_NFS_op
theorem built_info_FC6_Network : (FC6_Network.info FC6_NetworkData.cls).op.Built := by unfold FC6_Network.info; dsimp only; exact built_FC6_Network_opWith _
theorem built_info_FC6_Reboot : (FC6_Reboot.info).op.Built := by unfold FC6_Reboot.info; dsimp only; exact built_FC6_Reboot_op
theorem built_info_FC6_Repo : (FC6_Repo.info FC6_RepoData.cls).op.Built := by unfold FC6_Repo.info; dsimp only; exact built_FC6_Repo_op
theorem built_info_FC6_Services : (FC6_Services.info).op.Built := by unfold FC6_Services.info; dsimp only; exact built_FC6_Services_op
theorem built_info_FC6_Timezone : (FC6_Timezone.info).op.Built := by unfold FC6_Timezone.info; dsimp only; exact built_FC6_Timezone_op
theorem built_info_FC6_User : (FC6_User.info FC6_UserData.cls).op.Built := by unfold FC6_User.info; dsimp only; exact built_FC6_User_op
theorem built_info_FC6_Vnc : (FC6_Vnc.info).op.Built := by unfold FC6_Vnc.info; dsimp only; exact built_FC6_Vnc_op
theorem built_info_FC6_XConfig : (FC6_XConfig.info).op.Built := by unfold FC6_XConfig.info; dsimp only; exact built_FC6_XConfig_op
theorem built_info_RHEL3_Mouse : (RHEL3_Mouse.info).op.Built := by unfold RHEL3_Mouse.info; dsimp only; exact built_RHEL3_Mouse_op
theorem built_info_RHEL4_Network : (RHEL4_Network.info RHEL4_NetworkData.cls).op.Built := by unfold RHEL4_Network.info; dsimp only; exact built_RHEL4_Network_opWith _
theorem built_info_RHEL5_Bootloader : (RHEL5_Bootloader.info).op.Built := by unfold RHEL5_Bootloader.info; dsimp only; exact built_RHEL5_Bootloader_op
theorem built_info_RHEL5_Key : (RHEL5_Key.info).op.Built := by unfold RHEL5_Key.info; dsimp only; exact built_RHEL5_Key_op
theorem built_info_RHEL5_LogVol : (RHEL5_LogVol.info RHEL5_LogVolData.cls).op.Built := by unfold RHEL5_LogVol.info; dsimp only; exact built_RHEL5_LogVol_op
theorem built_info_RHEL5_Network : (RHEL5_Network.info FC6_NetworkData.cls).op.Built := by unfold RHEL5_Network.info; dsimp only; exact built_RHEL5_Network_opWith _
theorem built_info_RHEL5_Partition : (RHEL5_Partition.info RHEL5_PartData.cls).op.Built := by unfold RHEL5_Partition.info; dsimp only; exact built_RHEL5_Partition_op
theorem built_info_RHEL5_Raid : (RHEL5_Raid.info RHEL5_RaidData.cls).op.Built := by unfold RHEL5_Raid.info; dsimp only; exact built_RHEL5_Raid_opWith _
theorem built_info_RHEL6_AutoPart : (RHEL6_AutoPart.info).op.Built := by unfold RHEL6_AutoPart.info; dsimp only; exact built_RHEL6_AutoPart_op
theorem built_info_RHEL6_Bootloader : (RHEL6_Bootloader.info).op.Built := by unfold RHEL6_Bootloader.info; dsimp only; exact built_RHEL6_Bootloader_op
theorem built_info_RHEL6_IgnoreDisk : (RHEL6_IgnoreDisk.info).op.Built := by unfold RHEL6_IgnoreDisk.info; dsimp only; exact built_RHEL6_IgnoreDisk_op
theorem built_info_RHEL6_Iscsi : (RHEL6_Iscsi.info RHEL6_IscsiData.cls).op.Built := by unfold RHEL6_Iscsi.info; dsimp only; exact built_RHEL6_Iscsi_op
theorem built_info_RHEL6_LogVol : (RHEL6_LogVol.info RHEL6_LogVolData.cls).op.Built := by unfold RHEL6_LogVol.info; dsimp only; exact built_RHEL6_LogVol_op
theorem built_info_RHEL6_Network : (RHEL6_Network.info RHEL6_NetworkData.cls).op.Built := by unfold RHEL6_Network.info; dsimp only; exact built_RHEL6_Network_opWith _
theorem built_info_RHEL6_Partition : (RHEL6_Partition.info RHEL6_PartData.cls).op.Built := by unfold RHEL6_Partition.info; dsimp only; exact built_RHEL6_Partition_op
theorem built_info_RHEL6_Raid : (RHEL6_Raid.info RHEL6_RaidData.cls).op.Built := by unfold RHEL6_Raid.info; dsimp only; exact built_RHEL6_Raid_opWith _
theorem built_info_RHEL6_Repo : (RHEL6_Repo.info RHEL6_RepoData.cls).op.Built := by unfold RHEL6_Repo.info; dsimp only; exact built_F14_Repo_op
theorem built_info_RHEL6_UnsupportedHardware : (RHEL6_UnsupportedHardware.info).op.Built := by unfold RHEL6_UnsupportedHardware.info; dsimp only; exact built_RHEL6_UnsupportedHardware_op
theorem built_info_RHEL6_Url : (RHEL6_Url.info).op.Built := by unfold RHEL6_Url.info; dsimp only; exact built_F14_Url_op
theorem built_info_RHEL7_AutoPart : (RHEL7_AutoPart.info).op.Built := by unfold RHEL7_AutoPart.info; dsimp only; exact built_RHEL7_AutoPart_opWith _
theorem built_info_RHEL7_BTRFS : (RHEL7_BTRFS.info RHEL7_BTRFSData.cls).op.Built := by unfold RHEL7_BTRFS.info; dsimp only; exact built_F23_BTRFS_opWith _
theorem built_info_RHEL7_Bootloader : (RHEL7_Bootloader.info).op.Built := by unfold RHEL7_Bootloader.info; dsimp only; exact built_F21_Bootloader_op
theorem built_info_RHEL7_ClearPart : (RHEL7_ClearPart.info).op.Built := by unfold RHEL7_ClearPart.info; dsimp only; exact built_F28_ClearPart_op
theorem built_info_RHEL7_Fcoe : (RHEL7_Fcoe.info RHEL7_FcoeData.cls).op.Built := by unfold RHEL7_Fcoe.info; dsimp only; exact built_RHEL7_Fcoe_op
theorem built_info_RHEL7_LogVol : (RHEL7_LogVol.info RHEL7_LogVolData.cls).op.Built := by unfold RHEL7_LogVol.info; dsimp only; exact built_RHEL7_LogVol_op
theorem built_info_RHEL7_Network : (RHEL7_Network.info RHEL7_NetworkData.cls).op.Built := by unfold RHEL7_Network.info; dsimp only; exact built_RHEL7_Network_opWith _ _
theorem built_info_RHEL7_OSTreeSetup : (RHEL7_OSTreeSetup.info).op.Built := by unfold RHEL7_OSTreeSetup.info; dsimp only; exact built_F21_OSTreeSetup_op
theorem built_info_RHEL7_Partition : (RHEL7_Partition.info RHEL7_PartData.cls).op.Built := by unfold RHEL7_Partition.info; dsimp only; exact built_F23_Partition_op
theorem built_info_RHEL7_Raid : (RHEL7_Raid.info RHEL7_RaidData.cls).op.Built := by unfold RHEL7_Raid.info; dsimp only; exact built_F25_Raid_opWith _
theorem built_info_RHEL7_Repo : (RHEL7_Repo.info RHEL7_RepoData.cls).op.Built := by unfold RHEL7_Repo.info; dsimp only; exact built_F21_Repo_op
theorem built_info_RHEL7_ReqPart : (RHEL7_ReqPart.info).op.Built := by unfold RHEL7_ReqPart.info; dsimp only; exact built_F23_ReqPart_op
theorem built_info_RHEL7_Timezone : (RHEL7_Timezone.info).op.Built := by unfold RHEL7_Timezone.info; dsimp only; exact built_RHEL7_Timezone_op
theorem built_info_RHEL7_VolGroup : (RHEL7_VolGroup.info RHEL7_VolGroupData.cls).op.Built := by unfold RHEL7_VolGroup.info; dsimp only; exact built_F21_VolGroup_op
theorem built_info_RHEL8_AutoPart : (RHEL8_AutoPart.info).op.Built := by unfold RHEL8_AutoPart.info; dsimp only; exact built_RHEL8_AutoPart_opWith _
theorem built_info_RHEL8_Bootloader : (RHEL8_Bootloader.info).op.Built := by unfold RHEL8_Bootloader.info; dsimp only; exact built_F29_Bootloader_op
theorem built_info_RHEL8_Fcoe : (RHEL8_Fcoe.info RHEL8_FcoeData.cls).op.Built := by unfold RHEL8_Fcoe.info; dsimp only; exact built_F28_Fcoe_op
theorem built_info_RHEL8_LogVol : (RHEL8_LogVol.info RHEL8_LogVolData.cls).op.Built := by unfold RHEL8_LogVol.info; dsimp only; exact built_RHEL8_LogVol_op
theorem built_info_RHEL8_Module : (RHEL8_Module.info RHEL8_ModuleData.cls).op.Built := by unfold RHEL8_Module.info; dsimp only; exact built_RHEL8_Module_op
theorem built_info_RHEL8_OSTreeSetup : (RHEL8_OSTreeSetup.info).op.Built := by unfold RHEL8_OSTreeSetup.info; dsimp only; exact built_F21_OSTreeSetup_op
theorem built_info_RHEL8_Partition : (RHEL8_Partition.info RHEL8_PartData.cls).op.Built := by unfold RHEL8_Partition.info; dsimp only; exact built_RHEL8_Partition_op
theorem built_info_RHEL8_RHSM : (RHEL8_RHSM.info).op.Built := by unfold RHEL8_RHSM.info; dsimp only; exact built_RHEL8_RHSM_op
theorem built_info_RHEL8_Raid : (RHEL8_Raid.info RHEL8_RaidData.cls).op.Built := by unfold RHEL8_Raid.info; dsimp only; exact built_RHEL8_Raid_opWith _
theorem built_info_RHEL8_Repo : (RHEL8_Repo.info RHEL8_RepoData.cls).op.Built := by unfold RHEL8_Repo.info; dsimp only; exact built_F30_Repo_op
theorem built_info_RHEL8_Syspurpose : (RHEL8_Syspurpose.info).op.Built := by unfold RHEL8_Syspurpose.info; dsimp only; exact built_RHEL8_Syspurpose_op
theorem built_info_RHEL8_Url : (RHEL8_Url.info).op.Built := by unfold RHEL8_Url.info; dsimp only; exact built_F30_Url_op
theorem built_info_RHEL8_VolGroup : (RHEL8_VolGroup.info RHEL8_VolGroupData.cls).op.Built := by unfold RHEL8_VolGroup.info; dsimp only; exact built_F21_VolGroup_op
theorem built_info_RHEL8_Zipl : (RHEL8_Zipl.info).op.Built := by unfold RHEL8_Zipl.info; dsimp only; exact built_F32_Zipl_op

theorem of_op {q p : OptParser} (h : q.Built) (e : some q = some p) : p.Built := by cases e; exact h

theorem of_none {p : OptParser} (e : (none : Option OptParser) = some p) : p.Built := by cases e

set_option maxRecDepth 8000 in
theorem classOps_built : ∀ x ∈ classOps, ∀ p, x.2.op = some p → p.Built := by
  unfold classOps
  simp only [List.forall_mem_cons]
  exact ⟨
    fun _ => of_op built_info_F10_Firewall,
    fun _ => of_op built_info_F10_Iscsi,
    fun _ => of_none,
    fun _ => of_op built_info_F10_Rescue,
    fun _ => of_op built_info_F10_XConfig,
    fun _ => of_op built_info_F11_Partition,
    fun _ => of_op built_info_F11_Repo,
    fun _ => of_op built_info_F11_Upgrade,
    fun _ => of_op built_info_F12_AutoPart,
    fun _ => of_op built_info_F12_Bootloader,
    fun _ => of_op built_info_F12_DriverDisk,
    fun _ => of_op built_info_F12_Fcoe,
    fun _ => of_op built_info_F12_Group,
    fun _ => of_op built_info_F12_LogVol,
    fun _ => of_op built_info_F12_Partition,
    fun _ => of_op built_info_F12_Raid,
    fun _ => of_op built_info_F12_User,
    fun _ => of_op built_info_F12_ZFCP,
    fun _ => of_op built_info_F13_Fcoe,
    fun _ => of_none,
    fun _ => of_op built_info_F13_Raid,
    fun _ => of_op built_info_F13_Repo,
    fun _ => of_op built_info_F13_SshPw,
    fun _ => of_op built_info_F13_Url,
    fun _ => of_op built_info_F14_Bootloader,
    fun _ => of_op built_info_F14_DriverDisk,
    fun _ => of_op built_info_F14_Firewall,
    fun _ => of_op built_info_F14_IgnoreDisk,
    fun _ => of_none,
    fun _ => of_op built_info_F14_LogVol,
    fun _ => of_none,
    fun _ => of_op built_info_F14_Partition,
    fun _ => of_op built_info_F14_Raid,
    fun _ => of_op built_info_F14_Repo,
    fun _ => of_op built_info_F14_Url,
    fun _ => of_op built_info_F14_XConfig,
    fun _ => of_op built_info_F14_ZFCP,
    fun _ => of_op built_info_F15_Bootloader,
    fun _ => of_none,
    fun _ => of_op built_info_F15_LogVol,
    fun _ => of_op built_info_F15_Raid,
    fun _ => of_op built_info_F15_Repo,
    fun _ => of_op built_info_F16_AutoPart,
    fun _ => of_op built_info_F16_Network,
    fun _ => of_op built_info_F16_VolGroup,
    fun _ => of_op built_info_F17_AutoPart,
    fun _ => of_op built_info_F17_BTRFS,
    fun _ => of_op built_info_F17_Bootloader,
    fun _ => of_op built_info_F17_ClearPart,
    fun _ => of_op built_info_F17_Iscsi,
    fun _ => of_op built_info_F17_LogVol,
    fun _ => of_op built_info_F17_Partition,
    fun _ => of_op built_info_F18_AutoPart,
    fun _ => of_op built_info_F18_Bootloader,
    fun _ => of_op built_info_F18_Keyboard,
    fun _ => of_op built_info_F18_LogVol,
    fun _ => of_none,
    fun _ => of_none,
    fun _ => of_op built_info_F18_Network,
    fun _ => of_op built_info_F18_Partition,
    fun _ => of_op built_info_F18_Raid,
    fun _ => of_op built_info_F18_Reboot,
    fun _ => of_op built_info_F18_RootPw,
    fun _ => of_op built_info_F18_Timezone,
    fun _ => of_op built_info_F18_Url,
    fun _ => of_op built_info_F19_Bootloader,
    fun _ => of_op built_info_F19_Lang,
    fun _ => of_op built_info_F19_Liveimg,
    fun _ => of_none,
    fun _ => of_op built_info_F19_Network,
    fun _ => of_op built_info_F19_Raid,
    fun _ => of_none,
    fun _ => of_op built_info_F19_User,
    fun _ => of_op built_info_F20_AutoPart,
    fun _ => of_op built_info_F20_Eula,
    fun _ => of_op built_info_F20_Firewall,
    fun _ => of_op built_info_F20_Install,
    fun _ => of_op built_info_F20_LogVol,
    fun _ => of_op built_info_F20_Network,
    fun _ => of_op built_info_F20_Partition,
    fun _ => of_op built_info_F20_Raid,
    fun _ => of_none,
    fun _ => of_op built_info_F21_AutoPart,
    fun _ => of_op built_info_F21_Bootloader,
    fun _ => of_op built_info_F21_ClearPart,
    fun _ => of_op built_info_F21_LogVol,
    fun _ => of_op built_info_F21_Network,
    fun _ => of_op built_info_F21_OSTreeSetup,
    fun _ => of_op built_info_F21_Repo,
    fun _ => of_op built_info_F21_VolGroup,
    fun _ => of_op built_info_F22_Network,
    fun _ => of_op built_info_F22_SshKey,
    fun _ => of_op built_info_F23_AutoPart,
    fun _ => of_op built_info_F23_BTRFS,
    fun _ => of_op built_info_F23_LogVol,
    fun _ => of_op built_info_F23_Partition,
    fun _ => of_op built_info_F23_Raid,
    fun _ => of_op built_info_F23_Reboot,
    fun _ => of_op built_info_F23_ReqPart,
    fun _ => of_op built_info_F23_Timezone,
    fun _ => of_none,
    fun _ => of_none,
    fun _ => of_none,
    fun _ => of_op built_info_F24_Network,
    fun _ => of_op built_info_F24_SshPw,
    fun _ => of_op built_info_F24_User,
    fun _ => of_op built_info_F25_Network,
    fun _ => of_op built_info_F25_Raid,
    fun _ => of_op built_info_F25_Timezone,
    fun _ => of_op built_info_F26_AutoPart,
    fun _ => of_op built_info_F26_DisplayMode,
    fun _ => of_op built_info_F26_Snapshot,
    fun _ => of_op built_info_F27_Mount,
    fun _ => of_op built_info_F27_Network,
    fun _ => of_op built_info_F27_Repo,
    fun _ => of_op built_info_F27_Url,
    fun _ => of_none,
    fun _ => of_none,
    fun _ => of_op built_info_F28_ClearPart,
    fun _ => of_op built_info_F28_Fcoe,
    fun _ => of_op built_info_F28_Firewall,
    fun _ => of_none,
    fun _ => of_none,
    fun _ => of_op built_info_F28_Nvdimm,
    fun _ => of_op built_info_F29_AutoPart,
    fun _ => of_op built_info_F29_Bootloader,
    fun _ => of_none,
    fun _ => of_op built_info_F29_IgnoreDisk,
    fun _ => of_none,
    fun _ => of_op built_info_F29_LogVol,
    fun _ => of_op built_info_F29_Module,
    fun _ => of_op built_info_F29_Partition,
    fun _ => of_op built_info_F29_Raid,
    fun _ => of_none,
    fun _ => of_op built_info_F30_Repo,
    fun _ => of_op built_info_F30_Url,
    fun _ => of_op built_info_F31_Module,
    fun _ => of_op built_info_F32_Timezone,
    fun _ => of_op built_info_F32_Zipl,
    fun _ => of_op built_info_F33_HardDrive,
    fun _ => of_op built_info_F33_Repo,
    fun _ => of_op built_info_F33_Timesource,
    fun _ => of_op built_info_F33_Timezone,
    fun _ => of_none,
    fun _ => of_op built_info_F34_Bootloader,
    fun _ => of_none,
    fun _ => of_none,
    fun _ => of_none,
    fun _ => of_op built_info_F34_IgnoreDisk,
    fun _ => of_none,
    fun _ => of_op built_info_F34_Logging,
    fun _ => of_none,
    fun _ => of_none,
    fun _ => of_op built_info_F34_Partition,
    fun _ => of_op built_info_F34_Updates,
    fun _ => of_none,
    fun _ => of_none,
    fun _ => of_op built_info_F7_Raid,
    fun _ => of_op built_info_F7_Updates,
    fun _ => of_op built_info_F8_Bootloader,
    fun _ => of_op built_info_F8_Device,
    fun _ => of_op built_info_F8_IgnoreDisk,
    fun _ => of_op built_info_F8_Network,
    fun _ => of_op built_info_F8_Repo,
    fun _ => of_op built_info_F8_RootPw,
    fun _ => of_op built_info_F8_User,
    fun _ => of_op built_info_F9_AutoPart,
    fun _ => of_op built_info_F9_Firewall,
    fun _ => of_op built_info_F9_LogVol,
    fun _ => of_op built_info_F9_Network,
    fun _ => of_op built_info_F9_Partition,
    fun _ => of_op built_info_F9_Raid,
    fun _ => of_op built_info_F9_Vnc,
    fun _ => of_op built_info_F9_XConfig,
    fun _ => of_op built_info_F9_ZeroMbr,
    fun _ => of_none,
    fun _ => of_none,
    fun _ => of_op built_info_FC3_AutoStep,
    fun _ => of_op built_info_FC3_Bootloader,
    fun _ => of_none,
    fun _ => of_op built_info_FC3_ClearPart,
    fun _ => of_op built_info_FC3_Device,
    fun _ => of_none,
    fun _ => of_op built_info_FC3_DisplayMode,
    fun _ => of_op built_info_FC3_DriverDisk,
    fun _ => of_op built_info_FC3_Firewall,
    fun _ => of_op built_info_FC3_Firstboot,
    fun _ => of_op built_info_FC3_HardDrive,
    fun _ => of_op built_info_FC3_IgnoreDisk,
    fun _ => of_op built_info_FC3_Interactive,
    fun _ => of_op built_info_FC3_Keyboard,
    fun _ => of_op built_info_FC3_Lang,
    fun _ => of_op built_info_FC3_LangSupport,
    fun _ => of_op built_info_FC3_Lilo,
    fun _ => of_op built_info_FC3_LiloCheck,
    fun _ => of_op built_info_FC3_LogVol,
    fun _ => of_none,
    fun _ => of_op built_info_FC3_Monitor,
    fun _ => of_none,
    fun _ => of_op built_info_FC3_NFS,
    fun _ => of_op built_info_FC3_Network,
    fun _ => of_op built_info_FC3_Partition,
    fun _ => of_op built_info_FC3_Raid,
    fun _ => of_none,
    fun _ => of_op built_info_FC3_RootPw,
    fun _ => of_op built_info_FC3_SELinux,
    fun _ => of_op built_info_FC3_SkipX,
    fun _ => of_op built_info_FC3_Timezone,
    fun _ => of_op built_info_FC3_Upgrade,
    fun _ => of_op built_info_FC3_Url,
    fun _ => of_op built_info_FC3_Vnc,
    fun _ => of_op built_info_FC3_VolGroup,
    fun _ => of_op built_info_FC3_XConfig,
    fun _ => of_op built_info_FC3_ZFCP,
    fun _ => of_op built_info_FC3_ZeroMbr,
    fun _ => of_op built_info_FC4_Bootloader,
    fun _ => of_op built_info_FC4_DriverDisk,
    fun _ => of_none,
    fun _ => of_none,
    fun _ => of_op built_info_FC4_LogVol,
    fun _ => of_op built_info_FC4_MediaCheck,
    fun _ => of_op built_info_FC4_Network,
    fun _ => of_op built_info_FC4_Partition,
    fun _ => of_op built_info_FC4_Raid,
    fun _ => of_none,
    fun _ => of_op built_info_FC5_Raid,
    fun _ => of_op built_info_FC6_DmRaid,
    fun _ => of_op built_info_FC6_Iscsi,
    fun _ => of_op built_info_FC6_IscsiName,
    fun _ => of_op built_info_FC6_Logging,
    fun _ => of_none,
    fun _ => of_op built_info_FC6_Monitor,
    fun _ => of_op built_info_FC6_MultiPath,
    fun _ => of_op built_info_FC6_NFS,
    fun _ => of_op built_info_FC6_Network,
    fun _ => of_op built_info_FC6_Reboot,
    fun _ => of_op built_info_FC6_Repo,
    fun _ => of_op built_info_FC6_Services,
    fun _ => of_op built_info_FC6_Timezone,
    fun _ => of_op built_info_FC6_User,
    fun _ => of_op built_info_FC6_Vnc,
    fun _ => of_op built_info_FC6_XConfig,
    fun _ => of_op built_info_RHEL3_Mouse,
    fun _ => of_op built_info_RHEL4_Network,
    fun _ => of_op built_info_RHEL5_Bootloader,
    fun _ => of_op built_info_RHEL5_Key,
    fun _ => of_op built_info_RHEL5_LogVol,
    fun _ => of_op built_info_RHEL5_Network,
    fun _ => of_op built_info_RHEL5_Partition,
    fun _ => of_op built_info_RHEL5_Raid,
    fun _ => of_op built_info_RHEL6_AutoPart,
    fun _ => of_op built_info_RHEL6_Bootloader,
    fun _ => of_op built_info_RHEL6_IgnoreDisk,
    fun _ => of_op built_info_RHEL6_Iscsi,
    fun _ => of_op built_info_RHEL6_LogVol,
    fun _ => of_none,
    fun _ => of_op built_info_RHEL6_Network,
    fun _ => of_op built_info_RHEL6_Partition,
    fun _ => of_op built_info_RHEL6_Raid,
    fun _ => of_op built_info_RHEL6_Repo,
    fun _ => of_op built_info_RHEL6_UnsupportedHardware,
    fun _ => of_op built_info_RHEL6_Url,
    fun _ => of_op built_info_RHEL7_AutoPart,
    fun _ => of_op built_info_RHEL7_BTRFS,
    fun _ => of_op built_info_RHEL7_Bootloader,
    fun _ => of_op built_info_RHEL7_ClearPart,
    fun _ => of_op built_info_RHEL7_Fcoe,
    fun _ => of_none,
    fun _ => of_op built_info_RHEL7_LogVol,
    fun _ => of_none,
    fun _ => of_op built_info_RHEL7_Network,
    fun _ => of_op built_info_RHEL7_OSTreeSetup,
    fun _ => of_op built_info_RHEL7_Partition,
    fun _ => of_op built_info_RHEL7_Raid,
    fun _ => of_op built_info_RHEL7_Repo,
    fun _ => of_op built_info_RHEL7_ReqPart,
    fun _ => of_op built_info_RHEL7_Timezone,
    fun _ => of_op built_info_RHEL7_VolGroup,
    fun _ => of_op built_info_RHEL8_AutoPart,
    fun _ => of_none,
    fun _ => of_op built_info_RHEL8_Bootloader,
    fun _ => of_op built_info_RHEL8_Fcoe,
    fun _ => of_op built_info_RHEL8_LogVol,
    fun _ => of_op built_info_RHEL8_Module,
    fun _ => of_op built_info_RHEL8_OSTreeSetup,
    fun _ => of_op built_info_RHEL8_Partition,
    fun _ => of_op built_info_RHEL8_RHSM,
    fun _ => of_op built_info_RHEL8_Raid,
    fun _ => of_op built_info_RHEL8_Repo,
    fun _ => of_op built_info_RHEL8_Syspurpose,
    fun _ => of_op built_info_RHEL8_Url,
    fun _ => of_op built_info_RHEL8_VolGroup,
    fun _ => of_op built_info_RHEL8_Zipl,
    List.forall_mem_nil _⟩

end Ks.Cmd
