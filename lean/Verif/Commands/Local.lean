import Verif.Commands.LocalLogic
import Verif.Commands.Maps
/-!
# Which other commands the command classes look at

Written by `scripts/gen_local.py`.
-/
namespace Ks.Cmd

theorem local_cons {α : Type} {p : α → Prop} {a : α} {l : List α} (h : p a) (ht : ∀ x ∈ l, p x) : ∀ x ∈ a :: l, p x :=
  List.forall_mem_cons.2 ⟨h, ht⟩

theorem FC6_MultiPath.findParent_local (device mpdev : Val) (l : List Ns) (x : Nat) (parent : Option Nat) :
    M.Local [] (FC6_MultiPath.findParent device mpdev l x parent) := by
  induction l generalizing x parent with
  | nil => exact local_pure
  | cons a t ih =>
    unfold FC6_MultiPath.findParent
    cases ha : a.get c!"paths" with
    | none => exact local_bind local_throw fun _ => local_bind local_failIf fun _ => ih _ _
    | some p => exact local_bind local_pure fun _ => local_bind local_failIf fun _ => ih _ _

theorem FC3_Authconfig.parse_local (_k : Info) (_args : List Str) :
    M.Local [] (FC3_Authconfig.parse _k _args) := by
  unfold FC3_Authconfig.parse
  repeat' (first | local_step)

theorem F28_Authconfig.parse_local (k : Info) (args : List Str) :
    M.Local [] (F28_Authconfig.parse k args) := by
  unfold F28_Authconfig.parse
  repeat' (first | (with_reducible apply FC3_Authconfig.parse_local) | local_step)

theorem F28_Authselect.parse_local (_k : Info) (_args : List Str) :
    M.Local [] (F28_Authselect.parse _k _args) := by
  unfold F28_Authselect.parse
  repeat' (first | local_step)

theorem FC3_AutoPart.parse_local (_k : Info) (args : List Str) :
    M.Local [c!"partition", c!"raid", c!"volgroup", c!"logvol", c!"reqpart", c!"mount"] (FC3_AutoPart.parse _k args) := by
  unfold FC3_AutoPart.parse
  repeat' (first | local_step)

theorem F9_AutoPart.parse_local (k : Info) (args : List Str) :
    M.Local [c!"partition", c!"raid", c!"volgroup", c!"logvol", c!"reqpart", c!"mount"] (F9_AutoPart.parse k args) := by
  unfold F9_AutoPart.parse
  repeat' (first | local_step)

theorem RHEL6_AutoPart.parse_local (k : Info) (args : List Str) :
    M.Local [c!"partition", c!"raid", c!"volgroup", c!"logvol", c!"reqpart", c!"mount"] (RHEL6_AutoPart.parse k args) := by
  unfold RHEL6_AutoPart.parse
  repeat' (first | (with_reducible apply F9_AutoPart.parse_local) | local_step)

theorem F17_AutoPart.parse_local (k : Info) (args : List Str) :
    M.Local [c!"partition", c!"raid", c!"volgroup", c!"logvol", c!"reqpart", c!"mount"] (F17_AutoPart.parse k args) := by
  unfold F17_AutoPart.parse
  repeat' (first | (with_reducible apply F9_AutoPart.parse_local) | local_step)

theorem F20_AutoPart.parse_local (k : Info) (args : List Str) :
    M.Local [c!"partition", c!"raid", c!"volgroup", c!"logvol", c!"reqpart", c!"mount"] (F20_AutoPart.parse k args) := by
  unfold F20_AutoPart.parse
  repeat' (first | (with_reducible apply F17_AutoPart.parse_local) | local_step)

theorem F21_AutoPart.parse_local (k : Info) (args : List Str) :
    M.Local [c!"partition", c!"raid", c!"volgroup", c!"logvol", c!"reqpart", c!"mount"] (F21_AutoPart.parse k args) := by
  unfold F21_AutoPart.parse
  repeat' (first | (with_reducible apply F20_AutoPart.parse_local) | local_step)

theorem F23_AutoPart.parse_local (k : Info) (args : List Str) :
    M.Local [c!"partition", c!"raid", c!"volgroup", c!"logvol", c!"reqpart", c!"mount"] (F23_AutoPart.parse k args) := by
  unfold F23_AutoPart.parse
  repeat' (first | (with_reducible apply F21_AutoPart.parse_local) | local_step)

theorem RHEL7_AutoPart.parse_local (k : Info) (args : List Str) :
    M.Local [c!"partition", c!"raid", c!"volgroup", c!"logvol", c!"reqpart", c!"mount"] (RHEL7_AutoPart.parse k args) := by
  unfold RHEL7_AutoPart.parse
  repeat' (first | (with_reducible apply F21_AutoPart.parse_local) | local_step)

theorem F29_AutoPart.parse_local (k : Info) (args : List Str) :
    M.Local [c!"partition", c!"raid", c!"volgroup", c!"logvol", c!"reqpart", c!"mount"] (F29_AutoPart.parse k args) := by
  unfold F29_AutoPart.parse
  repeat' (first | (with_reducible apply F23_AutoPart.parse_local) | local_step)

theorem RHEL8_AutoPart.parse_local (k : Info) (args : List Str) :
    M.Local [c!"partition", c!"raid", c!"volgroup", c!"logvol", c!"reqpart", c!"mount"] (RHEL8_AutoPart.parse k args) := by
  unfold RHEL8_AutoPart.parse
  repeat' (first | (with_reducible apply F29_AutoPart.parse_local) | local_step)

theorem FC3_AutoStep.parse_local (k : Info) (args : List Str) :
    M.Local [] (FC3_AutoStep.parse k args) := by
  unfold FC3_AutoStep.parse
  repeat' (first | local_step)

theorem FC3_Bootloader.parse_local (k : Info) (args : List Str) :
    M.Local [] (FC3_Bootloader.parse k args) := by
  unfold FC3_Bootloader.parse
  repeat' (first | local_step)

theorem FC4_Bootloader.parse_local (k : Info) (args : List Str) :
    M.Local [] (FC4_Bootloader.parse k args) := by
  unfold FC4_Bootloader.parse
  repeat' (first | local_step)

theorem F15_Bootloader.parse_local (k : Info) (args : List Str) :
    M.Local [] (F15_Bootloader.parse k args) := by
  unfold F15_Bootloader.parse
  repeat' (first | local_step)

theorem F17_Bootloader.parse_local (k : Info) (args : List Str) :
    M.Local [] (F17_Bootloader.parse k args) := by
  unfold F17_Bootloader.parse
  repeat' (first | (with_reducible apply F15_Bootloader.parse_local) | local_step)

theorem RHEL6_Bootloader.parse_local (k : Info) (args : List Str) :
    M.Local [] (RHEL6_Bootloader.parse k args) := by
  unfold RHEL6_Bootloader.parse
  repeat' (first | local_step)

theorem F17_BTRFS.parse_local (k : Info) (args : List Str) :
    M.Local [] (F17_BTRFS.parse k args) := by
  unfold F17_BTRFS.parse
  repeat' (first | local_step)

theorem F23_BTRFS.parse_local (k : Info) (args : List Str) :
    M.Local [] (F23_BTRFS.parse k args) := by
  unfold F23_BTRFS.parse
  repeat' (first | (with_reducible apply F17_BTRFS.parse_local) | local_step)

theorem FC3_Cdrom.parse_local (_k : Info) (args : List Str) :
    M.Local [] (FC3_Cdrom.parse _k args) := by
  unfold FC3_Cdrom.parse
  repeat' (first | local_step)

theorem FC3_ClearPart.parse_local (k : Info) (args : List Str) :
    M.Local [] (FC3_ClearPart.parse k args) := by
  unfold FC3_ClearPart.parse
  repeat' (first | local_step)

theorem F17_ClearPart.parse_local (k : Info) (args : List Str) :
    M.Local [] (F17_ClearPart.parse k args) := by
  unfold F17_ClearPart.parse
  repeat' (first | (with_reducible apply FC3_ClearPart.parse_local) | local_step)

theorem FC3_Device.parse_local (k : Info) (args : List Str) :
    M.Local [] (FC3_Device.parse k args) := by
  unfold FC3_Device.parse
  repeat' (first | local_step)

theorem F8_Device.parse_local (k : Info) (args : List Str) :
    M.Local [] (F8_Device.parse k args) := by
  unfold F8_Device.parse
  repeat' (first | local_step)

theorem FC3_DeviceProbe.parse_local (_k : Info) (args : List Str) :
    M.Local [] (FC3_DeviceProbe.parse _k args) := by
  unfold FC3_DeviceProbe.parse
  repeat' (first | local_step)

theorem FC3_DisplayMode.parse_local (k : Info) (args : List Str) :
    M.Local [] (FC3_DisplayMode.parse k args) := by
  unfold FC3_DisplayMode.parse
  repeat' (first | local_step)

theorem F26_DisplayMode.parse_local (k : Info) (args : List Str) :
    M.Local [] (F26_DisplayMode.parse k args) := by
  unfold F26_DisplayMode.parse
  repeat' (first | (with_reducible apply FC3_DisplayMode.parse_local) | local_step)

theorem FC6_DmRaid.parse_local (k : Info) (args : List Str) :
    M.Local [] (FC6_DmRaid.parse k args) := by
  unfold FC6_DmRaid.parse
  repeat' (first | local_step)

theorem FC3_DriverDisk.parse_local (k : Info) (args : List Str) :
    M.Local [] (FC3_DriverDisk.parse k args) := by
  unfold FC3_DriverDisk.parse
  repeat' (first | local_step)

theorem FC4_DriverDisk.parse_local (k : Info) (args : List Str) :
    M.Local [] (FC4_DriverDisk.parse k args) := by
  unfold FC4_DriverDisk.parse
  repeat' (first | local_step)

theorem F20_Eula.parse_local (k : Info) (args : List Str) :
    M.Local [] (F20_Eula.parse k args) := by
  unfold F20_Eula.parse
  repeat' (first | local_step)

theorem F12_Fcoe.parse_local (k : Info) (args : List Str) :
    M.Local [] (F12_Fcoe.parse k args) := by
  unfold F12_Fcoe.parse
  repeat' (first | local_step)

theorem FC3_Firewall.parse_local (k : Info) (args : List Str) :
    M.Local [] (FC3_Firewall.parse k args) := by
  unfold FC3_Firewall.parse
  repeat' (first | local_step)

theorem FC3_Firstboot.parse_local (k : Info) (args : List Str) :
    M.Local [] (FC3_Firstboot.parse k args) := by
  unfold FC3_Firstboot.parse
  repeat' (first | local_step)

theorem F12_Group.parse_local (k : Info) (args : List Str) :
    M.Local [] (F12_Group.parse k args) := by
  unfold F12_Group.parse
  repeat' (first | local_step)

theorem FC3_HardDrive.parse_local (k : Info) (args : List Str) :
    M.Local [] (FC3_HardDrive.parse k args) := by
  unfold FC3_HardDrive.parse
  repeat' (first | local_step)

theorem F33_HardDrive.parse_local (k : Info) (args : List Str) :
    M.Local [] (F33_HardDrive.parse k args) := by
  unfold F33_HardDrive.parse
  repeat' (first | local_step)

theorem RHEL7_Hmc.parse_local (_k : Info) (args : List Str) :
    M.Local [] (RHEL7_Hmc.parse _k args) := by
  unfold RHEL7_Hmc.parse
  repeat' (first | local_step)

theorem FC3_IgnoreDisk.parse_local (k : Info) (args : List Str) :
    M.Local [] (FC3_IgnoreDisk.parse k args) := by
  unfold FC3_IgnoreDisk.parse
  repeat' (first | local_step)

theorem F8_IgnoreDisk.parse_local (k : Info) (args : List Str) :
    M.Local [] (F8_IgnoreDisk.parse k args) := by
  unfold F8_IgnoreDisk.parse
  repeat' (first | (with_reducible apply FC3_IgnoreDisk.parse_local) | local_step)

theorem RHEL6_IgnoreDisk.parse_local (k : Info) (args : List Str) :
    M.Local [] (RHEL6_IgnoreDisk.parse k args) := by
  unfold RHEL6_IgnoreDisk.parse
  repeat' (first | (with_reducible apply FC3_IgnoreDisk.parse_local) | local_step)

theorem F29_IgnoreDisk.parse_local (k : Info) (args : List Str) :
    M.Local [] (F29_IgnoreDisk.parse k args) := by
  unfold F29_IgnoreDisk.parse
  repeat' (first | (with_reducible apply F8_IgnoreDisk.parse_local) | local_step)

theorem F11_Upgrade.parse_local (k : Info) (args : List Str) :
    M.Local [] (F11_Upgrade.parse k args) := by
  unfold F11_Upgrade.parse
  repeat' (first | local_step)

theorem F20_Install.parse_local (k : Info) (args : List Str) :
    M.Local [] (F20_Install.parse k args) := by
  unfold F20_Install.parse
  repeat' (first | (with_reducible apply F11_Upgrade.parse_local) | local_step)

theorem FC3_Interactive.parse_local (k : Info) (args : List Str) :
    M.Local [] (FC3_Interactive.parse k args) := by
  unfold FC3_Interactive.parse
  repeat' (first | local_step)

theorem FC6_Iscsi.parse_local (k : Info) (args : List Str) :
    M.Local [] (FC6_Iscsi.parse k args) := by
  unfold FC6_Iscsi.parse
  repeat' (first | local_step)

theorem FC6_IscsiName.parse_local (k : Info) (args : List Str) :
    M.Local [] (FC6_IscsiName.parse k args) := by
  unfold FC6_IscsiName.parse
  repeat' (first | local_step)

theorem RHEL5_Key.parse_local (k : Info) (args : List Str) :
    M.Local [] (RHEL5_Key.parse k args) := by
  unfold RHEL5_Key.parse
  repeat' (first | local_step)

theorem FC3_Keyboard.parse_local (k : Info) (args : List Str) :
    M.Local [] (FC3_Keyboard.parse k args) := by
  unfold FC3_Keyboard.parse
  repeat' (first | local_step)

theorem F18_Keyboard.parse_local (k : Info) (args : List Str) :
    M.Local [] (F18_Keyboard.parse k args) := by
  unfold F18_Keyboard.parse
  repeat' (first | local_step)

theorem FC3_Lang.parse_local (k : Info) (args : List Str) :
    M.Local [] (FC3_Lang.parse k args) := by
  unfold FC3_Lang.parse
  repeat' (first | local_step)

theorem FC3_LangSupport.parse_local (k : Info) (args : List Str) :
    M.Local [] (FC3_LangSupport.parse k args) := by
  unfold FC3_LangSupport.parse
  repeat' (first | local_step)

theorem FC3_LiloCheck.parse_local (k : Info) (args : List Str) :
    M.Local [] (FC3_LiloCheck.parse k args) := by
  unfold FC3_LiloCheck.parse
  repeat' (first | local_step)

theorem F19_Liveimg.parse_local (k : Info) (args : List Str) :
    M.Local [] (F19_Liveimg.parse k args) := by
  unfold F19_Liveimg.parse
  repeat' (first | local_step)

theorem FC6_Logging.parse_local (k : Info) (args : List Str) :
    M.Local [] (FC6_Logging.parse k args) := by
  unfold FC6_Logging.parse
  repeat' (first | local_step)

theorem FC3_LogVol.parse_local (k : Info) (args : List Str) :
    M.Local [c!"autopart", c!"mount"] (FC3_LogVol.parse k args) := by
  unfold FC3_LogVol.parse
  repeat' (first | local_step)

theorem RHEL6_LogVol.parse_local (k : Info) (args : List Str) :
    M.Local [c!"autopart", c!"mount"] (RHEL6_LogVol.parse k args) := by
  unfold RHEL6_LogVol.parse
  repeat' (first | (with_reducible apply FC3_LogVol.parse_local) | local_step)

theorem F17_LogVol.parse_local (k : Info) (args : List Str) :
    M.Local [c!"autopart", c!"mount"] (F17_LogVol.parse k args) := by
  unfold F17_LogVol.parse
  repeat' (first | (with_reducible apply FC3_LogVol.parse_local) | local_step)

theorem F20_LogVol.parse_local (k : Info) (args : List Str) :
    M.Local [c!"autopart", c!"mount"] (F20_LogVol.parse k args) := by
  unfold F20_LogVol.parse
  repeat' (first | (with_reducible apply F17_LogVol.parse_local) | local_step)

theorem F21_LogVol.parse_local (k : Info) (args : List Str) :
    M.Local [c!"autopart", c!"mount"] (F21_LogVol.parse k args) := by
  unfold F21_LogVol.parse
  repeat' (first | (with_reducible apply F20_LogVol.parse_local) | local_step)

theorem RHEL7_LogVol.parse_local (k : Info) (args : List Str) :
    M.Local [c!"autopart", c!"mount"] (RHEL7_LogVol.parse k args) := by
  unfold RHEL7_LogVol.parse
  repeat' (first | (with_reducible apply F21_LogVol.parse_local) | local_step)

theorem F23_LogVol.parse_local (k : Info) (args : List Str) :
    M.Local [c!"autopart", c!"mount"] (F23_LogVol.parse k args) := by
  unfold F23_LogVol.parse
  repeat' (first | (with_reducible apply F21_LogVol.parse_local) | local_step)

theorem F29_LogVol.parse_local (k : Info) (args : List Str) :
    M.Local [c!"autopart", c!"mount"] (F29_LogVol.parse k args) := by
  unfold F29_LogVol.parse
  repeat' (first | (with_reducible apply F23_LogVol.parse_local) | local_step)

theorem RHEL8_LogVol.parse_local (k : Info) (args : List Str) :
    M.Local [c!"autopart", c!"mount"] (RHEL8_LogVol.parse k args) := by
  unfold RHEL8_LogVol.parse
  repeat' (first | (with_reducible apply F29_LogVol.parse_local) | local_step)

theorem FC4_MediaCheck.parse_local (k : Info) (args : List Str) :
    M.Local [] (FC4_MediaCheck.parse k args) := by
  unfold FC4_MediaCheck.parse
  repeat' (first | local_step)

theorem F29_Module.parse_local (k : Info) (args : List Str) :
    M.Local [] (F29_Module.parse k args) := by
  unfold F29_Module.parse
  repeat' (first | local_step)

theorem FC3_Monitor.parse_local (k : Info) (args : List Str) :
    M.Local [] (FC3_Monitor.parse k args) := by
  unfold FC3_Monitor.parse
  repeat' (first | local_step)

theorem F27_Mount.parse_local (k : Info) (args : List Str) :
    M.Local [c!"autopart", c!"partition", c!"raid", c!"volgroup", c!"logvol", c!"reqpart"] (F27_Mount.parse k args) := by
  unfold F27_Mount.parse
  repeat' (first | local_step)

theorem RHEL3_Mouse.parse_local (k : Info) (args : List Str) :
    M.Local [] (RHEL3_Mouse.parse k args) := by
  unfold RHEL3_Mouse.parse
  repeat' (first | local_step)

theorem FC6_MultiPath.parse_local (k : Info) (args : List Str) :
    M.Local [] (FC6_MultiPath.parse k args) := by
  unfold FC6_MultiPath.parse
  repeat' (first | (with_reducible apply FC6_MultiPath.findParent_local) | local_step)

theorem FC3_Network.parse_local (k : Info) (args : List Str) :
    M.Local [] (FC3_Network.parse k args) := by
  unfold FC3_Network.parse
  repeat' (first | local_step)

theorem F22_Network.parse_local (k : Info) (args : List Str) :
    M.Local [] (F22_Network.parse k args) := by
  unfold F22_Network.parse
  repeat' (first | (with_reducible apply FC3_Network.parse_local) | local_step)

theorem F24_Network.parse_local (k : Info) (args : List Str) :
    M.Local [] (F24_Network.parse k args) := by
  unfold F24_Network.parse
  repeat' (first | (with_reducible apply F22_Network.parse_local) | local_step)

theorem F27_Network.parse_local (k : Info) (args : List Str) :
    M.Local [] (F27_Network.parse k args) := by
  unfold F27_Network.parse
  repeat' (first | (with_reducible apply F24_Network.parse_local) | local_step)

theorem RHEL7_Network.parse_local (k : Info) (args : List Str) :
    M.Local [] (RHEL7_Network.parse k args) := by
  unfold RHEL7_Network.parse
  repeat' (first | (with_reducible apply FC3_Network.parse_local) | local_step)

theorem FC3_NFS.parse_local (k : Info) (args : List Str) :
    M.Local [] (FC3_NFS.parse k args) := by
  unfold FC3_NFS.parse
  repeat' (first | local_step)

theorem F28_Nvdimm.parse_local (k : Info) (args : List Str) :
    M.Local [] (F28_Nvdimm.parse k args) := by
  unfold F28_Nvdimm.parse
  repeat' (first | local_step)

theorem F21_OSTreeSetup.parse_local (k : Info) (args : List Str) :
    M.Local [] (F21_OSTreeSetup.parse k args) := by
  unfold F21_OSTreeSetup.parse
  repeat' (first | local_step)

theorem FC3_Partition.parse_local (k : Info) (args : List Str) :
    M.Local [c!"autopart", c!"mount"] (FC3_Partition.parse k args) := by
  unfold FC3_Partition.parse
  repeat' (first | local_step)

theorem RHEL6_Partition.parse_local (k : Info) (args : List Str) :
    M.Local [c!"autopart", c!"mount"] (RHEL6_Partition.parse k args) := by
  unfold RHEL6_Partition.parse
  repeat' (first | (with_reducible apply FC3_Partition.parse_local) | local_step)

theorem F17_Partition.parse_local (k : Info) (args : List Str) :
    M.Local [c!"autopart", c!"mount"] (F17_Partition.parse k args) := by
  unfold F17_Partition.parse
  repeat' (first | (with_reducible apply FC3_Partition.parse_local) | local_step)

theorem F20_Partition.parse_local (k : Info) (args : List Str) :
    M.Local [c!"autopart", c!"mount"] (F20_Partition.parse k args) := by
  unfold F20_Partition.parse
  repeat' (first | (with_reducible apply F17_Partition.parse_local) | local_step)

theorem F23_Partition.parse_local (k : Info) (args : List Str) :
    M.Local [c!"autopart", c!"mount"] (F23_Partition.parse k args) := by
  unfold F23_Partition.parse
  repeat' (first | (with_reducible apply F20_Partition.parse_local) | local_step)

theorem F29_Partition.parse_local (k : Info) (args : List Str) :
    M.Local [c!"autopart", c!"mount"] (F29_Partition.parse k args) := by
  unfold F29_Partition.parse
  repeat' (first | (with_reducible apply F23_Partition.parse_local) | local_step)

theorem RHEL8_Partition.parse_local (k : Info) (args : List Str) :
    M.Local [c!"autopart", c!"mount"] (RHEL8_Partition.parse k args) := by
  unfold RHEL8_Partition.parse
  repeat' (first | (with_reducible apply F29_Partition.parse_local) | local_step)

theorem FC3_Raid.parse_local (k : Info) (args : List Str) :
    M.Local [c!"autopart", c!"mount"] (FC3_Raid.parse k args) := by
  unfold FC3_Raid.parse
  repeat' (first | local_step)

theorem RHEL6_Raid.parse_local (k : Info) (args : List Str) :
    M.Local [c!"autopart", c!"mount"] (RHEL6_Raid.parse k args) := by
  unfold RHEL6_Raid.parse
  repeat' (first | (with_reducible apply FC3_Raid.parse_local) | local_step)

theorem F20_Raid.parse_local (k : Info) (args : List Str) :
    M.Local [c!"autopart", c!"mount"] (F20_Raid.parse k args) := by
  unfold F20_Raid.parse
  repeat' (first | (with_reducible apply FC3_Raid.parse_local) | local_step)

theorem F23_Raid.parse_local (k : Info) (args : List Str) :
    M.Local [c!"autopart", c!"mount"] (F23_Raid.parse k args) := by
  unfold F23_Raid.parse
  repeat' (first | (with_reducible apply F20_Raid.parse_local) | local_step)

theorem F29_Raid.parse_local (k : Info) (args : List Str) :
    M.Local [c!"autopart", c!"mount"] (F29_Raid.parse k args) := by
  unfold F29_Raid.parse
  repeat' (first | (with_reducible apply F23_Raid.parse_local) | local_step)

theorem RHEL8_Raid.parse_local (k : Info) (args : List Str) :
    M.Local [c!"autopart", c!"mount"] (RHEL8_Raid.parse k args) := by
  unfold RHEL8_Raid.parse
  repeat' (first | (with_reducible apply F29_Raid.parse_local) | local_step)

theorem F19_Realm.parse_local (_args : List Str) :
    M.Local [] (F19_Realm.parse _args) := by
  unfold F19_Realm.parse F19_Realm.parseArguments F19_Realm.parseJoin
  repeat' (first | local_step)

theorem FC3_Reboot.parse_local (_k : Info) (_args : List Str) :
    M.Local [] (FC3_Reboot.parse _k _args) := by
  unfold FC3_Reboot.parse
  repeat' (first | local_step)

theorem FC6_Reboot.parse_local (k : Info) (args : List Str) :
    M.Local [] (FC6_Reboot.parse k args) := by
  unfold FC6_Reboot.parse
  repeat' (first | (with_reducible apply FC3_Reboot.parse_local) | local_step)

theorem F18_Reboot.parse_local (k : Info) (args : List Str) :
    M.Local [] (F18_Reboot.parse k args) := by
  unfold F18_Reboot.parse
  repeat' (first | (with_reducible apply FC6_Reboot.parse_local) | local_step)

theorem FC6_Repo.parse_local (k : Info) (args : List Str) :
    M.Local [] (FC6_Repo.parse k args) := by
  unfold FC6_Repo.parse
  repeat' (first | local_step)

theorem F23_ReqPart.parse_local (k : Info) (args : List Str) :
    M.Local [c!"autopart", c!"mount"] (F23_ReqPart.parse k args) := by
  unfold F23_ReqPart.parse
  repeat' (first | local_step)

theorem F10_Rescue.parse_local (k : Info) (args : List Str) :
    M.Local [] (F10_Rescue.parse k args) := by
  unfold F10_Rescue.parse
  repeat' (first | local_step)

theorem RHEL8_RHSM.parse_local (k : Info) (args : List Str) :
    M.Local [] (RHEL8_RHSM.parse k args) := by
  unfold RHEL8_RHSM.parse
  repeat' (first | local_step)

theorem FC3_RootPw.parse_local (k : Info) (args : List Str) :
    M.Local [] (FC3_RootPw.parse k args) := by
  unfold FC3_RootPw.parse
  repeat' (first | local_step)

theorem F18_RootPw.parse_local (k : Info) (args : List Str) :
    M.Local [] (F18_RootPw.parse k args) := by
  unfold F18_RootPw.parse
  repeat' (first | local_step)

theorem FC3_SELinux.parse_local (k : Info) (args : List Str) :
    M.Local [] (FC3_SELinux.parse k args) := by
  unfold FC3_SELinux.parse
  repeat' (first | local_step)

theorem FC6_Services.parse_local (k : Info) (args : List Str) :
    M.Local [] (FC6_Services.parse k args) := by
  unfold FC6_Services.parse
  repeat' (first | local_step)

theorem FC3_SkipX.parse_local (k : Info) (args : List Str) :
    M.Local [] (FC3_SkipX.parse k args) := by
  unfold FC3_SkipX.parse
  repeat' (first | local_step)

theorem F26_Snapshot.parse_local (k : Info) (args : List Str) :
    M.Local [] (F26_Snapshot.parse k args) := by
  unfold F26_Snapshot.parse
  repeat' (first | local_step)

theorem F22_SshKey.parse_local (k : Info) (args : List Str) :
    M.Local [] (F22_SshKey.parse k args) := by
  unfold F22_SshKey.parse
  repeat' (first | local_step)

theorem F13_SshPw.parse_local (k : Info) (args : List Str) :
    M.Local [] (F13_SshPw.parse k args) := by
  unfold F13_SshPw.parse
  repeat' (first | local_step)

theorem RHEL8_Syspurpose.parse_local (k : Info) (args : List Str) :
    M.Local [] (RHEL8_Syspurpose.parse k args) := by
  unfold RHEL8_Syspurpose.parse
  repeat' (first | local_step)

theorem F33_Timesource.parse_local (k : Info) (args : List Str) :
    M.Local [] (F33_Timesource.parse k args) := by
  unfold F33_Timesource.parse
  repeat' (first | local_step)

theorem FC3_Timezone.parse_local (k : Info) (args : List Str) :
    M.Local [] (FC3_Timezone.parse k args) := by
  unfold FC3_Timezone.parse
  repeat' (first | local_step)

theorem F18_Timezone.parse_local (k : Info) (args : List Str) :
    M.Local [] (F18_Timezone.parse k args) := by
  unfold F18_Timezone.parse
  repeat' (first | (with_reducible apply FC3_Timezone.parse_local) | local_step)

theorem F23_Timezone.parse_local (k : Info) (args : List Str) :
    M.Local [] (F23_Timezone.parse k args) := by
  unfold F23_Timezone.parse
  repeat' (first | (with_reducible apply FC3_Timezone.parse_local) | local_step)

theorem RHEL7_Timezone.parse_local (k : Info) (args : List Str) :
    M.Local [] (RHEL7_Timezone.parse k args) := by
  unfold RHEL7_Timezone.parse
  repeat' (first | local_step)

theorem F25_Timezone.parse_local (k : Info) (args : List Str) :
    M.Local [] (F25_Timezone.parse k args) := by
  unfold F25_Timezone.parse
  repeat' (first | local_step)

theorem F32_Timezone.parse_local (k : Info) (args : List Str) :
    M.Local [] (F32_Timezone.parse k args) := by
  unfold F32_Timezone.parse
  repeat' (first | (with_reducible apply F25_Timezone.parse_local) | local_step)

theorem F33_Timezone.parse_local (k : Info) (args : List Str) :
    M.Local [] (F33_Timezone.parse k args) := by
  unfold F33_Timezone.parse
  repeat' (first | (with_reducible apply F32_Timezone.parse_local) | local_step)

theorem RHEL6_UnsupportedHardware.parse_local (k : Info) (args : List Str) :
    M.Local [] (RHEL6_UnsupportedHardware.parse k args) := by
  unfold RHEL6_UnsupportedHardware.parse
  repeat' (first | local_step)

theorem F7_Updates.parse_local (k : Info) (args : List Str) :
    M.Local [] (F7_Updates.parse k args) := by
  unfold F7_Updates.parse
  repeat' (first | local_step)

theorem F34_Updates.parse_local (k : Info) (args : List Str) :
    M.Local [] (F34_Updates.parse k args) := by
  unfold F34_Updates.parse
  repeat' (first | local_step)

theorem FC3_Upgrade.parse_local (k : Info) (args : List Str) :
    M.Local [] (FC3_Upgrade.parse k args) := by
  unfold FC3_Upgrade.parse
  repeat' (first | local_step)

theorem FC3_Url.parse_local (k : Info) (args : List Str) :
    M.Local [] (FC3_Url.parse k args) := by
  unfold FC3_Url.parse
  repeat' (first | local_step)

theorem F18_Url.parse_local (k : Info) (args : List Str) :
    M.Local [] (F18_Url.parse k args) := by
  unfold F18_Url.parse
  repeat' (first | (with_reducible apply FC3_Url.parse_local) | local_step)

theorem FC6_User.parse_local (k : Info) (args : List Str) :
    M.Local [] (FC6_User.parse k args) := by
  unfold FC6_User.parse
  repeat' (first | local_step)

theorem FC3_Vnc.parse_local (k : Info) (args : List Str) :
    M.Local [] (FC3_Vnc.parse k args) := by
  unfold FC3_Vnc.parse
  repeat' (first | local_step)

theorem FC6_Vnc.parse_local (k : Info) (args : List Str) :
    M.Local [] (FC6_Vnc.parse k args) := by
  unfold FC6_Vnc.parse
  repeat' (first | (with_reducible apply FC3_Vnc.parse_local) | local_step)

theorem FC3_VolGroup.parse_local (k : Info) (args : List Str) :
    M.Local [c!"autopart", c!"mount"] (FC3_VolGroup.parse k args) := by
  unfold FC3_VolGroup.parse
  repeat' (first | local_step)

theorem F16_VolGroup.parse_local (k : Info) (args : List Str) :
    M.Local [c!"autopart", c!"mount"] (F16_VolGroup.parse k args) := by
  unfold F16_VolGroup.parse
  repeat' (first | (with_reducible apply FC3_VolGroup.parse_local) | local_step)

theorem FC3_XConfig.parse_local (k : Info) (args : List Str) :
    M.Local [] (FC3_XConfig.parse k args) := by
  unfold FC3_XConfig.parse
  repeat' (first | local_step)

theorem FC3_ZeroMbr.parse_local (k : Info) (args : List Str) :
    M.Local [] (FC3_ZeroMbr.parse k args) := by
  unfold FC3_ZeroMbr.parse
  repeat' (first | local_step)

theorem F9_ZeroMbr.parse_local (k : Info) (args : List Str) :
    M.Local [] (F9_ZeroMbr.parse k args) := by
  unfold F9_ZeroMbr.parse
  repeat' (first | local_step)

theorem FC3_ZFCP.parse_local (k : Info) (args : List Str) :
    M.Local [] (FC3_ZFCP.parse k args) := by
  unfold FC3_ZFCP.parse
  repeat' (first | local_step)

theorem F32_Zipl.parse_local (k : Info) (args : List Str) :
    M.Local [] (F32_Zipl.parse k args) := by
  unfold F32_Zipl.parse
  repeat' (first | local_step)

theorem local_FC3_Authconfig : Command.Local (FC3_Authconfig.cls) (looksAt c!"authconfig") :=
  plain_local fun args => FC3_Authconfig.parse_local _ args

theorem local_F9_AutoPart : Command.Local (F9_AutoPart.cls) (looksAt c!"autopart") :=
  plain_local fun args => F9_AutoPart.parse_local _ args

theorem local_FC3_AutoStep : Command.Local (FC3_AutoStep.cls) (looksAt c!"autostep") :=
  plain_local fun args => FC3_AutoStep.parse_local _ args

theorem local_F8_Bootloader : Command.Local (F8_Bootloader.cls) (looksAt c!"bootloader") :=
  plain_local fun args => FC4_Bootloader.parse_local _ args

theorem local_FC3_Cdrom : Command.Local (FC3_Cdrom.cls) (looksAt c!"cdrom") :=
  plain_local fun args => FC3_Cdrom.parse_local _ args

theorem local_FC3_ClearPart : Command.Local (FC3_ClearPart.cls) (looksAt c!"clearpart") :=
  plain_local fun args => FC3_ClearPart.parse_local _ args

theorem local_FC3_DisplayMode : Command.Local (FC3_DisplayMode.cls) (looksAt c!"displaymode") :=
  plain_local fun args => FC3_DisplayMode.parse_local _ args

theorem local_F8_Device_F8_DeviceData : Command.Local (F8_Device.cls F8_DeviceData.cls) (looksAt c!"device") :=
  list_local fun args => F8_Device.parse_local _ args

theorem local_FC3_DeviceProbe : Command.Local (FC3_DeviceProbe.cls) (looksAt c!"deviceprobe") :=
  plain_local fun args => FC3_DeviceProbe.parse_local _ args

theorem local_FC6_DmRaid_FC6_DmRaidData : Command.Local (FC6_DmRaid.cls FC6_DmRaidData.cls) (looksAt c!"dmraid") :=
  list_local fun args => FC6_DmRaid.parse_local _ args

theorem local_FC4_DriverDisk_FC4_DriverDiskData : Command.Local (FC4_DriverDisk.cls FC4_DriverDiskData.cls) (looksAt c!"driverdisk") :=
  list_local fun args => FC4_DriverDisk.parse_local _ args

theorem local_F10_Firewall : Command.Local (F10_Firewall.cls) (looksAt c!"firewall") :=
  plain_local fun args => FC3_Firewall.parse_local _ args

theorem local_FC3_Firstboot : Command.Local (FC3_Firstboot.cls) (looksAt c!"firstboot") :=
  plain_local fun args => FC3_Firstboot.parse_local _ args

theorem local_FC6_Reboot : Command.Local (FC6_Reboot.cls) (looksAt c!"reboot") :=
  plain_local fun args => FC6_Reboot.parse_local _ args

theorem local_FC3_HardDrive : Command.Local (FC3_HardDrive.cls) (looksAt c!"harddrive") :=
  plain_local fun args => FC3_HardDrive.parse_local _ args

theorem local_F8_IgnoreDisk : Command.Local (F8_IgnoreDisk.cls) (looksAt c!"ignoredisk") :=
  plain_local fun args => F8_IgnoreDisk.parse_local _ args

theorem local_FC3_Upgrade : Command.Local (FC3_Upgrade.cls) (looksAt c!"upgrade") :=
  plain_local fun args => FC3_Upgrade.parse_local _ args

theorem local_FC3_Interactive : Command.Local (FC3_Interactive.cls) (looksAt c!"interactive") :=
  plain_local fun args => FC3_Interactive.parse_local _ args

theorem local_F10_Iscsi_F10_IscsiData : Command.Local (F10_Iscsi.cls F10_IscsiData.cls) (looksAt c!"iscsi") :=
  list_local fun args => FC6_Iscsi.parse_local _ args

theorem local_FC6_IscsiName : Command.Local (FC6_IscsiName.cls) (looksAt c!"iscsiname") :=
  plain_local fun args => FC6_IscsiName.parse_local _ args

theorem local_FC3_Keyboard : Command.Local (FC3_Keyboard.cls) (looksAt c!"keyboard") :=
  plain_local fun args => FC3_Keyboard.parse_local _ args

theorem local_FC3_Lang : Command.Local (FC3_Lang.cls) (looksAt c!"lang") :=
  plain_local fun args => FC3_Lang.parse_local _ args

theorem local_FC6_Logging : Command.Local (FC6_Logging.cls) (looksAt c!"logging") :=
  plain_local fun args => FC6_Logging.parse_local _ args

theorem local_F9_LogVol_F9_LogVolData : Command.Local (F9_LogVol.cls F9_LogVolData.cls) (looksAt c!"logvol") :=
  list_local fun args => FC3_LogVol.parse_local _ args

theorem local_FC4_MediaCheck : Command.Local (FC4_MediaCheck.cls) (looksAt c!"mediacheck") :=
  plain_local fun args => FC4_MediaCheck.parse_local _ args

theorem local_FC6_Method : Command.Local (FC6_Method.cls) (looksAt c!"method") :=
  plain_local fun _ => local_throw

theorem local_F10_Monitor : Command.Local (F10_Monitor.cls) (looksAt c!"monitor") :=
  deprecated_local

theorem local_FC6_MultiPath_FC6_MultiPathData : Command.Local (FC6_MultiPath.cls FC6_MultiPathData.cls) (looksAt c!"multipath") :=
  list_local fun args => FC6_MultiPath.parse_local _ args

theorem local_F9_Network_F8_NetworkData : Command.Local (F9_Network.cls F8_NetworkData.cls) (looksAt c!"network") :=
  list_local fun args => FC3_Network.parse_local _ args

theorem local_FC6_NFS : Command.Local (FC6_NFS.cls) (looksAt c!"nfs") :=
  plain_local fun args => FC3_NFS.parse_local _ args

theorem local_F9_Partition_F9_PartData : Command.Local (F9_Partition.cls F9_PartData.cls) (looksAt c!"partition") :=
  list_local fun args => FC3_Partition.parse_local _ args

theorem local_F9_Raid_F9_RaidData : Command.Local (F9_Raid.cls F9_RaidData.cls) (looksAt c!"raid") :=
  list_local fun args => FC3_Raid.parse_local _ args

theorem local_F8_Repo_F8_RepoData : Command.Local (F8_Repo.cls F8_RepoData.cls) (looksAt c!"repo") :=
  list_local fun args => FC6_Repo.parse_local _ args

theorem local_F10_Rescue : Command.Local (F10_Rescue.cls) (looksAt c!"rescue") :=
  plain_local fun args => F10_Rescue.parse_local _ args

theorem local_F8_RootPw : Command.Local (F8_RootPw.cls) (looksAt c!"rootpw") :=
  plain_local fun args => FC3_RootPw.parse_local _ args

theorem local_FC3_SELinux : Command.Local (FC3_SELinux.cls) (looksAt c!"selinux") :=
  plain_local fun args => FC3_SELinux.parse_local _ args

theorem local_FC6_Services : Command.Local (FC6_Services.cls) (looksAt c!"services") :=
  plain_local fun args => FC6_Services.parse_local _ args

theorem local_FC3_SkipX : Command.Local (FC3_SkipX.cls) (looksAt c!"skipx") :=
  plain_local fun args => FC3_SkipX.parse_local _ args

theorem local_FC6_Timezone : Command.Local (FC6_Timezone.cls) (looksAt c!"timezone") :=
  plain_local fun args => FC3_Timezone.parse_local _ args

theorem local_F7_Updates : Command.Local (F7_Updates.cls) (looksAt c!"updates") :=
  plain_local fun args => F7_Updates.parse_local _ args

theorem local_FC3_Url : Command.Local (FC3_Url.cls) (looksAt c!"url") :=
  plain_local fun args => FC3_Url.parse_local _ args

theorem local_F8_User_F8_UserData : Command.Local (F8_User.cls F8_UserData.cls) (looksAt c!"user") :=
  list_local fun args => FC6_User.parse_local _ args

theorem local_F9_Vnc : Command.Local (F9_Vnc.cls) (looksAt c!"vnc") :=
  plain_local fun args => FC6_Vnc.parse_local _ args

theorem local_FC3_VolGroup_FC3_VolGroupData : Command.Local (FC3_VolGroup.cls FC3_VolGroupData.cls) (looksAt c!"volgroup") :=
  list_local fun args => FC3_VolGroup.parse_local _ args

theorem local_F10_XConfig : Command.Local (F10_XConfig.cls) (looksAt c!"xconfig") :=
  plain_local fun args => FC3_XConfig.parse_local _ args

theorem local_F9_ZeroMbr : Command.Local (F9_ZeroMbr.cls) (looksAt c!"zerombr") :=
  plain_local fun args => F9_ZeroMbr.parse_local _ args

theorem local_FC3_ZFCP_FC3_ZFCPData : Command.Local (FC3_ZFCP.cls FC3_ZFCPData.cls) (looksAt c!"zfcp") :=
  list_local fun args => FC3_ZFCP.parse_local _ args

theorem local_F11_Upgrade : Command.Local (F11_Upgrade.cls) (looksAt c!"upgrade") :=
  plain_local fun args => F11_Upgrade.parse_local _ args

theorem local_F11_Partition_F11_PartData : Command.Local (F11_Partition.cls F11_PartData.cls) (looksAt c!"partition") :=
  list_local fun args => FC3_Partition.parse_local _ args

theorem local_F11_Repo_F11_RepoData : Command.Local (F11_Repo.cls F11_RepoData.cls) (looksAt c!"repo") :=
  list_local fun args => FC6_Repo.parse_local _ args

theorem local_F12_AutoPart : Command.Local (F12_AutoPart.cls) (looksAt c!"autopart") :=
  plain_local fun args => F9_AutoPart.parse_local _ args

theorem local_F12_Bootloader : Command.Local (F12_Bootloader.cls) (looksAt c!"bootloader") :=
  plain_local fun args => FC4_Bootloader.parse_local _ args

theorem local_F12_DriverDisk_F12_DriverDiskData : Command.Local (F12_DriverDisk.cls F12_DriverDiskData.cls) (looksAt c!"driverdisk") :=
  list_local fun args => FC4_DriverDisk.parse_local _ args

theorem local_F12_Fcoe_F12_FcoeData : Command.Local (F12_Fcoe.cls F12_FcoeData.cls) (looksAt c!"fcoe") :=
  list_local fun args => F12_Fcoe.parse_local _ args

theorem local_F12_Group_F12_GroupData : Command.Local (F12_Group.cls F12_GroupData.cls) (looksAt c!"group") :=
  list_local fun args => F12_Group.parse_local _ args

theorem local_F12_LogVol_F12_LogVolData : Command.Local (F12_LogVol.cls F12_LogVolData.cls) (looksAt c!"logvol") :=
  list_local fun args => FC3_LogVol.parse_local _ args

theorem local_F12_Partition_F12_PartData : Command.Local (F12_Partition.cls F12_PartData.cls) (looksAt c!"partition") :=
  list_local fun args => FC3_Partition.parse_local _ args

theorem local_F12_Raid_F12_RaidData : Command.Local (F12_Raid.cls F12_RaidData.cls) (looksAt c!"raid") :=
  list_local fun args => FC3_Raid.parse_local _ args

theorem local_F12_User_F12_UserData : Command.Local (F12_User.cls F12_UserData.cls) (looksAt c!"user") :=
  list_local fun args => FC6_User.parse_local _ args

theorem local_F12_ZFCP_F12_ZFCPData : Command.Local (F12_ZFCP.cls F12_ZFCPData.cls) (looksAt c!"zfcp") :=
  list_local fun args => FC3_ZFCP.parse_local _ args

theorem local_F13_Fcoe_F13_FcoeData : Command.Local (F13_Fcoe.cls F13_FcoeData.cls) (looksAt c!"fcoe") :=
  list_local fun args => F12_Fcoe.parse_local _ args

theorem local_F13_Method : Command.Local (F13_Method.cls) (looksAt c!"method") :=
  plain_local fun _ => local_throw

theorem local_F13_Raid_F13_RaidData : Command.Local (F13_Raid.cls F13_RaidData.cls) (looksAt c!"raid") :=
  list_local fun args => FC3_Raid.parse_local _ args

theorem local_F13_Repo_F13_RepoData : Command.Local (F13_Repo.cls F13_RepoData.cls) (looksAt c!"repo") :=
  list_local fun args => FC6_Repo.parse_local _ args

theorem local_F13_SshPw_F13_SshPwData : Command.Local (F13_SshPw.cls F13_SshPwData.cls) (looksAt c!"sshpw") :=
  list_local fun args => F13_SshPw.parse_local _ args

theorem local_F13_Url : Command.Local (F13_Url.cls) (looksAt c!"url") :=
  plain_local fun args => FC3_Url.parse_local _ args

theorem local_F14_Bootloader : Command.Local (F14_Bootloader.cls) (looksAt c!"bootloader") :=
  plain_local fun args => FC4_Bootloader.parse_local _ args

theorem local_F14_DriverDisk_F14_DriverDiskData : Command.Local (F14_DriverDisk.cls F14_DriverDiskData.cls) (looksAt c!"driverdisk") :=
  list_local fun args => FC4_DriverDisk.parse_local _ args

theorem local_F14_Firewall : Command.Local (F14_Firewall.cls) (looksAt c!"firewall") :=
  plain_local fun args => FC3_Firewall.parse_local _ args

theorem local_F14_IgnoreDisk : Command.Local (F14_IgnoreDisk.cls) (looksAt c!"ignoredisk") :=
  plain_local fun args => RHEL6_IgnoreDisk.parse_local _ args

theorem local_F14_Interactive : Command.Local (F14_Interactive.cls) (looksAt c!"interactive") :=
  deprecated_local

theorem local_F14_LogVol_F14_LogVolData : Command.Local (F14_LogVol.cls F14_LogVolData.cls) (looksAt c!"logvol") :=
  list_local fun args => FC3_LogVol.parse_local _ args

theorem local_F14_Method : Command.Local (F14_Method.cls) (looksAt c!"method") :=
  plain_local fun _ => local_throw

theorem local_F14_Partition_F14_PartData : Command.Local (F14_Partition.cls F14_PartData.cls) (looksAt c!"partition") :=
  list_local fun args => FC3_Partition.parse_local _ args

theorem local_F14_Raid_F14_RaidData : Command.Local (F14_Raid.cls F14_RaidData.cls) (looksAt c!"raid") :=
  list_local fun args => FC3_Raid.parse_local _ args

theorem local_F14_Repo_F14_RepoData : Command.Local (F14_Repo.cls F14_RepoData.cls) (looksAt c!"repo") :=
  list_local fun args => FC6_Repo.parse_local _ args

theorem local_F14_Url : Command.Local (F14_Url.cls) (looksAt c!"url") :=
  plain_local fun args => FC3_Url.parse_local _ args

theorem local_F14_XConfig : Command.Local (F14_XConfig.cls) (looksAt c!"xconfig") :=
  plain_local fun args => FC3_XConfig.parse_local _ args

theorem local_F14_ZFCP_F14_ZFCPData : Command.Local (F14_ZFCP.cls F14_ZFCPData.cls) (looksAt c!"zfcp") :=
  list_local fun args => FC3_ZFCP.parse_local _ args

theorem local_F15_Bootloader : Command.Local (F15_Bootloader.cls) (looksAt c!"bootloader") :=
  plain_local fun args => F15_Bootloader.parse_local _ args

theorem local_F15_Interactive : Command.Local (F15_Interactive.cls) (looksAt c!"interactive") :=
  removed_local

theorem local_F15_LogVol_F15_LogVolData : Command.Local (F15_LogVol.cls F15_LogVolData.cls) (looksAt c!"logvol") :=
  list_local fun args => FC3_LogVol.parse_local _ args

theorem local_F15_Raid_F15_RaidData : Command.Local (F15_Raid.cls F15_RaidData.cls) (looksAt c!"raid") :=
  list_local fun args => FC3_Raid.parse_local _ args

theorem local_F15_Repo_F15_RepoData : Command.Local (F15_Repo.cls F15_RepoData.cls) (looksAt c!"repo") :=
  list_local fun args => FC6_Repo.parse_local _ args

theorem local_F16_AutoPart : Command.Local (F16_AutoPart.cls) (looksAt c!"autopart") :=
  plain_local fun args => F9_AutoPart.parse_local _ args

theorem local_F15_LogVol_F17_LogVolData : Command.Local (F15_LogVol.cls F17_LogVolData.cls) (looksAt c!"logvol") :=
  list_local fun args => FC3_LogVol.parse_local _ args

theorem local_F16_Network_F16_NetworkData : Command.Local (F16_Network.cls F16_NetworkData.cls) (looksAt c!"network") :=
  list_local fun args => FC3_Network.parse_local _ args

theorem local_F14_Partition_F17_PartData : Command.Local (F14_Partition.cls F17_PartData.cls) (looksAt c!"partition") :=
  list_local fun args => FC3_Partition.parse_local _ args

theorem local_F16_VolGroup_F16_VolGroupData : Command.Local (F16_VolGroup.cls F16_VolGroupData.cls) (looksAt c!"volgroup") :=
  list_local fun args => F16_VolGroup.parse_local _ args

theorem local_F17_AutoPart : Command.Local (F17_AutoPart.cls) (looksAt c!"autopart") :=
  plain_local fun args => F17_AutoPart.parse_local _ args

theorem local_F17_Bootloader : Command.Local (F17_Bootloader.cls) (looksAt c!"bootloader") :=
  plain_local fun args => F17_Bootloader.parse_local _ args

theorem local_F17_BTRFS_F17_BTRFSData : Command.Local (F17_BTRFS.cls F17_BTRFSData.cls) (looksAt c!"btrfs") :=
  list_local fun args => F17_BTRFS.parse_local _ args

theorem local_F17_ClearPart : Command.Local (F17_ClearPart.cls) (looksAt c!"clearpart") :=
  plain_local fun args => F17_ClearPart.parse_local _ args

theorem local_F17_Iscsi_F17_IscsiData : Command.Local (F17_Iscsi.cls F17_IscsiData.cls) (looksAt c!"iscsi") :=
  list_local fun args => FC6_Iscsi.parse_local _ args

theorem local_F17_LogVol_F17_LogVolData : Command.Local (F17_LogVol.cls F17_LogVolData.cls) (looksAt c!"logvol") :=
  list_local fun args => F17_LogVol.parse_local _ args

theorem local_F17_Partition_F17_PartData : Command.Local (F17_Partition.cls F17_PartData.cls) (looksAt c!"partition") :=
  list_local fun args => F17_Partition.parse_local _ args

theorem local_F18_AutoPart : Command.Local (F18_AutoPart.cls) (looksAt c!"autopart") :=
  plain_local fun args => F17_AutoPart.parse_local _ args

theorem local_F18_Bootloader : Command.Local (F18_Bootloader.cls) (looksAt c!"bootloader") :=
  plain_local fun args => F17_Bootloader.parse_local _ args

theorem local_F13_Fcoe_RHEL7_FcoeData : Command.Local (F13_Fcoe.cls RHEL7_FcoeData.cls) (looksAt c!"fcoe") :=
  list_local fun args => F12_Fcoe.parse_local _ args

theorem local_F18_Reboot : Command.Local (F18_Reboot.cls) (looksAt c!"reboot") :=
  plain_local fun args => F18_Reboot.parse_local _ args

theorem local_F18_Keyboard : Command.Local (F18_Keyboard.cls) (looksAt c!"keyboard") :=
  plain_local fun args => F18_Keyboard.parse_local _ args

theorem local_F18_LogVol_F18_LogVolData : Command.Local (F18_LogVol.cls F18_LogVolData.cls) (looksAt c!"logvol") :=
  list_local fun args => F17_LogVol.parse_local _ args

theorem local_F18_Method : Command.Local (F18_Method.cls) (looksAt c!"method") :=
  plain_local fun _ => local_throw

theorem local_F18_Monitor : Command.Local (F18_Monitor.cls) (looksAt c!"monitor") :=
  removed_local

theorem local_F18_Network_F16_NetworkData : Command.Local (F18_Network.cls F16_NetworkData.cls) (looksAt c!"network") :=
  list_local fun args => FC3_Network.parse_local _ args

theorem local_F18_Partition_F18_PartData : Command.Local (F18_Partition.cls F18_PartData.cls) (looksAt c!"partition") :=
  list_local fun args => F17_Partition.parse_local _ args

theorem local_F18_Raid_F18_RaidData : Command.Local (F18_Raid.cls F18_RaidData.cls) (looksAt c!"raid") :=
  list_local fun args => FC3_Raid.parse_local _ args

theorem local_F18_RootPw : Command.Local (F18_RootPw.cls) (looksAt c!"rootpw") :=
  plain_local fun args => F18_RootPw.parse_local _ args

theorem local_F18_Timezone : Command.Local (F18_Timezone.cls) (looksAt c!"timezone") :=
  plain_local fun args => F18_Timezone.parse_local _ args

theorem local_F18_Url : Command.Local (F18_Url.cls) (looksAt c!"url") :=
  plain_local fun args => F18_Url.parse_local _ args

theorem local_F19_Bootloader : Command.Local (F19_Bootloader.cls) (looksAt c!"bootloader") :=
  plain_local fun args => F17_Bootloader.parse_local _ args

theorem local_F19_Lang : Command.Local (F19_Lang.cls) (looksAt c!"lang") :=
  plain_local fun args => FC3_Lang.parse_local _ args

theorem local_F19_Liveimg : Command.Local (F19_Liveimg.cls) (looksAt c!"liveimg") :=
  plain_local fun args => F19_Liveimg.parse_local _ args

theorem local_F18_LogVol_F20_LogVolData : Command.Local (F18_LogVol.cls F20_LogVolData.cls) (looksAt c!"logvol") :=
  list_local fun args => F17_LogVol.parse_local _ args

theorem local_F19_Method : Command.Local (F19_Method.cls) (looksAt c!"method") :=
  plain_local fun _ => local_throw

theorem local_F19_Network_F19_NetworkData : Command.Local (F19_Network.cls F19_NetworkData.cls) (looksAt c!"network") :=
  list_local fun args => FC3_Network.parse_local _ args

theorem local_F19_Raid_F18_RaidData : Command.Local (F19_Raid.cls F18_RaidData.cls) (looksAt c!"raid") :=
  list_local fun args => FC3_Raid.parse_local _ args

theorem local_F19_Realm : Command.Local (F19_Realm.cls) (looksAt c!"realm") :=
  plain_local fun args => F19_Realm.parse_local args

theorem local_F19_User_F19_UserData : Command.Local (F19_User.cls F19_UserData.cls) (looksAt c!"user") :=
  list_local fun args => FC6_User.parse_local _ args

theorem local_F20_AutoPart : Command.Local (F20_AutoPart.cls) (looksAt c!"autopart") :=
  plain_local fun args => F20_AutoPart.parse_local _ args

theorem local_F20_Eula : Command.Local (F20_Eula.cls) (looksAt c!"eula") :=
  plain_local fun args => F20_Eula.parse_local _ args

theorem local_F20_Firewall : Command.Local (F20_Firewall.cls) (looksAt c!"firewall") :=
  plain_local fun args => FC3_Firewall.parse_local _ args

theorem local_F20_Install : Command.Local (F20_Install.cls) (looksAt c!"install") :=
  plain_local fun args => F20_Install.parse_local _ args

theorem local_F20_LogVol_F20_LogVolData : Command.Local (F20_LogVol.cls F20_LogVolData.cls) (looksAt c!"logvol") :=
  list_local fun args => F20_LogVol.parse_local _ args

theorem local_F20_Network_F20_NetworkData : Command.Local (F20_Network.cls F20_NetworkData.cls) (looksAt c!"network") :=
  list_local fun args => FC3_Network.parse_local _ args

theorem local_F20_Partition_F18_PartData : Command.Local (F20_Partition.cls F18_PartData.cls) (looksAt c!"partition") :=
  list_local fun args => F20_Partition.parse_local _ args

theorem local_F20_Raid_F18_RaidData : Command.Local (F20_Raid.cls F18_RaidData.cls) (looksAt c!"raid") :=
  list_local fun args => F20_Raid.parse_local _ args

theorem local_F20_Upgrade : Command.Local (F20_Upgrade.cls) (looksAt c!"upgrade") :=
  deprecated_local

theorem local_F21_AutoPart : Command.Local (F21_AutoPart.cls) (looksAt c!"autopart") :=
  plain_local fun args => F21_AutoPart.parse_local _ args

theorem local_F21_Bootloader : Command.Local (F21_Bootloader.cls) (looksAt c!"bootloader") :=
  plain_local fun args => F17_Bootloader.parse_local _ args

theorem local_F21_ClearPart : Command.Local (F21_ClearPart.cls) (looksAt c!"clearpart") :=
  plain_local fun args => F17_ClearPart.parse_local _ args

theorem local_F21_LogVol_F21_LogVolData : Command.Local (F21_LogVol.cls F21_LogVolData.cls) (looksAt c!"logvol") :=
  list_local fun args => F21_LogVol.parse_local _ args

theorem local_F21_Network_F21_NetworkData : Command.Local (F21_Network.cls F21_NetworkData.cls) (looksAt c!"network") :=
  list_local fun args => FC3_Network.parse_local _ args

theorem local_F21_OSTreeSetup : Command.Local (F21_OSTreeSetup.cls) (looksAt c!"ostreesetup") :=
  plain_local fun args => F21_OSTreeSetup.parse_local _ args

theorem local_F21_Repo_F21_RepoData : Command.Local (F21_Repo.cls F21_RepoData.cls) (looksAt c!"repo") :=
  list_local fun args => FC6_Repo.parse_local _ args

theorem local_F21_VolGroup_F21_VolGroupData : Command.Local (F21_VolGroup.cls F21_VolGroupData.cls) (looksAt c!"volgroup") :=
  list_local fun args => F16_VolGroup.parse_local _ args

theorem local_F22_Network_F22_NetworkData : Command.Local (F22_Network.cls F22_NetworkData.cls) (looksAt c!"network") :=
  list_local fun args => F22_Network.parse_local _ args

theorem local_F22_SshKey_F22_SshKeyData : Command.Local (F22_SshKey.cls F22_SshKeyData.cls) (looksAt c!"sshkey") :=
  list_local fun args => F22_SshKey.parse_local _ args

theorem local_F23_AutoPart : Command.Local (F23_AutoPart.cls) (looksAt c!"autopart") :=
  plain_local fun args => F23_AutoPart.parse_local _ args

theorem local_F23_BTRFS_F23_BTRFSData : Command.Local (F23_BTRFS.cls F23_BTRFSData.cls) (looksAt c!"btrfs") :=
  list_local fun args => F23_BTRFS.parse_local _ args

theorem local_F23_Reboot : Command.Local (F23_Reboot.cls) (looksAt c!"reboot") :=
  plain_local fun args => F18_Reboot.parse_local _ args

theorem local_F23_LogVol_F23_LogVolData : Command.Local (F23_LogVol.cls F23_LogVolData.cls) (looksAt c!"logvol") :=
  list_local fun args => F23_LogVol.parse_local _ args

theorem local_F23_Partition_F23_PartData : Command.Local (F23_Partition.cls F23_PartData.cls) (looksAt c!"partition") :=
  list_local fun args => F23_Partition.parse_local _ args

theorem local_F23_Raid_F23_RaidData : Command.Local (F23_Raid.cls F23_RaidData.cls) (looksAt c!"raid") :=
  list_local fun args => F23_Raid.parse_local _ args

theorem local_F23_ReqPart : Command.Local (F23_ReqPart.cls) (looksAt c!"reqpart") :=
  plain_local fun args => F23_ReqPart.parse_local _ args

theorem local_F23_Timezone : Command.Local (F23_Timezone.cls) (looksAt c!"timezone") :=
  plain_local fun args => F23_Timezone.parse_local _ args

theorem local_F24_Device : Command.Local (F24_Device.cls) (looksAt c!"device") :=
  deprecated_local

theorem local_F24_DmRaid : Command.Local (F24_DmRaid.cls) (looksAt c!"dmraid") :=
  deprecated_local

theorem local_F24_MultiPath : Command.Local (F24_MultiPath.cls) (looksAt c!"multipath") :=
  deprecated_local

theorem local_F24_Network_F22_NetworkData : Command.Local (F24_Network.cls F22_NetworkData.cls) (looksAt c!"network") :=
  list_local fun args => F24_Network.parse_local _ args

theorem local_F24_SshPw_F24_SshPwData : Command.Local (F24_SshPw.cls F24_SshPwData.cls) (looksAt c!"sshpw") :=
  list_local fun args => F13_SshPw.parse_local _ args

theorem local_F24_User_F19_UserData : Command.Local (F24_User.cls F19_UserData.cls) (looksAt c!"user") :=
  list_local fun args => FC6_User.parse_local _ args

theorem local_F25_Network_F25_NetworkData : Command.Local (F25_Network.cls F25_NetworkData.cls) (looksAt c!"network") :=
  list_local fun args => F24_Network.parse_local _ args

theorem local_F25_Raid_F25_RaidData : Command.Local (F25_Raid.cls F25_RaidData.cls) (looksAt c!"raid") :=
  list_local fun args => F23_Raid.parse_local _ args

theorem local_F25_Timezone : Command.Local (F25_Timezone.cls) (looksAt c!"timezone") :=
  plain_local fun args => F25_Timezone.parse_local _ args

theorem local_F26_AutoPart : Command.Local (F26_AutoPart.cls) (looksAt c!"autopart") :=
  plain_local fun args => F23_AutoPart.parse_local _ args

theorem local_F26_DisplayMode : Command.Local (F26_DisplayMode.cls) (looksAt c!"displaymode") :=
  plain_local fun args => F26_DisplayMode.parse_local _ args

theorem local_F26_Snapshot_F26_SnapshotData : Command.Local (F26_Snapshot.cls F26_SnapshotData.cls) (looksAt c!"snapshot") :=
  list_local fun args => F26_Snapshot.parse_local _ args

theorem local_F27_Mount_F27_MountData : Command.Local (F27_Mount.cls F27_MountData.cls) (looksAt c!"mount") :=
  list_local fun args => F27_Mount.parse_local _ args

theorem local_F27_Network_F27_NetworkData : Command.Local (F27_Network.cls F27_NetworkData.cls) (looksAt c!"network") :=
  list_local fun args => F27_Network.parse_local _ args

theorem local_F27_Repo_F27_RepoData : Command.Local (F27_Repo.cls F27_RepoData.cls) (looksAt c!"repo") :=
  list_local fun args => FC6_Repo.parse_local _ args

theorem local_F27_Url : Command.Local (F27_Url.cls) (looksAt c!"url") :=
  plain_local fun args => F18_Url.parse_local _ args

theorem local_F28_Authconfig : Command.Local (F28_Authconfig.cls) (looksAt c!"authconfig") :=
  plain_local fun args => F28_Authconfig.parse_local _ args

theorem local_F28_Authselect : Command.Local (F28_Authselect.cls) (looksAt c!"authselect") :=
  plain_local fun args => F28_Authselect.parse_local _ args

theorem local_F28_ClearPart : Command.Local (F28_ClearPart.cls) (looksAt c!"clearpart") :=
  plain_local fun args => F17_ClearPart.parse_local _ args

theorem local_F28_Fcoe_F28_FcoeData : Command.Local (F28_Fcoe.cls F28_FcoeData.cls) (looksAt c!"fcoe") :=
  list_local fun args => F12_Fcoe.parse_local _ args

theorem local_F28_Firewall : Command.Local (F28_Firewall.cls) (looksAt c!"firewall") :=
  plain_local fun args => FC3_Firewall.parse_local _ args

theorem local_F28_Hmc : Command.Local (F28_Hmc.cls) (looksAt c!"hmc") :=
  plain_local fun args => RHEL7_Hmc.parse_local _ args

theorem local_F28_Method : Command.Local (F28_Method.cls) (looksAt c!"method") :=
  plain_local fun _ => local_throw

theorem local_F28_Nvdimm_F28_NvdimmData : Command.Local (F28_Nvdimm.cls F28_NvdimmData.cls) (looksAt c!"nvdimm") :=
  list_local fun args => F28_Nvdimm.parse_local _ args

theorem local_F29_AutoPart : Command.Local (F29_AutoPart.cls) (looksAt c!"autopart") :=
  plain_local fun args => F29_AutoPart.parse_local _ args

theorem local_F29_Bootloader : Command.Local (F29_Bootloader.cls) (looksAt c!"bootloader") :=
  plain_local fun args => F17_Bootloader.parse_local _ args

theorem local_F29_DeviceProbe : Command.Local (F29_DeviceProbe.cls) (looksAt c!"deviceprobe") :=
  deprecated_local

theorem local_F29_Module_F29_ModuleData : Command.Local (F29_Module.cls F29_ModuleData.cls) (looksAt c!"module") :=
  list_local fun args => F29_Module.parse_local _ args

theorem local_F29_IgnoreDisk : Command.Local (F29_IgnoreDisk.cls) (looksAt c!"ignoredisk") :=
  plain_local fun args => F29_IgnoreDisk.parse_local _ args

theorem local_F29_Install : Command.Local (F29_Install.cls) (looksAt c!"install") :=
  deprecated_local

theorem local_F29_LogVol_F29_LogVolData : Command.Local (F29_LogVol.cls F29_LogVolData.cls) (looksAt c!"logvol") :=
  list_local fun args => F29_LogVol.parse_local _ args

theorem local_F29_Partition_F29_PartData : Command.Local (F29_Partition.cls F29_PartData.cls) (looksAt c!"partition") :=
  list_local fun args => F29_Partition.parse_local _ args

theorem local_F29_Raid_F29_RaidData : Command.Local (F29_Raid.cls F29_RaidData.cls) (looksAt c!"raid") :=
  list_local fun args => F29_Raid.parse_local _ args

theorem local_F29_Upgrade : Command.Local (F29_Upgrade.cls) (looksAt c!"upgrade") :=
  removed_local

theorem local_F30_Repo_F30_RepoData : Command.Local (F30_Repo.cls F30_RepoData.cls) (looksAt c!"repo") :=
  list_local fun args => FC6_Repo.parse_local _ args

theorem local_F30_Url : Command.Local (F30_Url.cls) (looksAt c!"url") :=
  plain_local fun args => F18_Url.parse_local _ args

theorem local_F31_Module_F31_ModuleData : Command.Local (F31_Module.cls F31_ModuleData.cls) (looksAt c!"module") :=
  list_local fun args => F29_Module.parse_local _ args

theorem local_F32_Timezone : Command.Local (F32_Timezone.cls) (looksAt c!"timezone") :=
  plain_local fun args => F32_Timezone.parse_local _ args

theorem local_F32_Zipl : Command.Local (F32_Zipl.cls) (looksAt c!"zipl") :=
  plain_local fun args => F32_Zipl.parse_local _ args

theorem local_F33_HardDrive : Command.Local (F33_HardDrive.cls) (looksAt c!"harddrive") :=
  plain_local fun args => F33_HardDrive.parse_local _ args

theorem local_F33_Timesource_F33_TimesourceData : Command.Local (F33_Timesource.cls F33_TimesourceData.cls) (looksAt c!"timesource") :=
  list_local fun args => F33_Timesource.parse_local _ args

theorem local_F33_Repo_F30_RepoData : Command.Local (F33_Repo.cls F30_RepoData.cls) (looksAt c!"repo") :=
  list_local fun args => FC6_Repo.parse_local _ args

theorem local_F33_Timezone : Command.Local (F33_Timezone.cls) (looksAt c!"timezone") :=
  plain_local fun args => F33_Timezone.parse_local _ args

theorem local_F34_AutoStep : Command.Local (F34_AutoStep.cls) (looksAt c!"autostep") :=
  deprecated_local

theorem local_F34_Bootloader : Command.Local (F34_Bootloader.cls) (looksAt c!"bootloader") :=
  plain_local fun args => F17_Bootloader.parse_local _ args

theorem local_F34_Device : Command.Local (F34_Device.cls) (looksAt c!"device") :=
  removed_local

theorem local_F34_DeviceProbe : Command.Local (F34_DeviceProbe.cls) (looksAt c!"deviceprobe") :=
  removed_local

theorem local_F34_DmRaid : Command.Local (F34_DmRaid.cls) (looksAt c!"dmraid") :=
  removed_local

theorem local_F34_IgnoreDisk : Command.Local (F34_IgnoreDisk.cls) (looksAt c!"ignoredisk") :=
  plain_local fun args => F29_IgnoreDisk.parse_local _ args

theorem local_F34_Install : Command.Local (F34_Install.cls) (looksAt c!"install") :=
  removed_local

theorem local_F34_Logging : Command.Local (F34_Logging.cls) (looksAt c!"logging") :=
  plain_local fun args => FC6_Logging.parse_local _ args

theorem local_F34_Method : Command.Local (F34_Method.cls) (looksAt c!"method") :=
  deprecated_local

theorem local_F34_MultiPath : Command.Local (F34_MultiPath.cls) (looksAt c!"multipath") :=
  removed_local

theorem local_F34_Partition_F29_PartData : Command.Local (F34_Partition.cls F29_PartData.cls) (looksAt c!"partition") :=
  list_local fun args => F29_Partition.parse_local _ args

theorem local_F34_Updates : Command.Local (F34_Updates.cls) (looksAt c!"updates") :=
  plain_local fun args => F34_Updates.parse_local _ args

theorem local_FC3_AutoPart : Command.Local (FC3_AutoPart.cls) (looksAt c!"autopart") :=
  plain_local fun args => FC3_AutoPart.parse_local _ args

theorem local_FC4_Bootloader : Command.Local (FC4_Bootloader.cls) (looksAt c!"bootloader") :=
  plain_local fun args => FC4_Bootloader.parse_local _ args

theorem local_FC3_Device : Command.Local (FC3_Device.cls) (looksAt c!"device") :=
  plain_local fun args => FC3_Device.parse_local _ args

theorem local_FC3_Firewall : Command.Local (FC3_Firewall.cls) (looksAt c!"firewall") :=
  plain_local fun args => FC3_Firewall.parse_local _ args

theorem local_FC3_IgnoreDisk : Command.Local (FC3_IgnoreDisk.cls) (looksAt c!"ignoredisk") :=
  plain_local fun args => FC3_IgnoreDisk.parse_local _ args

theorem local_FC6_Iscsi_FC6_IscsiData : Command.Local (FC6_Iscsi.cls FC6_IscsiData.cls) (looksAt c!"iscsi") :=
  list_local fun args => FC6_Iscsi.parse_local _ args

theorem local_F7_LangSupport : Command.Local (F7_LangSupport.cls) (looksAt c!"langsupport") :=
  removed_local

theorem local_FC4_LogVol_FC4_LogVolData : Command.Local (FC4_LogVol.cls FC4_LogVolData.cls) (looksAt c!"logvol") :=
  list_local fun args => FC3_LogVol.parse_local _ args

theorem local_FC6_Monitor : Command.Local (FC6_Monitor.cls) (looksAt c!"monitor") :=
  plain_local fun args => FC3_Monitor.parse_local _ args

theorem local_F7_Mouse : Command.Local (F7_Mouse.cls) (looksAt c!"mouse") :=
  removed_local

theorem local_FC6_Network_FC6_NetworkData : Command.Local (FC6_Network.cls FC6_NetworkData.cls) (looksAt c!"network") :=
  list_local fun args => FC3_Network.parse_local _ args

theorem local_FC4_Partition_FC4_PartData : Command.Local (FC4_Partition.cls FC4_PartData.cls) (looksAt c!"partition") :=
  list_local fun args => FC3_Partition.parse_local _ args

theorem local_F7_Raid_F7_RaidData : Command.Local (F7_Raid.cls F7_RaidData.cls) (looksAt c!"raid") :=
  list_local fun args => FC3_Raid.parse_local _ args

theorem local_FC6_Repo_FC6_RepoData : Command.Local (FC6_Repo.cls FC6_RepoData.cls) (looksAt c!"repo") :=
  list_local fun args => FC6_Repo.parse_local _ args

theorem local_FC3_RootPw : Command.Local (FC3_RootPw.cls) (looksAt c!"rootpw") :=
  plain_local fun args => FC3_RootPw.parse_local _ args

theorem local_FC6_User_FC6_UserData : Command.Local (FC6_User.cls FC6_UserData.cls) (looksAt c!"user") :=
  list_local fun args => FC6_User.parse_local _ args

theorem local_FC6_Vnc : Command.Local (FC6_Vnc.cls) (looksAt c!"vnc") :=
  plain_local fun args => FC6_Vnc.parse_local _ args

theorem local_FC6_XConfig : Command.Local (FC6_XConfig.cls) (looksAt c!"xconfig") :=
  plain_local fun args => FC3_XConfig.parse_local _ args

theorem local_FC3_ZeroMbr : Command.Local (FC3_ZeroMbr.cls) (looksAt c!"zerombr") :=
  plain_local fun args => FC3_ZeroMbr.parse_local _ args

theorem local_F8_Network_F8_NetworkData : Command.Local (F8_Network.cls F8_NetworkData.cls) (looksAt c!"network") :=
  list_local fun args => FC3_Network.parse_local _ args

theorem local_F9_Firewall : Command.Local (F9_Firewall.cls) (looksAt c!"firewall") :=
  plain_local fun args => FC3_Firewall.parse_local _ args

theorem local_F9_XConfig : Command.Local (F9_XConfig.cls) (looksAt c!"xconfig") :=
  plain_local fun args => FC3_XConfig.parse_local _ args

theorem local_FC3_Bootloader : Command.Local (FC3_Bootloader.cls) (looksAt c!"bootloader") :=
  plain_local fun args => FC3_Bootloader.parse_local _ args

theorem local_FC3_DriverDisk_FC3_DriverDiskData : Command.Local (FC3_DriverDisk.cls FC3_DriverDiskData.cls) (looksAt c!"driverdisk") :=
  list_local fun args => FC3_DriverDisk.parse_local _ args

theorem local_FC3_Reboot : Command.Local (FC3_Reboot.cls) (looksAt c!"reboot") :=
  plain_local fun args => FC3_Reboot.parse_local _ args

theorem local_FC3_LangSupport : Command.Local (FC3_LangSupport.cls) (looksAt c!"langsupport") :=
  plain_local fun args => FC3_LangSupport.parse_local _ args

theorem local_FC3_Lilo : Command.Local (FC3_Lilo.cls) (looksAt c!"lilo") :=
  plain_local fun args => FC3_Bootloader.parse_local _ args

theorem local_FC3_LiloCheck : Command.Local (FC3_LiloCheck.cls) (looksAt c!"lilocheck") :=
  plain_local fun args => FC3_LiloCheck.parse_local _ args

theorem local_FC3_LogVol_FC3_LogVolData : Command.Local (FC3_LogVol.cls FC3_LogVolData.cls) (looksAt c!"logvol") :=
  list_local fun args => FC3_LogVol.parse_local _ args

theorem local_FC3_Method : Command.Local (FC3_Method.cls) (looksAt c!"method") :=
  plain_local fun _ => local_throw

theorem local_FC3_Monitor : Command.Local (FC3_Monitor.cls) (looksAt c!"monitor") :=
  plain_local fun args => FC3_Monitor.parse_local _ args

theorem local_FC3_Mouse : Command.Local (FC3_Mouse.cls) (looksAt c!"mouse") :=
  deprecated_local

theorem local_FC3_Network_FC3_NetworkData : Command.Local (FC3_Network.cls FC3_NetworkData.cls) (looksAt c!"network") :=
  list_local fun args => FC3_Network.parse_local _ args

theorem local_FC3_NFS : Command.Local (FC3_NFS.cls) (looksAt c!"nfs") :=
  plain_local fun args => FC3_NFS.parse_local _ args

theorem local_FC3_Partition_FC3_PartData : Command.Local (FC3_Partition.cls FC3_PartData.cls) (looksAt c!"partition") :=
  list_local fun args => FC3_Partition.parse_local _ args

theorem local_FC3_Raid_FC3_RaidData : Command.Local (FC3_Raid.cls FC3_RaidData.cls) (looksAt c!"raid") :=
  list_local fun args => FC3_Raid.parse_local _ args

theorem local_FC3_Timezone : Command.Local (FC3_Timezone.cls) (looksAt c!"timezone") :=
  plain_local fun args => FC3_Timezone.parse_local _ args

theorem local_FC3_Vnc : Command.Local (FC3_Vnc.cls) (looksAt c!"vnc") :=
  plain_local fun args => FC3_Vnc.parse_local _ args

theorem local_FC3_XConfig : Command.Local (FC3_XConfig.cls) (looksAt c!"xconfig") :=
  plain_local fun args => FC3_XConfig.parse_local _ args

theorem local_FC4_Lilo : Command.Local (FC4_Lilo.cls) (looksAt c!"lilo") :=
  removed_local

theorem local_FC4_LiloCheck : Command.Local (FC4_LiloCheck.cls) (looksAt c!"lilocheck") :=
  removed_local

theorem local_FC4_Network_FC4_NetworkData : Command.Local (FC4_Network.cls FC4_NetworkData.cls) (looksAt c!"network") :=
  list_local fun args => FC3_Network.parse_local _ args

theorem local_FC4_Raid_FC4_RaidData : Command.Local (FC4_Raid.cls FC4_RaidData.cls) (looksAt c!"raid") :=
  list_local fun args => FC3_Raid.parse_local _ args

theorem local_FC5_LangSupport : Command.Local (FC5_LangSupport.cls) (looksAt c!"langsupport") :=
  deprecated_local

theorem local_FC5_Raid_FC5_RaidData : Command.Local (FC5_Raid.cls FC5_RaidData.cls) (looksAt c!"raid") :=
  list_local fun args => FC3_Raid.parse_local _ args

theorem local_RHEL3_Mouse : Command.Local (RHEL3_Mouse.cls) (looksAt c!"mouse") :=
  plain_local fun args => RHEL3_Mouse.parse_local _ args

theorem local_FC3_Network_RHEL4_NetworkData : Command.Local (FC3_Network.cls RHEL4_NetworkData.cls) (looksAt c!"network") :=
  list_local fun args => FC3_Network.parse_local _ args

theorem local_RHEL4_Network_RHEL4_NetworkData : Command.Local (RHEL4_Network.cls RHEL4_NetworkData.cls) (looksAt c!"network") :=
  list_local fun args => FC3_Network.parse_local _ args

theorem local_RHEL5_Bootloader : Command.Local (RHEL5_Bootloader.cls) (looksAt c!"bootloader") :=
  plain_local fun args => FC4_Bootloader.parse_local _ args

theorem local_RHEL5_Key : Command.Local (RHEL5_Key.cls) (looksAt c!"key") :=
  plain_local fun args => RHEL5_Key.parse_local _ args

theorem local_RHEL5_LogVol_RHEL5_LogVolData : Command.Local (RHEL5_LogVol.cls RHEL5_LogVolData.cls) (looksAt c!"logvol") :=
  list_local fun args => FC3_LogVol.parse_local _ args

theorem local_RHEL5_Network_FC6_NetworkData : Command.Local (RHEL5_Network.cls FC6_NetworkData.cls) (looksAt c!"network") :=
  list_local fun args => FC3_Network.parse_local _ args

theorem local_RHEL5_Partition_RHEL5_PartData : Command.Local (RHEL5_Partition.cls RHEL5_PartData.cls) (looksAt c!"partition") :=
  list_local fun args => FC3_Partition.parse_local _ args

theorem local_RHEL5_Raid_RHEL5_RaidData : Command.Local (RHEL5_Raid.cls RHEL5_RaidData.cls) (looksAt c!"raid") :=
  list_local fun args => FC3_Raid.parse_local _ args

theorem local_RHEL6_AutoPart : Command.Local (RHEL6_AutoPart.cls) (looksAt c!"autopart") :=
  plain_local fun args => RHEL6_AutoPart.parse_local _ args

theorem local_RHEL6_Bootloader : Command.Local (RHEL6_Bootloader.cls) (looksAt c!"bootloader") :=
  plain_local fun args => RHEL6_Bootloader.parse_local _ args

theorem local_RHEL6_IgnoreDisk : Command.Local (RHEL6_IgnoreDisk.cls) (looksAt c!"ignoredisk") :=
  plain_local fun args => RHEL6_IgnoreDisk.parse_local _ args

theorem local_RHEL6_Iscsi_RHEL6_IscsiData : Command.Local (RHEL6_Iscsi.cls RHEL6_IscsiData.cls) (looksAt c!"iscsi") :=
  list_local fun args => FC6_Iscsi.parse_local _ args

theorem local_RHEL6_LogVol_RHEL6_LogVolData : Command.Local (RHEL6_LogVol.cls RHEL6_LogVolData.cls) (looksAt c!"logvol") :=
  list_local fun args => RHEL6_LogVol.parse_local _ args

theorem local_RHEL6_Method : Command.Local (RHEL6_Method.cls) (looksAt c!"method") :=
  plain_local fun _ => local_throw

theorem local_RHEL6_Network_RHEL6_NetworkData : Command.Local (RHEL6_Network.cls RHEL6_NetworkData.cls) (looksAt c!"network") :=
  list_local fun args => FC3_Network.parse_local _ args

theorem local_RHEL6_Partition_RHEL6_PartData : Command.Local (RHEL6_Partition.cls RHEL6_PartData.cls) (looksAt c!"partition") :=
  list_local fun args => RHEL6_Partition.parse_local _ args

theorem local_RHEL6_Raid_RHEL6_RaidData : Command.Local (RHEL6_Raid.cls RHEL6_RaidData.cls) (looksAt c!"raid") :=
  list_local fun args => RHEL6_Raid.parse_local _ args

theorem local_RHEL6_Repo_RHEL6_RepoData : Command.Local (RHEL6_Repo.cls RHEL6_RepoData.cls) (looksAt c!"repo") :=
  list_local fun args => FC6_Repo.parse_local _ args

theorem local_RHEL6_UnsupportedHardware : Command.Local (RHEL6_UnsupportedHardware.cls) (looksAt c!"unsupportedhardware") :=
  plain_local fun args => RHEL6_UnsupportedHardware.parse_local _ args

theorem local_RHEL6_Url : Command.Local (RHEL6_Url.cls) (looksAt c!"url") :=
  plain_local fun args => FC3_Url.parse_local _ args

theorem local_RHEL7_AutoPart : Command.Local (RHEL7_AutoPart.cls) (looksAt c!"autopart") :=
  plain_local fun args => RHEL7_AutoPart.parse_local _ args

theorem local_RHEL7_Bootloader : Command.Local (RHEL7_Bootloader.cls) (looksAt c!"bootloader") :=
  plain_local fun args => F17_Bootloader.parse_local _ args

theorem local_RHEL7_BTRFS_RHEL7_BTRFSData : Command.Local (RHEL7_BTRFS.cls RHEL7_BTRFSData.cls) (looksAt c!"btrfs") :=
  list_local fun args => F23_BTRFS.parse_local _ args

theorem local_RHEL7_ClearPart : Command.Local (RHEL7_ClearPart.cls) (looksAt c!"clearpart") :=
  plain_local fun args => F17_ClearPart.parse_local _ args

theorem local_RHEL7_Fcoe_RHEL7_FcoeData : Command.Local (RHEL7_Fcoe.cls RHEL7_FcoeData.cls) (looksAt c!"fcoe") :=
  list_local fun args => F12_Fcoe.parse_local _ args

theorem local_RHEL7_Hmc : Command.Local (RHEL7_Hmc.cls) (looksAt c!"hmc") :=
  plain_local fun args => RHEL7_Hmc.parse_local _ args

theorem local_RHEL7_LogVol_RHEL7_LogVolData : Command.Local (RHEL7_LogVol.cls RHEL7_LogVolData.cls) (looksAt c!"logvol") :=
  list_local fun args => RHEL7_LogVol.parse_local _ args

theorem local_RHEL7_Method : Command.Local (RHEL7_Method.cls) (looksAt c!"method") :=
  plain_local fun _ => local_throw

theorem local_RHEL7_Network_RHEL7_NetworkData : Command.Local (RHEL7_Network.cls RHEL7_NetworkData.cls) (looksAt c!"network") :=
  list_local fun args => RHEL7_Network.parse_local _ args

theorem local_RHEL7_OSTreeSetup : Command.Local (RHEL7_OSTreeSetup.cls) (looksAt c!"ostreesetup") :=
  plain_local fun args => F21_OSTreeSetup.parse_local _ args

theorem local_RHEL7_Partition_RHEL7_PartData : Command.Local (RHEL7_Partition.cls RHEL7_PartData.cls) (looksAt c!"partition") :=
  list_local fun args => F23_Partition.parse_local _ args

theorem local_RHEL7_Raid_RHEL7_RaidData : Command.Local (RHEL7_Raid.cls RHEL7_RaidData.cls) (looksAt c!"raid") :=
  list_local fun args => F23_Raid.parse_local _ args

theorem local_RHEL7_Repo_RHEL7_RepoData : Command.Local (RHEL7_Repo.cls RHEL7_RepoData.cls) (looksAt c!"repo") :=
  list_local fun args => FC6_Repo.parse_local _ args

theorem local_RHEL7_ReqPart : Command.Local (RHEL7_ReqPart.cls) (looksAt c!"reqpart") :=
  plain_local fun args => F23_ReqPart.parse_local _ args

theorem local_RHEL7_Timezone : Command.Local (RHEL7_Timezone.cls) (looksAt c!"timezone") :=
  plain_local fun args => RHEL7_Timezone.parse_local _ args

theorem local_RHEL7_VolGroup_RHEL7_VolGroupData : Command.Local (RHEL7_VolGroup.cls RHEL7_VolGroupData.cls) (looksAt c!"volgroup") :=
  list_local fun args => F16_VolGroup.parse_local _ args

theorem local_RHEL8_AutoPart : Command.Local (RHEL8_AutoPart.cls) (looksAt c!"autopart") :=
  plain_local fun args => RHEL8_AutoPart.parse_local _ args

theorem local_RHEL8_Bootloader : Command.Local (RHEL8_Bootloader.cls) (looksAt c!"bootloader") :=
  plain_local fun args => F17_Bootloader.parse_local _ args

theorem local_RHEL8_BTRFS : Command.Local (RHEL8_BTRFS.cls) (looksAt c!"btrfs") :=
  deprecated_local

theorem local_RHEL8_Module_RHEL8_ModuleData : Command.Local (RHEL8_Module.cls RHEL8_ModuleData.cls) (looksAt c!"module") :=
  list_local fun args => F29_Module.parse_local _ args

theorem local_RHEL8_Fcoe_RHEL8_FcoeData : Command.Local (RHEL8_Fcoe.cls RHEL8_FcoeData.cls) (looksAt c!"fcoe") :=
  list_local fun args => F12_Fcoe.parse_local _ args

theorem local_RHEL8_LogVol_RHEL8_LogVolData : Command.Local (RHEL8_LogVol.cls RHEL8_LogVolData.cls) (looksAt c!"logvol") :=
  list_local fun args => RHEL8_LogVol.parse_local _ args

theorem local_RHEL8_OSTreeSetup : Command.Local (RHEL8_OSTreeSetup.cls) (looksAt c!"ostreesetup") :=
  plain_local fun args => F21_OSTreeSetup.parse_local _ args

theorem local_RHEL8_Partition_RHEL8_PartData : Command.Local (RHEL8_Partition.cls RHEL8_PartData.cls) (looksAt c!"partition") :=
  list_local fun args => RHEL8_Partition.parse_local _ args

theorem local_RHEL8_Raid_RHEL8_RaidData : Command.Local (RHEL8_Raid.cls RHEL8_RaidData.cls) (looksAt c!"raid") :=
  list_local fun args => RHEL8_Raid.parse_local _ args

theorem local_RHEL8_Repo_RHEL8_RepoData : Command.Local (RHEL8_Repo.cls RHEL8_RepoData.cls) (looksAt c!"repo") :=
  list_local fun args => FC6_Repo.parse_local _ args

theorem local_RHEL8_RHSM : Command.Local (RHEL8_RHSM.cls) (looksAt c!"rhsm") :=
  plain_local fun args => RHEL8_RHSM.parse_local _ args

theorem local_RHEL8_Syspurpose : Command.Local (RHEL8_Syspurpose.cls) (looksAt c!"syspurpose") :=
  plain_local fun args => RHEL8_Syspurpose.parse_local _ args

theorem local_RHEL8_Url : Command.Local (RHEL8_Url.cls) (looksAt c!"url") :=
  plain_local fun args => F18_Url.parse_local _ args

theorem local_RHEL8_VolGroup_RHEL8_VolGroupData : Command.Local (RHEL8_VolGroup.cls RHEL8_VolGroupData.cls) (looksAt c!"volgroup") :=
  list_local fun args => F16_VolGroup.parse_local _ args

theorem local_RHEL8_Zipl : Command.Local (RHEL8_Zipl.cls) (looksAt c!"zipl") :=
  plain_local fun args => F32_Zipl.parse_local _ args

theorem commandMapF10_local : ∀ x ∈ commandMapF10, ∃ a, attrName x.2.name = a ∧ Command.Local x.2 (looksAt a) := by
  unfold commandMapF10
  exact (local_cons ⟨_, by decide +kernel, local_FC3_Authconfig⟩
    (local_cons ⟨_, by decide +kernel, local_FC3_Authconfig⟩
    (local_cons ⟨_, by decide +kernel, local_F9_AutoPart⟩
    (local_cons ⟨_, by decide +kernel, local_FC3_AutoStep⟩
    (local_cons ⟨_, by decide +kernel, local_F8_Bootloader⟩
    (local_cons ⟨_, by decide +kernel, local_FC3_Cdrom⟩
    (local_cons ⟨_, by decide +kernel, local_FC3_ClearPart⟩
    (local_cons ⟨_, by decide +kernel, local_FC3_DisplayMode⟩
    (local_cons ⟨_, by decide +kernel, local_F8_Device_F8_DeviceData⟩
    (local_cons ⟨_, by decide +kernel, local_FC3_DeviceProbe⟩
    (local_cons ⟨_, by decide +kernel, local_FC6_DmRaid_FC6_DmRaidData⟩
    (local_cons ⟨_, by decide +kernel, local_FC4_DriverDisk_FC4_DriverDiskData⟩
    (local_cons ⟨_, by decide +kernel, local_F10_Firewall⟩
    (local_cons ⟨_, by decide +kernel, local_FC3_Firstboot⟩
    (local_cons ⟨_, by decide +kernel, local_FC3_DisplayMode⟩
    (local_cons ⟨_, by decide +kernel, local_FC6_Reboot⟩
    (local_cons ⟨_, by decide +kernel, local_FC3_HardDrive⟩
    (local_cons ⟨_, by decide +kernel, local_F8_IgnoreDisk⟩
    (local_cons ⟨_, by decide +kernel, local_FC3_Upgrade⟩
    (local_cons ⟨_, by decide +kernel, local_FC3_Interactive⟩
    (local_cons ⟨_, by decide +kernel, local_F10_Iscsi_F10_IscsiData⟩
    (local_cons ⟨_, by decide +kernel, local_FC6_IscsiName⟩
    (local_cons ⟨_, by decide +kernel, local_FC3_Keyboard⟩
    (local_cons ⟨_, by decide +kernel, local_FC3_Lang⟩
    (local_cons ⟨_, by decide +kernel, local_FC6_Logging⟩
    (local_cons ⟨_, by decide +kernel, local_F9_LogVol_F9_LogVolData⟩
    (local_cons ⟨_, by decide +kernel, local_FC4_MediaCheck⟩
    (local_cons ⟨_, by decide +kernel, local_FC6_Method⟩
    (local_cons ⟨_, by decide +kernel, local_F10_Monitor⟩
    (local_cons ⟨_, by decide +kernel, local_FC6_MultiPath_FC6_MultiPathData⟩
    (local_cons ⟨_, by decide +kernel, local_F9_Network_F8_NetworkData⟩
    (local_cons ⟨_, by decide +kernel, local_FC6_NFS⟩
    (local_cons ⟨_, by decide +kernel, local_F9_Partition_F9_PartData⟩
    (local_cons ⟨_, by decide +kernel, local_F9_Partition_F9_PartData⟩
    (local_cons ⟨_, by decide +kernel, local_FC6_Reboot⟩
    (local_cons ⟨_, by decide +kernel, local_F9_Raid_F9_RaidData⟩
    (local_cons ⟨_, by decide +kernel, local_FC6_Reboot⟩
    (local_cons ⟨_, by decide +kernel, local_F8_Repo_F8_RepoData⟩
    (local_cons ⟨_, by decide +kernel, local_F10_Rescue⟩
    (local_cons ⟨_, by decide +kernel, local_F8_RootPw⟩
    (local_cons ⟨_, by decide +kernel, local_FC3_SELinux⟩
    (local_cons ⟨_, by decide +kernel, local_FC6_Services⟩
    (local_cons ⟨_, by decide +kernel, local_FC6_Reboot⟩
    (local_cons ⟨_, by decide +kernel, local_FC3_SkipX⟩
    (local_cons ⟨_, by decide +kernel, local_FC3_DisplayMode⟩
    (local_cons ⟨_, by decide +kernel, local_FC6_Timezone⟩
    (local_cons ⟨_, by decide +kernel, local_F7_Updates⟩
    (local_cons ⟨_, by decide +kernel, local_FC3_Upgrade⟩
    (local_cons ⟨_, by decide +kernel, local_FC3_Url⟩
    (local_cons ⟨_, by decide +kernel, local_F8_User_F8_UserData⟩
    (local_cons ⟨_, by decide +kernel, local_F9_Vnc⟩
    (local_cons ⟨_, by decide +kernel, local_FC3_VolGroup_FC3_VolGroupData⟩
    (local_cons ⟨_, by decide +kernel, local_F10_XConfig⟩
    (local_cons ⟨_, by decide +kernel, local_F9_ZeroMbr⟩
    (local_cons ⟨_, by decide +kernel, local_FC3_ZFCP_FC3_ZFCPData⟩ (List.forall_mem_nil _))))))))))))))))))))))))))))))))))))))))))))))))))))))))

theorem commandMapF11_local : ∀ x ∈ commandMapF11, ∃ a, attrName x.2.name = a ∧ Command.Local x.2 (looksAt a) := by
  unfold commandMapF11
  exact (local_cons ⟨_, by decide +kernel, local_FC3_Authconfig⟩
    (local_cons ⟨_, by decide +kernel, local_FC3_Authconfig⟩
    (local_cons ⟨_, by decide +kernel, local_F9_AutoPart⟩
    (local_cons ⟨_, by decide +kernel, local_FC3_AutoStep⟩
    (local_cons ⟨_, by decide +kernel, local_F8_Bootloader⟩
    (local_cons ⟨_, by decide +kernel, local_FC3_Cdrom⟩
    (local_cons ⟨_, by decide +kernel, local_FC3_ClearPart⟩
    (local_cons ⟨_, by decide +kernel, local_FC3_DisplayMode⟩
    (local_cons ⟨_, by decide +kernel, local_F8_Device_F8_DeviceData⟩
    (local_cons ⟨_, by decide +kernel, local_FC3_DeviceProbe⟩
    (local_cons ⟨_, by decide +kernel, local_FC6_DmRaid_FC6_DmRaidData⟩
    (local_cons ⟨_, by decide +kernel, local_FC4_DriverDisk_FC4_DriverDiskData⟩
    (local_cons ⟨_, by decide +kernel, local_F10_Firewall⟩
    (local_cons ⟨_, by decide +kernel, local_FC3_Firstboot⟩
    (local_cons ⟨_, by decide +kernel, local_FC3_DisplayMode⟩
    (local_cons ⟨_, by decide +kernel, local_FC6_Reboot⟩
    (local_cons ⟨_, by decide +kernel, local_FC3_HardDrive⟩
    (local_cons ⟨_, by decide +kernel, local_F8_IgnoreDisk⟩
    (local_cons ⟨_, by decide +kernel, local_F11_Upgrade⟩
    (local_cons ⟨_, by decide +kernel, local_FC3_Interactive⟩
    (local_cons ⟨_, by decide +kernel, local_F10_Iscsi_F10_IscsiData⟩
    (local_cons ⟨_, by decide +kernel, local_FC6_IscsiName⟩
    (local_cons ⟨_, by decide +kernel, local_FC3_Keyboard⟩
    (local_cons ⟨_, by decide +kernel, local_FC3_Lang⟩
    (local_cons ⟨_, by decide +kernel, local_FC6_Logging⟩
    (local_cons ⟨_, by decide +kernel, local_F9_LogVol_F9_LogVolData⟩
    (local_cons ⟨_, by decide +kernel, local_FC4_MediaCheck⟩
    (local_cons ⟨_, by decide +kernel, local_FC6_Method⟩
    (local_cons ⟨_, by decide +kernel, local_F10_Monitor⟩
    (local_cons ⟨_, by decide +kernel, local_FC6_MultiPath_FC6_MultiPathData⟩
    (local_cons ⟨_, by decide +kernel, local_F9_Network_F8_NetworkData⟩
    (local_cons ⟨_, by decide +kernel, local_FC6_NFS⟩
    (local_cons ⟨_, by decide +kernel, local_F11_Partition_F11_PartData⟩
    (local_cons ⟨_, by decide +kernel, local_F11_Partition_F11_PartData⟩
    (local_cons ⟨_, by decide +kernel, local_FC6_Reboot⟩
    (local_cons ⟨_, by decide +kernel, local_F9_Raid_F9_RaidData⟩
    (local_cons ⟨_, by decide +kernel, local_FC6_Reboot⟩
    (local_cons ⟨_, by decide +kernel, local_F11_Repo_F11_RepoData⟩
    (local_cons ⟨_, by decide +kernel, local_F10_Rescue⟩
    (local_cons ⟨_, by decide +kernel, local_F8_RootPw⟩
    (local_cons ⟨_, by decide +kernel, local_FC3_SELinux⟩
    (local_cons ⟨_, by decide +kernel, local_FC6_Services⟩
    (local_cons ⟨_, by decide +kernel, local_FC6_Reboot⟩
    (local_cons ⟨_, by decide +kernel, local_FC3_SkipX⟩
    (local_cons ⟨_, by decide +kernel, local_FC3_DisplayMode⟩
    (local_cons ⟨_, by decide +kernel, local_FC6_Timezone⟩
    (local_cons ⟨_, by decide +kernel, local_F7_Updates⟩
    (local_cons ⟨_, by decide +kernel, local_F11_Upgrade⟩
    (local_cons ⟨_, by decide +kernel, local_FC3_Url⟩
    (local_cons ⟨_, by decide +kernel, local_F8_User_F8_UserData⟩
    (local_cons ⟨_, by decide +kernel, local_F9_Vnc⟩
    (local_cons ⟨_, by decide +kernel, local_FC3_VolGroup_FC3_VolGroupData⟩
    (local_cons ⟨_, by decide +kernel, local_F10_XConfig⟩
    (local_cons ⟨_, by decide +kernel, local_F9_ZeroMbr⟩
    (local_cons ⟨_, by decide +kernel, local_FC3_ZFCP_FC3_ZFCPData⟩ (List.forall_mem_nil _))))))))))))))))))))))))))))))))))))))))))))))))))))))))

theorem commandMapF12_local : ∀ x ∈ commandMapF12, ∃ a, attrName x.2.name = a ∧ Command.Local x.2 (looksAt a) := by
  unfold commandMapF12
  exact (local_cons ⟨_, by decide +kernel, local_FC3_Authconfig⟩
    (local_cons ⟨_, by decide +kernel, local_FC3_Authconfig⟩
    (local_cons ⟨_, by decide +kernel, local_F12_AutoPart⟩
    (local_cons ⟨_, by decide +kernel, local_FC3_AutoStep⟩
    (local_cons ⟨_, by decide +kernel, local_F12_Bootloader⟩
    (local_cons ⟨_, by decide +kernel, local_FC3_Cdrom⟩
    (local_cons ⟨_, by decide +kernel, local_FC3_ClearPart⟩
    (local_cons ⟨_, by decide +kernel, local_FC3_DisplayMode⟩
    (local_cons ⟨_, by decide +kernel, local_F8_Device_F8_DeviceData⟩
    (local_cons ⟨_, by decide +kernel, local_FC3_DeviceProbe⟩
    (local_cons ⟨_, by decide +kernel, local_FC6_DmRaid_FC6_DmRaidData⟩
    (local_cons ⟨_, by decide +kernel, local_F12_DriverDisk_F12_DriverDiskData⟩
    (local_cons ⟨_, by decide +kernel, local_F12_Fcoe_F12_FcoeData⟩
    (local_cons ⟨_, by decide +kernel, local_F10_Firewall⟩
    (local_cons ⟨_, by decide +kernel, local_FC3_Firstboot⟩
    (local_cons ⟨_, by decide +kernel, local_FC3_DisplayMode⟩
    (local_cons ⟨_, by decide +kernel, local_F12_Group_F12_GroupData⟩
    (local_cons ⟨_, by decide +kernel, local_FC6_Reboot⟩
    (local_cons ⟨_, by decide +kernel, local_FC3_HardDrive⟩
    (local_cons ⟨_, by decide +kernel, local_F8_IgnoreDisk⟩
    (local_cons ⟨_, by decide +kernel, local_F11_Upgrade⟩
    (local_cons ⟨_, by decide +kernel, local_FC3_Interactive⟩
    (local_cons ⟨_, by decide +kernel, local_F10_Iscsi_F10_IscsiData⟩
    (local_cons ⟨_, by decide +kernel, local_FC6_IscsiName⟩
    (local_cons ⟨_, by decide +kernel, local_FC3_Keyboard⟩
    (local_cons ⟨_, by decide +kernel, local_FC3_Lang⟩
    (local_cons ⟨_, by decide +kernel, local_FC6_Logging⟩
    (local_cons ⟨_, by decide +kernel, local_F12_LogVol_F12_LogVolData⟩
    (local_cons ⟨_, by decide +kernel, local_FC4_MediaCheck⟩
    (local_cons ⟨_, by decide +kernel, local_FC6_Method⟩
    (local_cons ⟨_, by decide +kernel, local_F10_Monitor⟩
    (local_cons ⟨_, by decide +kernel, local_FC6_MultiPath_FC6_MultiPathData⟩
    (local_cons ⟨_, by decide +kernel, local_F9_Network_F8_NetworkData⟩
    (local_cons ⟨_, by decide +kernel, local_FC6_NFS⟩
    (local_cons ⟨_, by decide +kernel, local_F12_Partition_F12_PartData⟩
    (local_cons ⟨_, by decide +kernel, local_F12_Partition_F12_PartData⟩
    (local_cons ⟨_, by decide +kernel, local_FC6_Reboot⟩
    (local_cons ⟨_, by decide +kernel, local_F12_Raid_F12_RaidData⟩
    (local_cons ⟨_, by decide +kernel, local_FC6_Reboot⟩
    (local_cons ⟨_, by decide +kernel, local_F11_Repo_F11_RepoData⟩
    (local_cons ⟨_, by decide +kernel, local_F10_Rescue⟩
    (local_cons ⟨_, by decide +kernel, local_F8_RootPw⟩
    (local_cons ⟨_, by decide +kernel, local_FC3_SELinux⟩
    (local_cons ⟨_, by decide +kernel, local_FC6_Services⟩
    (local_cons ⟨_, by decide +kernel, local_FC6_Reboot⟩
    (local_cons ⟨_, by decide +kernel, local_FC3_SkipX⟩
    (local_cons ⟨_, by decide +kernel, local_FC3_DisplayMode⟩
    (local_cons ⟨_, by decide +kernel, local_FC6_Timezone⟩
    (local_cons ⟨_, by decide +kernel, local_F7_Updates⟩
    (local_cons ⟨_, by decide +kernel, local_F11_Upgrade⟩
    (local_cons ⟨_, by decide +kernel, local_FC3_Url⟩
    (local_cons ⟨_, by decide +kernel, local_F12_User_F12_UserData⟩
    (local_cons ⟨_, by decide +kernel, local_F9_Vnc⟩
    (local_cons ⟨_, by decide +kernel, local_FC3_VolGroup_FC3_VolGroupData⟩
    (local_cons ⟨_, by decide +kernel, local_F10_XConfig⟩
    (local_cons ⟨_, by decide +kernel, local_F9_ZeroMbr⟩
    (local_cons ⟨_, by decide +kernel, local_F12_ZFCP_F12_ZFCPData⟩ (List.forall_mem_nil _))))))))))))))))))))))))))))))))))))))))))))))))))))))))))

theorem commandMapF13_local : ∀ x ∈ commandMapF13, ∃ a, attrName x.2.name = a ∧ Command.Local x.2 (looksAt a) := by
  unfold commandMapF13
  exact (local_cons ⟨_, by decide +kernel, local_FC3_Authconfig⟩
    (local_cons ⟨_, by decide +kernel, local_FC3_Authconfig⟩
    (local_cons ⟨_, by decide +kernel, local_F12_AutoPart⟩
    (local_cons ⟨_, by decide +kernel, local_FC3_AutoStep⟩
    (local_cons ⟨_, by decide +kernel, local_F12_Bootloader⟩
    (local_cons ⟨_, by decide +kernel, local_FC3_Cdrom⟩
    (local_cons ⟨_, by decide +kernel, local_FC3_ClearPart⟩
    (local_cons ⟨_, by decide +kernel, local_FC3_DisplayMode⟩
    (local_cons ⟨_, by decide +kernel, local_F8_Device_F8_DeviceData⟩
    (local_cons ⟨_, by decide +kernel, local_FC3_DeviceProbe⟩
    (local_cons ⟨_, by decide +kernel, local_FC6_DmRaid_FC6_DmRaidData⟩
    (local_cons ⟨_, by decide +kernel, local_F12_DriverDisk_F12_DriverDiskData⟩
    (local_cons ⟨_, by decide +kernel, local_F13_Fcoe_F13_FcoeData⟩
    (local_cons ⟨_, by decide +kernel, local_F10_Firewall⟩
    (local_cons ⟨_, by decide +kernel, local_FC3_Firstboot⟩
    (local_cons ⟨_, by decide +kernel, local_FC3_DisplayMode⟩
    (local_cons ⟨_, by decide +kernel, local_F12_Group_F12_GroupData⟩
    (local_cons ⟨_, by decide +kernel, local_FC6_Reboot⟩
    (local_cons ⟨_, by decide +kernel, local_FC3_HardDrive⟩
    (local_cons ⟨_, by decide +kernel, local_F8_IgnoreDisk⟩
    (local_cons ⟨_, by decide +kernel, local_F11_Upgrade⟩
    (local_cons ⟨_, by decide +kernel, local_FC3_Interactive⟩
    (local_cons ⟨_, by decide +kernel, local_F10_Iscsi_F10_IscsiData⟩
    (local_cons ⟨_, by decide +kernel, local_FC6_IscsiName⟩
    (local_cons ⟨_, by decide +kernel, local_FC3_Keyboard⟩
    (local_cons ⟨_, by decide +kernel, local_FC3_Lang⟩
    (local_cons ⟨_, by decide +kernel, local_FC6_Logging⟩
    (local_cons ⟨_, by decide +kernel, local_F12_LogVol_F12_LogVolData⟩
    (local_cons ⟨_, by decide +kernel, local_FC4_MediaCheck⟩
    (local_cons ⟨_, by decide +kernel, local_F13_Method⟩
    (local_cons ⟨_, by decide +kernel, local_F10_Monitor⟩
    (local_cons ⟨_, by decide +kernel, local_FC6_MultiPath_FC6_MultiPathData⟩
    (local_cons ⟨_, by decide +kernel, local_F9_Network_F8_NetworkData⟩
    (local_cons ⟨_, by decide +kernel, local_FC6_NFS⟩
    (local_cons ⟨_, by decide +kernel, local_F12_Partition_F12_PartData⟩
    (local_cons ⟨_, by decide +kernel, local_F12_Partition_F12_PartData⟩
    (local_cons ⟨_, by decide +kernel, local_FC6_Reboot⟩
    (local_cons ⟨_, by decide +kernel, local_F13_Raid_F13_RaidData⟩
    (local_cons ⟨_, by decide +kernel, local_FC6_Reboot⟩
    (local_cons ⟨_, by decide +kernel, local_F13_Repo_F13_RepoData⟩
    (local_cons ⟨_, by decide +kernel, local_F10_Rescue⟩
    (local_cons ⟨_, by decide +kernel, local_F8_RootPw⟩
    (local_cons ⟨_, by decide +kernel, local_FC3_SELinux⟩
    (local_cons ⟨_, by decide +kernel, local_FC6_Services⟩
    (local_cons ⟨_, by decide +kernel, local_FC6_Reboot⟩
    (local_cons ⟨_, by decide +kernel, local_FC3_SkipX⟩
    (local_cons ⟨_, by decide +kernel, local_F13_SshPw_F13_SshPwData⟩
    (local_cons ⟨_, by decide +kernel, local_FC3_DisplayMode⟩
    (local_cons ⟨_, by decide +kernel, local_FC6_Timezone⟩
    (local_cons ⟨_, by decide +kernel, local_F7_Updates⟩
    (local_cons ⟨_, by decide +kernel, local_F11_Upgrade⟩
    (local_cons ⟨_, by decide +kernel, local_F13_Url⟩
    (local_cons ⟨_, by decide +kernel, local_F12_User_F12_UserData⟩
    (local_cons ⟨_, by decide +kernel, local_F9_Vnc⟩
    (local_cons ⟨_, by decide +kernel, local_FC3_VolGroup_FC3_VolGroupData⟩
    (local_cons ⟨_, by decide +kernel, local_F10_XConfig⟩
    (local_cons ⟨_, by decide +kernel, local_F9_ZeroMbr⟩
    (local_cons ⟨_, by decide +kernel, local_F12_ZFCP_F12_ZFCPData⟩ (List.forall_mem_nil _)))))))))))))))))))))))))))))))))))))))))))))))))))))))))))

theorem commandMapF14_local : ∀ x ∈ commandMapF14, ∃ a, attrName x.2.name = a ∧ Command.Local x.2 (looksAt a) := by
  unfold commandMapF14
  exact (local_cons ⟨_, by decide +kernel, local_FC3_Authconfig⟩
    (local_cons ⟨_, by decide +kernel, local_FC3_Authconfig⟩
    (local_cons ⟨_, by decide +kernel, local_F12_AutoPart⟩
    (local_cons ⟨_, by decide +kernel, local_FC3_AutoStep⟩
    (local_cons ⟨_, by decide +kernel, local_F14_Bootloader⟩
    (local_cons ⟨_, by decide +kernel, local_FC3_Cdrom⟩
    (local_cons ⟨_, by decide +kernel, local_FC3_ClearPart⟩
    (local_cons ⟨_, by decide +kernel, local_FC3_DisplayMode⟩
    (local_cons ⟨_, by decide +kernel, local_F8_Device_F8_DeviceData⟩
    (local_cons ⟨_, by decide +kernel, local_FC3_DeviceProbe⟩
    (local_cons ⟨_, by decide +kernel, local_FC6_DmRaid_FC6_DmRaidData⟩
    (local_cons ⟨_, by decide +kernel, local_F14_DriverDisk_F14_DriverDiskData⟩
    (local_cons ⟨_, by decide +kernel, local_F13_Fcoe_F13_FcoeData⟩
    (local_cons ⟨_, by decide +kernel, local_F14_Firewall⟩
    (local_cons ⟨_, by decide +kernel, local_FC3_Firstboot⟩
    (local_cons ⟨_, by decide +kernel, local_FC3_DisplayMode⟩
    (local_cons ⟨_, by decide +kernel, local_F12_Group_F12_GroupData⟩
    (local_cons ⟨_, by decide +kernel, local_FC6_Reboot⟩
    (local_cons ⟨_, by decide +kernel, local_FC3_HardDrive⟩
    (local_cons ⟨_, by decide +kernel, local_F14_IgnoreDisk⟩
    (local_cons ⟨_, by decide +kernel, local_F11_Upgrade⟩
    (local_cons ⟨_, by decide +kernel, local_F14_Interactive⟩
    (local_cons ⟨_, by decide +kernel, local_F10_Iscsi_F10_IscsiData⟩
    (local_cons ⟨_, by decide +kernel, local_FC6_IscsiName⟩
    (local_cons ⟨_, by decide +kernel, local_FC3_Keyboard⟩
    (local_cons ⟨_, by decide +kernel, local_FC3_Lang⟩
    (local_cons ⟨_, by decide +kernel, local_FC6_Logging⟩
    (local_cons ⟨_, by decide +kernel, local_F14_LogVol_F14_LogVolData⟩
    (local_cons ⟨_, by decide +kernel, local_FC4_MediaCheck⟩
    (local_cons ⟨_, by decide +kernel, local_F14_Method⟩
    (local_cons ⟨_, by decide +kernel, local_F10_Monitor⟩
    (local_cons ⟨_, by decide +kernel, local_FC6_MultiPath_FC6_MultiPathData⟩
    (local_cons ⟨_, by decide +kernel, local_F9_Network_F8_NetworkData⟩
    (local_cons ⟨_, by decide +kernel, local_FC6_NFS⟩
    (local_cons ⟨_, by decide +kernel, local_F14_Partition_F14_PartData⟩
    (local_cons ⟨_, by decide +kernel, local_F14_Partition_F14_PartData⟩
    (local_cons ⟨_, by decide +kernel, local_FC6_Reboot⟩
    (local_cons ⟨_, by decide +kernel, local_F14_Raid_F14_RaidData⟩
    (local_cons ⟨_, by decide +kernel, local_FC6_Reboot⟩
    (local_cons ⟨_, by decide +kernel, local_F14_Repo_F14_RepoData⟩
    (local_cons ⟨_, by decide +kernel, local_F10_Rescue⟩
    (local_cons ⟨_, by decide +kernel, local_F8_RootPw⟩
    (local_cons ⟨_, by decide +kernel, local_FC3_SELinux⟩
    (local_cons ⟨_, by decide +kernel, local_FC6_Services⟩
    (local_cons ⟨_, by decide +kernel, local_FC6_Reboot⟩
    (local_cons ⟨_, by decide +kernel, local_FC3_SkipX⟩
    (local_cons ⟨_, by decide +kernel, local_F13_SshPw_F13_SshPwData⟩
    (local_cons ⟨_, by decide +kernel, local_FC3_DisplayMode⟩
    (local_cons ⟨_, by decide +kernel, local_FC6_Timezone⟩
    (local_cons ⟨_, by decide +kernel, local_F7_Updates⟩
    (local_cons ⟨_, by decide +kernel, local_F11_Upgrade⟩
    (local_cons ⟨_, by decide +kernel, local_F14_Url⟩
    (local_cons ⟨_, by decide +kernel, local_F12_User_F12_UserData⟩
    (local_cons ⟨_, by decide +kernel, local_F9_Vnc⟩
    (local_cons ⟨_, by decide +kernel, local_FC3_VolGroup_FC3_VolGroupData⟩
    (local_cons ⟨_, by decide +kernel, local_F14_XConfig⟩
    (local_cons ⟨_, by decide +kernel, local_F9_ZeroMbr⟩
    (local_cons ⟨_, by decide +kernel, local_F14_ZFCP_F14_ZFCPData⟩ (List.forall_mem_nil _)))))))))))))))))))))))))))))))))))))))))))))))))))))))))))

theorem commandMapF15_local : ∀ x ∈ commandMapF15, ∃ a, attrName x.2.name = a ∧ Command.Local x.2 (looksAt a) := by
  unfold commandMapF15
  exact (local_cons ⟨_, by decide +kernel, local_FC3_Authconfig⟩
    (local_cons ⟨_, by decide +kernel, local_FC3_Authconfig⟩
    (local_cons ⟨_, by decide +kernel, local_F12_AutoPart⟩
    (local_cons ⟨_, by decide +kernel, local_FC3_AutoStep⟩
    (local_cons ⟨_, by decide +kernel, local_F15_Bootloader⟩
    (local_cons ⟨_, by decide +kernel, local_FC3_Cdrom⟩
    (local_cons ⟨_, by decide +kernel, local_FC3_ClearPart⟩
    (local_cons ⟨_, by decide +kernel, local_FC3_DisplayMode⟩
    (local_cons ⟨_, by decide +kernel, local_F8_Device_F8_DeviceData⟩
    (local_cons ⟨_, by decide +kernel, local_FC3_DeviceProbe⟩
    (local_cons ⟨_, by decide +kernel, local_FC6_DmRaid_FC6_DmRaidData⟩
    (local_cons ⟨_, by decide +kernel, local_F14_DriverDisk_F14_DriverDiskData⟩
    (local_cons ⟨_, by decide +kernel, local_F13_Fcoe_F13_FcoeData⟩
    (local_cons ⟨_, by decide +kernel, local_F14_Firewall⟩
    (local_cons ⟨_, by decide +kernel, local_FC3_Firstboot⟩
    (local_cons ⟨_, by decide +kernel, local_FC3_DisplayMode⟩
    (local_cons ⟨_, by decide +kernel, local_F12_Group_F12_GroupData⟩
    (local_cons ⟨_, by decide +kernel, local_FC6_Reboot⟩
    (local_cons ⟨_, by decide +kernel, local_FC3_HardDrive⟩
    (local_cons ⟨_, by decide +kernel, local_F14_IgnoreDisk⟩
    (local_cons ⟨_, by decide +kernel, local_F11_Upgrade⟩
    (local_cons ⟨_, by decide +kernel, local_F15_Interactive⟩
    (local_cons ⟨_, by decide +kernel, local_F10_Iscsi_F10_IscsiData⟩
    (local_cons ⟨_, by decide +kernel, local_FC6_IscsiName⟩
    (local_cons ⟨_, by decide +kernel, local_FC3_Keyboard⟩
    (local_cons ⟨_, by decide +kernel, local_FC3_Lang⟩
    (local_cons ⟨_, by decide +kernel, local_FC6_Logging⟩
    (local_cons ⟨_, by decide +kernel, local_F15_LogVol_F15_LogVolData⟩
    (local_cons ⟨_, by decide +kernel, local_FC4_MediaCheck⟩
    (local_cons ⟨_, by decide +kernel, local_F14_Method⟩
    (local_cons ⟨_, by decide +kernel, local_F10_Monitor⟩
    (local_cons ⟨_, by decide +kernel, local_FC6_MultiPath_FC6_MultiPathData⟩
    (local_cons ⟨_, by decide +kernel, local_F9_Network_F8_NetworkData⟩
    (local_cons ⟨_, by decide +kernel, local_FC6_NFS⟩
    (local_cons ⟨_, by decide +kernel, local_F14_Partition_F14_PartData⟩
    (local_cons ⟨_, by decide +kernel, local_F14_Partition_F14_PartData⟩
    (local_cons ⟨_, by decide +kernel, local_FC6_Reboot⟩
    (local_cons ⟨_, by decide +kernel, local_F15_Raid_F15_RaidData⟩
    (local_cons ⟨_, by decide +kernel, local_FC6_Reboot⟩
    (local_cons ⟨_, by decide +kernel, local_F15_Repo_F15_RepoData⟩
    (local_cons ⟨_, by decide +kernel, local_F10_Rescue⟩
    (local_cons ⟨_, by decide +kernel, local_F8_RootPw⟩
    (local_cons ⟨_, by decide +kernel, local_FC3_SELinux⟩
    (local_cons ⟨_, by decide +kernel, local_FC6_Services⟩
    (local_cons ⟨_, by decide +kernel, local_FC6_Reboot⟩
    (local_cons ⟨_, by decide +kernel, local_FC3_SkipX⟩
    (local_cons ⟨_, by decide +kernel, local_F13_SshPw_F13_SshPwData⟩
    (local_cons ⟨_, by decide +kernel, local_FC3_DisplayMode⟩
    (local_cons ⟨_, by decide +kernel, local_FC6_Timezone⟩
    (local_cons ⟨_, by decide +kernel, local_F7_Updates⟩
    (local_cons ⟨_, by decide +kernel, local_F11_Upgrade⟩
    (local_cons ⟨_, by decide +kernel, local_F14_Url⟩
    (local_cons ⟨_, by decide +kernel, local_F12_User_F12_UserData⟩
    (local_cons ⟨_, by decide +kernel, local_F9_Vnc⟩
    (local_cons ⟨_, by decide +kernel, local_FC3_VolGroup_FC3_VolGroupData⟩
    (local_cons ⟨_, by decide +kernel, local_F14_XConfig⟩
    (local_cons ⟨_, by decide +kernel, local_F9_ZeroMbr⟩
    (local_cons ⟨_, by decide +kernel, local_F14_ZFCP_F14_ZFCPData⟩ (List.forall_mem_nil _)))))))))))))))))))))))))))))))))))))))))))))))))))))))))))

theorem commandMapF16_local : ∀ x ∈ commandMapF16, ∃ a, attrName x.2.name = a ∧ Command.Local x.2 (looksAt a) := by
  unfold commandMapF16
  exact (local_cons ⟨_, by decide +kernel, local_FC3_Authconfig⟩
    (local_cons ⟨_, by decide +kernel, local_FC3_Authconfig⟩
    (local_cons ⟨_, by decide +kernel, local_F16_AutoPart⟩
    (local_cons ⟨_, by decide +kernel, local_FC3_AutoStep⟩
    (local_cons ⟨_, by decide +kernel, local_F15_Bootloader⟩
    (local_cons ⟨_, by decide +kernel, local_FC3_Cdrom⟩
    (local_cons ⟨_, by decide +kernel, local_FC3_ClearPart⟩
    (local_cons ⟨_, by decide +kernel, local_FC3_DisplayMode⟩
    (local_cons ⟨_, by decide +kernel, local_F8_Device_F8_DeviceData⟩
    (local_cons ⟨_, by decide +kernel, local_FC3_DeviceProbe⟩
    (local_cons ⟨_, by decide +kernel, local_FC6_DmRaid_FC6_DmRaidData⟩
    (local_cons ⟨_, by decide +kernel, local_F14_DriverDisk_F14_DriverDiskData⟩
    (local_cons ⟨_, by decide +kernel, local_F13_Fcoe_F13_FcoeData⟩
    (local_cons ⟨_, by decide +kernel, local_F14_Firewall⟩
    (local_cons ⟨_, by decide +kernel, local_FC3_Firstboot⟩
    (local_cons ⟨_, by decide +kernel, local_FC3_DisplayMode⟩
    (local_cons ⟨_, by decide +kernel, local_F12_Group_F12_GroupData⟩
    (local_cons ⟨_, by decide +kernel, local_FC6_Reboot⟩
    (local_cons ⟨_, by decide +kernel, local_FC3_HardDrive⟩
    (local_cons ⟨_, by decide +kernel, local_F14_IgnoreDisk⟩
    (local_cons ⟨_, by decide +kernel, local_F11_Upgrade⟩
    (local_cons ⟨_, by decide +kernel, local_F10_Iscsi_F10_IscsiData⟩
    (local_cons ⟨_, by decide +kernel, local_FC6_IscsiName⟩
    (local_cons ⟨_, by decide +kernel, local_FC3_Keyboard⟩
    (local_cons ⟨_, by decide +kernel, local_FC3_Lang⟩
    (local_cons ⟨_, by decide +kernel, local_FC6_Logging⟩
    (local_cons ⟨_, by decide +kernel, local_F15_LogVol_F17_LogVolData⟩
    (local_cons ⟨_, by decide +kernel, local_FC4_MediaCheck⟩
    (local_cons ⟨_, by decide +kernel, local_F14_Method⟩
    (local_cons ⟨_, by decide +kernel, local_F10_Monitor⟩
    (local_cons ⟨_, by decide +kernel, local_FC6_MultiPath_FC6_MultiPathData⟩
    (local_cons ⟨_, by decide +kernel, local_F16_Network_F16_NetworkData⟩
    (local_cons ⟨_, by decide +kernel, local_FC6_NFS⟩
    (local_cons ⟨_, by decide +kernel, local_F14_Partition_F17_PartData⟩
    (local_cons ⟨_, by decide +kernel, local_F14_Partition_F17_PartData⟩
    (local_cons ⟨_, by decide +kernel, local_FC6_Reboot⟩
    (local_cons ⟨_, by decide +kernel, local_F15_Raid_F15_RaidData⟩
    (local_cons ⟨_, by decide +kernel, local_FC6_Reboot⟩
    (local_cons ⟨_, by decide +kernel, local_F15_Repo_F15_RepoData⟩
    (local_cons ⟨_, by decide +kernel, local_F10_Rescue⟩
    (local_cons ⟨_, by decide +kernel, local_F8_RootPw⟩
    (local_cons ⟨_, by decide +kernel, local_FC3_SELinux⟩
    (local_cons ⟨_, by decide +kernel, local_FC6_Services⟩
    (local_cons ⟨_, by decide +kernel, local_FC6_Reboot⟩
    (local_cons ⟨_, by decide +kernel, local_FC3_SkipX⟩
    (local_cons ⟨_, by decide +kernel, local_F13_SshPw_F13_SshPwData⟩
    (local_cons ⟨_, by decide +kernel, local_FC3_DisplayMode⟩
    (local_cons ⟨_, by decide +kernel, local_FC6_Timezone⟩
    (local_cons ⟨_, by decide +kernel, local_F7_Updates⟩
    (local_cons ⟨_, by decide +kernel, local_F11_Upgrade⟩
    (local_cons ⟨_, by decide +kernel, local_F14_Url⟩
    (local_cons ⟨_, by decide +kernel, local_F12_User_F12_UserData⟩
    (local_cons ⟨_, by decide +kernel, local_F9_Vnc⟩
    (local_cons ⟨_, by decide +kernel, local_F16_VolGroup_F16_VolGroupData⟩
    (local_cons ⟨_, by decide +kernel, local_F14_XConfig⟩
    (local_cons ⟨_, by decide +kernel, local_F9_ZeroMbr⟩
    (local_cons ⟨_, by decide +kernel, local_F14_ZFCP_F14_ZFCPData⟩ (List.forall_mem_nil _))))))))))))))))))))))))))))))))))))))))))))))))))))))))))

theorem commandMapF17_local : ∀ x ∈ commandMapF17, ∃ a, attrName x.2.name = a ∧ Command.Local x.2 (looksAt a) := by
  unfold commandMapF17
  exact (local_cons ⟨_, by decide +kernel, local_FC3_Authconfig⟩
    (local_cons ⟨_, by decide +kernel, local_FC3_Authconfig⟩
    (local_cons ⟨_, by decide +kernel, local_F17_AutoPart⟩
    (local_cons ⟨_, by decide +kernel, local_FC3_AutoStep⟩
    (local_cons ⟨_, by decide +kernel, local_F17_Bootloader⟩
    (local_cons ⟨_, by decide +kernel, local_F17_BTRFS_F17_BTRFSData⟩
    (local_cons ⟨_, by decide +kernel, local_FC3_Cdrom⟩
    (local_cons ⟨_, by decide +kernel, local_F17_ClearPart⟩
    (local_cons ⟨_, by decide +kernel, local_FC3_DisplayMode⟩
    (local_cons ⟨_, by decide +kernel, local_F8_Device_F8_DeviceData⟩
    (local_cons ⟨_, by decide +kernel, local_FC3_DeviceProbe⟩
    (local_cons ⟨_, by decide +kernel, local_FC6_DmRaid_FC6_DmRaidData⟩
    (local_cons ⟨_, by decide +kernel, local_F14_DriverDisk_F14_DriverDiskData⟩
    (local_cons ⟨_, by decide +kernel, local_F13_Fcoe_F13_FcoeData⟩
    (local_cons ⟨_, by decide +kernel, local_F14_Firewall⟩
    (local_cons ⟨_, by decide +kernel, local_FC3_Firstboot⟩
    (local_cons ⟨_, by decide +kernel, local_FC3_DisplayMode⟩
    (local_cons ⟨_, by decide +kernel, local_F12_Group_F12_GroupData⟩
    (local_cons ⟨_, by decide +kernel, local_FC6_Reboot⟩
    (local_cons ⟨_, by decide +kernel, local_FC3_HardDrive⟩
    (local_cons ⟨_, by decide +kernel, local_F14_IgnoreDisk⟩
    (local_cons ⟨_, by decide +kernel, local_F11_Upgrade⟩
    (local_cons ⟨_, by decide +kernel, local_F17_Iscsi_F17_IscsiData⟩
    (local_cons ⟨_, by decide +kernel, local_FC6_IscsiName⟩
    (local_cons ⟨_, by decide +kernel, local_FC3_Keyboard⟩
    (local_cons ⟨_, by decide +kernel, local_FC3_Lang⟩
    (local_cons ⟨_, by decide +kernel, local_FC6_Logging⟩
    (local_cons ⟨_, by decide +kernel, local_F17_LogVol_F17_LogVolData⟩
    (local_cons ⟨_, by decide +kernel, local_FC4_MediaCheck⟩
    (local_cons ⟨_, by decide +kernel, local_F14_Method⟩
    (local_cons ⟨_, by decide +kernel, local_F10_Monitor⟩
    (local_cons ⟨_, by decide +kernel, local_FC6_MultiPath_FC6_MultiPathData⟩
    (local_cons ⟨_, by decide +kernel, local_F16_Network_F16_NetworkData⟩
    (local_cons ⟨_, by decide +kernel, local_FC6_NFS⟩
    (local_cons ⟨_, by decide +kernel, local_F17_Partition_F17_PartData⟩
    (local_cons ⟨_, by decide +kernel, local_F17_Partition_F17_PartData⟩
    (local_cons ⟨_, by decide +kernel, local_FC6_Reboot⟩
    (local_cons ⟨_, by decide +kernel, local_F15_Raid_F15_RaidData⟩
    (local_cons ⟨_, by decide +kernel, local_FC6_Reboot⟩
    (local_cons ⟨_, by decide +kernel, local_F15_Repo_F15_RepoData⟩
    (local_cons ⟨_, by decide +kernel, local_F10_Rescue⟩
    (local_cons ⟨_, by decide +kernel, local_F8_RootPw⟩
    (local_cons ⟨_, by decide +kernel, local_FC3_SELinux⟩
    (local_cons ⟨_, by decide +kernel, local_FC6_Services⟩
    (local_cons ⟨_, by decide +kernel, local_FC6_Reboot⟩
    (local_cons ⟨_, by decide +kernel, local_FC3_SkipX⟩
    (local_cons ⟨_, by decide +kernel, local_F13_SshPw_F13_SshPwData⟩
    (local_cons ⟨_, by decide +kernel, local_FC3_DisplayMode⟩
    (local_cons ⟨_, by decide +kernel, local_FC6_Timezone⟩
    (local_cons ⟨_, by decide +kernel, local_F7_Updates⟩
    (local_cons ⟨_, by decide +kernel, local_F11_Upgrade⟩
    (local_cons ⟨_, by decide +kernel, local_F14_Url⟩
    (local_cons ⟨_, by decide +kernel, local_F12_User_F12_UserData⟩
    (local_cons ⟨_, by decide +kernel, local_F9_Vnc⟩
    (local_cons ⟨_, by decide +kernel, local_F16_VolGroup_F16_VolGroupData⟩
    (local_cons ⟨_, by decide +kernel, local_F14_XConfig⟩
    (local_cons ⟨_, by decide +kernel, local_F9_ZeroMbr⟩
    (local_cons ⟨_, by decide +kernel, local_F14_ZFCP_F14_ZFCPData⟩ (List.forall_mem_nil _)))))))))))))))))))))))))))))))))))))))))))))))))))))))))))

theorem commandMapF18_local : ∀ x ∈ commandMapF18, ∃ a, attrName x.2.name = a ∧ Command.Local x.2 (looksAt a) := by
  unfold commandMapF18
  exact (local_cons ⟨_, by decide +kernel, local_FC3_Authconfig⟩
    (local_cons ⟨_, by decide +kernel, local_FC3_Authconfig⟩
    (local_cons ⟨_, by decide +kernel, local_F18_AutoPart⟩
    (local_cons ⟨_, by decide +kernel, local_FC3_AutoStep⟩
    (local_cons ⟨_, by decide +kernel, local_F18_Bootloader⟩
    (local_cons ⟨_, by decide +kernel, local_F17_BTRFS_F17_BTRFSData⟩
    (local_cons ⟨_, by decide +kernel, local_FC3_Cdrom⟩
    (local_cons ⟨_, by decide +kernel, local_F17_ClearPart⟩
    (local_cons ⟨_, by decide +kernel, local_FC3_DisplayMode⟩
    (local_cons ⟨_, by decide +kernel, local_F8_Device_F8_DeviceData⟩
    (local_cons ⟨_, by decide +kernel, local_FC3_DeviceProbe⟩
    (local_cons ⟨_, by decide +kernel, local_FC6_DmRaid_FC6_DmRaidData⟩
    (local_cons ⟨_, by decide +kernel, local_F14_DriverDisk_F14_DriverDiskData⟩
    (local_cons ⟨_, by decide +kernel, local_F13_Fcoe_RHEL7_FcoeData⟩
    (local_cons ⟨_, by decide +kernel, local_F14_Firewall⟩
    (local_cons ⟨_, by decide +kernel, local_FC3_Firstboot⟩
    (local_cons ⟨_, by decide +kernel, local_FC3_DisplayMode⟩
    (local_cons ⟨_, by decide +kernel, local_F12_Group_F12_GroupData⟩
    (local_cons ⟨_, by decide +kernel, local_F18_Reboot⟩
    (local_cons ⟨_, by decide +kernel, local_FC3_HardDrive⟩
    (local_cons ⟨_, by decide +kernel, local_F14_IgnoreDisk⟩
    (local_cons ⟨_, by decide +kernel, local_F11_Upgrade⟩
    (local_cons ⟨_, by decide +kernel, local_F17_Iscsi_F17_IscsiData⟩
    (local_cons ⟨_, by decide +kernel, local_FC6_IscsiName⟩
    (local_cons ⟨_, by decide +kernel, local_F18_Keyboard⟩
    (local_cons ⟨_, by decide +kernel, local_FC3_Lang⟩
    (local_cons ⟨_, by decide +kernel, local_FC6_Logging⟩
    (local_cons ⟨_, by decide +kernel, local_F18_LogVol_F18_LogVolData⟩
    (local_cons ⟨_, by decide +kernel, local_FC4_MediaCheck⟩
    (local_cons ⟨_, by decide +kernel, local_F18_Method⟩
    (local_cons ⟨_, by decide +kernel, local_F18_Monitor⟩
    (local_cons ⟨_, by decide +kernel, local_FC6_MultiPath_FC6_MultiPathData⟩
    (local_cons ⟨_, by decide +kernel, local_F18_Network_F16_NetworkData⟩
    (local_cons ⟨_, by decide +kernel, local_FC6_NFS⟩
    (local_cons ⟨_, by decide +kernel, local_F18_Partition_F18_PartData⟩
    (local_cons ⟨_, by decide +kernel, local_F18_Partition_F18_PartData⟩
    (local_cons ⟨_, by decide +kernel, local_F18_Reboot⟩
    (local_cons ⟨_, by decide +kernel, local_F18_Raid_F18_RaidData⟩
    (local_cons ⟨_, by decide +kernel, local_F18_Reboot⟩
    (local_cons ⟨_, by decide +kernel, local_F15_Repo_F15_RepoData⟩
    (local_cons ⟨_, by decide +kernel, local_F10_Rescue⟩
    (local_cons ⟨_, by decide +kernel, local_F18_RootPw⟩
    (local_cons ⟨_, by decide +kernel, local_FC3_SELinux⟩
    (local_cons ⟨_, by decide +kernel, local_FC6_Services⟩
    (local_cons ⟨_, by decide +kernel, local_F18_Reboot⟩
    (local_cons ⟨_, by decide +kernel, local_FC3_SkipX⟩
    (local_cons ⟨_, by decide +kernel, local_F13_SshPw_F13_SshPwData⟩
    (local_cons ⟨_, by decide +kernel, local_FC3_DisplayMode⟩
    (local_cons ⟨_, by decide +kernel, local_F18_Timezone⟩
    (local_cons ⟨_, by decide +kernel, local_F7_Updates⟩
    (local_cons ⟨_, by decide +kernel, local_F11_Upgrade⟩
    (local_cons ⟨_, by decide +kernel, local_F18_Url⟩
    (local_cons ⟨_, by decide +kernel, local_F12_User_F12_UserData⟩
    (local_cons ⟨_, by decide +kernel, local_F9_Vnc⟩
    (local_cons ⟨_, by decide +kernel, local_F16_VolGroup_F16_VolGroupData⟩
    (local_cons ⟨_, by decide +kernel, local_F14_XConfig⟩
    (local_cons ⟨_, by decide +kernel, local_F9_ZeroMbr⟩
    (local_cons ⟨_, by decide +kernel, local_F14_ZFCP_F14_ZFCPData⟩ (List.forall_mem_nil _)))))))))))))))))))))))))))))))))))))))))))))))))))))))))))

theorem commandMapF19_local : ∀ x ∈ commandMapF19, ∃ a, attrName x.2.name = a ∧ Command.Local x.2 (looksAt a) := by
  unfold commandMapF19
  exact (local_cons ⟨_, by decide +kernel, local_FC3_Authconfig⟩
    (local_cons ⟨_, by decide +kernel, local_FC3_Authconfig⟩
    (local_cons ⟨_, by decide +kernel, local_F18_AutoPart⟩
    (local_cons ⟨_, by decide +kernel, local_FC3_AutoStep⟩
    (local_cons ⟨_, by decide +kernel, local_F19_Bootloader⟩
    (local_cons ⟨_, by decide +kernel, local_F17_BTRFS_F17_BTRFSData⟩
    (local_cons ⟨_, by decide +kernel, local_FC3_Cdrom⟩
    (local_cons ⟨_, by decide +kernel, local_F17_ClearPart⟩
    (local_cons ⟨_, by decide +kernel, local_FC3_DisplayMode⟩
    (local_cons ⟨_, by decide +kernel, local_F8_Device_F8_DeviceData⟩
    (local_cons ⟨_, by decide +kernel, local_FC3_DeviceProbe⟩
    (local_cons ⟨_, by decide +kernel, local_FC6_DmRaid_FC6_DmRaidData⟩
    (local_cons ⟨_, by decide +kernel, local_F14_DriverDisk_F14_DriverDiskData⟩
    (local_cons ⟨_, by decide +kernel, local_F13_Fcoe_F13_FcoeData⟩
    (local_cons ⟨_, by decide +kernel, local_F14_Firewall⟩
    (local_cons ⟨_, by decide +kernel, local_FC3_Firstboot⟩
    (local_cons ⟨_, by decide +kernel, local_FC3_DisplayMode⟩
    (local_cons ⟨_, by decide +kernel, local_F12_Group_F12_GroupData⟩
    (local_cons ⟨_, by decide +kernel, local_F18_Reboot⟩
    (local_cons ⟨_, by decide +kernel, local_FC3_HardDrive⟩
    (local_cons ⟨_, by decide +kernel, local_F14_IgnoreDisk⟩
    (local_cons ⟨_, by decide +kernel, local_F11_Upgrade⟩
    (local_cons ⟨_, by decide +kernel, local_F17_Iscsi_F17_IscsiData⟩
    (local_cons ⟨_, by decide +kernel, local_FC6_IscsiName⟩
    (local_cons ⟨_, by decide +kernel, local_F18_Keyboard⟩
    (local_cons ⟨_, by decide +kernel, local_F19_Lang⟩
    (local_cons ⟨_, by decide +kernel, local_F19_Liveimg⟩
    (local_cons ⟨_, by decide +kernel, local_FC6_Logging⟩
    (local_cons ⟨_, by decide +kernel, local_F18_LogVol_F20_LogVolData⟩
    (local_cons ⟨_, by decide +kernel, local_FC4_MediaCheck⟩
    (local_cons ⟨_, by decide +kernel, local_F19_Method⟩
    (local_cons ⟨_, by decide +kernel, local_FC6_MultiPath_FC6_MultiPathData⟩
    (local_cons ⟨_, by decide +kernel, local_F19_Network_F19_NetworkData⟩
    (local_cons ⟨_, by decide +kernel, local_FC6_NFS⟩
    (local_cons ⟨_, by decide +kernel, local_F18_Partition_F18_PartData⟩
    (local_cons ⟨_, by decide +kernel, local_F18_Partition_F18_PartData⟩
    (local_cons ⟨_, by decide +kernel, local_F18_Reboot⟩
    (local_cons ⟨_, by decide +kernel, local_F19_Raid_F18_RaidData⟩
    (local_cons ⟨_, by decide +kernel, local_F19_Realm⟩
    (local_cons ⟨_, by decide +kernel, local_F18_Reboot⟩
    (local_cons ⟨_, by decide +kernel, local_F15_Repo_F15_RepoData⟩
    (local_cons ⟨_, by decide +kernel, local_F10_Rescue⟩
    (local_cons ⟨_, by decide +kernel, local_F18_RootPw⟩
    (local_cons ⟨_, by decide +kernel, local_FC3_SELinux⟩
    (local_cons ⟨_, by decide +kernel, local_FC6_Services⟩
    (local_cons ⟨_, by decide +kernel, local_F18_Reboot⟩
    (local_cons ⟨_, by decide +kernel, local_FC3_SkipX⟩
    (local_cons ⟨_, by decide +kernel, local_F13_SshPw_F13_SshPwData⟩
    (local_cons ⟨_, by decide +kernel, local_FC3_DisplayMode⟩
    (local_cons ⟨_, by decide +kernel, local_F18_Timezone⟩
    (local_cons ⟨_, by decide +kernel, local_F7_Updates⟩
    (local_cons ⟨_, by decide +kernel, local_F11_Upgrade⟩
    (local_cons ⟨_, by decide +kernel, local_F18_Url⟩
    (local_cons ⟨_, by decide +kernel, local_F19_User_F19_UserData⟩
    (local_cons ⟨_, by decide +kernel, local_F9_Vnc⟩
    (local_cons ⟨_, by decide +kernel, local_F16_VolGroup_F16_VolGroupData⟩
    (local_cons ⟨_, by decide +kernel, local_F14_XConfig⟩
    (local_cons ⟨_, by decide +kernel, local_F9_ZeroMbr⟩
    (local_cons ⟨_, by decide +kernel, local_F14_ZFCP_F14_ZFCPData⟩ (List.forall_mem_nil _))))))))))))))))))))))))))))))))))))))))))))))))))))))))))))

theorem commandMapF20_local : ∀ x ∈ commandMapF20, ∃ a, attrName x.2.name = a ∧ Command.Local x.2 (looksAt a) := by
  unfold commandMapF20
  exact (local_cons ⟨_, by decide +kernel, local_FC3_Authconfig⟩
    (local_cons ⟨_, by decide +kernel, local_FC3_Authconfig⟩
    (local_cons ⟨_, by decide +kernel, local_F20_AutoPart⟩
    (local_cons ⟨_, by decide +kernel, local_FC3_AutoStep⟩
    (local_cons ⟨_, by decide +kernel, local_F19_Bootloader⟩
    (local_cons ⟨_, by decide +kernel, local_F17_BTRFS_F17_BTRFSData⟩
    (local_cons ⟨_, by decide +kernel, local_FC3_Cdrom⟩
    (local_cons ⟨_, by decide +kernel, local_F17_ClearPart⟩
    (local_cons ⟨_, by decide +kernel, local_FC3_DisplayMode⟩
    (local_cons ⟨_, by decide +kernel, local_F8_Device_F8_DeviceData⟩
    (local_cons ⟨_, by decide +kernel, local_FC3_DeviceProbe⟩
    (local_cons ⟨_, by decide +kernel, local_FC6_DmRaid_FC6_DmRaidData⟩
    (local_cons ⟨_, by decide +kernel, local_F14_DriverDisk_F14_DriverDiskData⟩
    (local_cons ⟨_, by decide +kernel, local_F20_Eula⟩
    (local_cons ⟨_, by decide +kernel, local_F13_Fcoe_F13_FcoeData⟩
    (local_cons ⟨_, by decide +kernel, local_F20_Firewall⟩
    (local_cons ⟨_, by decide +kernel, local_FC3_Firstboot⟩
    (local_cons ⟨_, by decide +kernel, local_FC3_DisplayMode⟩
    (local_cons ⟨_, by decide +kernel, local_F12_Group_F12_GroupData⟩
    (local_cons ⟨_, by decide +kernel, local_F18_Reboot⟩
    (local_cons ⟨_, by decide +kernel, local_FC3_HardDrive⟩
    (local_cons ⟨_, by decide +kernel, local_F14_IgnoreDisk⟩
    (local_cons ⟨_, by decide +kernel, local_F20_Install⟩
    (local_cons ⟨_, by decide +kernel, local_F17_Iscsi_F17_IscsiData⟩
    (local_cons ⟨_, by decide +kernel, local_FC6_IscsiName⟩
    (local_cons ⟨_, by decide +kernel, local_F18_Keyboard⟩
    (local_cons ⟨_, by decide +kernel, local_F19_Lang⟩
    (local_cons ⟨_, by decide +kernel, local_F19_Liveimg⟩
    (local_cons ⟨_, by decide +kernel, local_FC6_Logging⟩
    (local_cons ⟨_, by decide +kernel, local_F20_LogVol_F20_LogVolData⟩
    (local_cons ⟨_, by decide +kernel, local_FC4_MediaCheck⟩
    (local_cons ⟨_, by decide +kernel, local_F19_Method⟩
    (local_cons ⟨_, by decide +kernel, local_FC6_MultiPath_FC6_MultiPathData⟩
    (local_cons ⟨_, by decide +kernel, local_F20_Network_F20_NetworkData⟩
    (local_cons ⟨_, by decide +kernel, local_FC6_NFS⟩
    (local_cons ⟨_, by decide +kernel, local_F20_Partition_F18_PartData⟩
    (local_cons ⟨_, by decide +kernel, local_F20_Partition_F18_PartData⟩
    (local_cons ⟨_, by decide +kernel, local_F18_Reboot⟩
    (local_cons ⟨_, by decide +kernel, local_F20_Raid_F18_RaidData⟩
    (local_cons ⟨_, by decide +kernel, local_F19_Realm⟩
    (local_cons ⟨_, by decide +kernel, local_F18_Reboot⟩
    (local_cons ⟨_, by decide +kernel, local_F15_Repo_F15_RepoData⟩
    (local_cons ⟨_, by decide +kernel, local_F10_Rescue⟩
    (local_cons ⟨_, by decide +kernel, local_F18_RootPw⟩
    (local_cons ⟨_, by decide +kernel, local_FC3_SELinux⟩
    (local_cons ⟨_, by decide +kernel, local_FC6_Services⟩
    (local_cons ⟨_, by decide +kernel, local_F18_Reboot⟩
    (local_cons ⟨_, by decide +kernel, local_FC3_SkipX⟩
    (local_cons ⟨_, by decide +kernel, local_F13_SshPw_F13_SshPwData⟩
    (local_cons ⟨_, by decide +kernel, local_FC3_DisplayMode⟩
    (local_cons ⟨_, by decide +kernel, local_F18_Timezone⟩
    (local_cons ⟨_, by decide +kernel, local_F7_Updates⟩
    (local_cons ⟨_, by decide +kernel, local_F20_Upgrade⟩
    (local_cons ⟨_, by decide +kernel, local_F18_Url⟩
    (local_cons ⟨_, by decide +kernel, local_F19_User_F19_UserData⟩
    (local_cons ⟨_, by decide +kernel, local_F9_Vnc⟩
    (local_cons ⟨_, by decide +kernel, local_F16_VolGroup_F16_VolGroupData⟩
    (local_cons ⟨_, by decide +kernel, local_F14_XConfig⟩
    (local_cons ⟨_, by decide +kernel, local_F9_ZeroMbr⟩
    (local_cons ⟨_, by decide +kernel, local_F14_ZFCP_F14_ZFCPData⟩ (List.forall_mem_nil _)))))))))))))))))))))))))))))))))))))))))))))))))))))))))))))

theorem commandMapF21_local : ∀ x ∈ commandMapF21, ∃ a, attrName x.2.name = a ∧ Command.Local x.2 (looksAt a) := by
  unfold commandMapF21
  exact (local_cons ⟨_, by decide +kernel, local_FC3_Authconfig⟩
    (local_cons ⟨_, by decide +kernel, local_FC3_Authconfig⟩
    (local_cons ⟨_, by decide +kernel, local_F21_AutoPart⟩
    (local_cons ⟨_, by decide +kernel, local_FC3_AutoStep⟩
    (local_cons ⟨_, by decide +kernel, local_F21_Bootloader⟩
    (local_cons ⟨_, by decide +kernel, local_F17_BTRFS_F17_BTRFSData⟩
    (local_cons ⟨_, by decide +kernel, local_FC3_Cdrom⟩
    (local_cons ⟨_, by decide +kernel, local_F21_ClearPart⟩
    (local_cons ⟨_, by decide +kernel, local_FC3_DisplayMode⟩
    (local_cons ⟨_, by decide +kernel, local_F8_Device_F8_DeviceData⟩
    (local_cons ⟨_, by decide +kernel, local_FC3_DeviceProbe⟩
    (local_cons ⟨_, by decide +kernel, local_FC6_DmRaid_FC6_DmRaidData⟩
    (local_cons ⟨_, by decide +kernel, local_F14_DriverDisk_F14_DriverDiskData⟩
    (local_cons ⟨_, by decide +kernel, local_F20_Eula⟩
    (local_cons ⟨_, by decide +kernel, local_F13_Fcoe_F13_FcoeData⟩
    (local_cons ⟨_, by decide +kernel, local_F20_Firewall⟩
    (local_cons ⟨_, by decide +kernel, local_FC3_Firstboot⟩
    (local_cons ⟨_, by decide +kernel, local_FC3_DisplayMode⟩
    (local_cons ⟨_, by decide +kernel, local_F12_Group_F12_GroupData⟩
    (local_cons ⟨_, by decide +kernel, local_F18_Reboot⟩
    (local_cons ⟨_, by decide +kernel, local_FC3_HardDrive⟩
    (local_cons ⟨_, by decide +kernel, local_F14_IgnoreDisk⟩
    (local_cons ⟨_, by decide +kernel, local_F20_Install⟩
    (local_cons ⟨_, by decide +kernel, local_F17_Iscsi_F17_IscsiData⟩
    (local_cons ⟨_, by decide +kernel, local_FC6_IscsiName⟩
    (local_cons ⟨_, by decide +kernel, local_F18_Keyboard⟩
    (local_cons ⟨_, by decide +kernel, local_F19_Lang⟩
    (local_cons ⟨_, by decide +kernel, local_F19_Liveimg⟩
    (local_cons ⟨_, by decide +kernel, local_FC6_Logging⟩
    (local_cons ⟨_, by decide +kernel, local_F21_LogVol_F21_LogVolData⟩
    (local_cons ⟨_, by decide +kernel, local_FC4_MediaCheck⟩
    (local_cons ⟨_, by decide +kernel, local_F19_Method⟩
    (local_cons ⟨_, by decide +kernel, local_FC6_MultiPath_FC6_MultiPathData⟩
    (local_cons ⟨_, by decide +kernel, local_F21_Network_F21_NetworkData⟩
    (local_cons ⟨_, by decide +kernel, local_FC6_NFS⟩
    (local_cons ⟨_, by decide +kernel, local_F21_OSTreeSetup⟩
    (local_cons ⟨_, by decide +kernel, local_F20_Partition_F18_PartData⟩
    (local_cons ⟨_, by decide +kernel, local_F20_Partition_F18_PartData⟩
    (local_cons ⟨_, by decide +kernel, local_F18_Reboot⟩
    (local_cons ⟨_, by decide +kernel, local_F20_Raid_F18_RaidData⟩
    (local_cons ⟨_, by decide +kernel, local_F19_Realm⟩
    (local_cons ⟨_, by decide +kernel, local_F18_Reboot⟩
    (local_cons ⟨_, by decide +kernel, local_F21_Repo_F21_RepoData⟩
    (local_cons ⟨_, by decide +kernel, local_F10_Rescue⟩
    (local_cons ⟨_, by decide +kernel, local_F18_RootPw⟩
    (local_cons ⟨_, by decide +kernel, local_FC3_SELinux⟩
    (local_cons ⟨_, by decide +kernel, local_FC6_Services⟩
    (local_cons ⟨_, by decide +kernel, local_F18_Reboot⟩
    (local_cons ⟨_, by decide +kernel, local_FC3_SkipX⟩
    (local_cons ⟨_, by decide +kernel, local_F13_SshPw_F13_SshPwData⟩
    (local_cons ⟨_, by decide +kernel, local_FC3_DisplayMode⟩
    (local_cons ⟨_, by decide +kernel, local_F18_Timezone⟩
    (local_cons ⟨_, by decide +kernel, local_F7_Updates⟩
    (local_cons ⟨_, by decide +kernel, local_F20_Upgrade⟩
    (local_cons ⟨_, by decide +kernel, local_F18_Url⟩
    (local_cons ⟨_, by decide +kernel, local_F19_User_F19_UserData⟩
    (local_cons ⟨_, by decide +kernel, local_F9_Vnc⟩
    (local_cons ⟨_, by decide +kernel, local_F21_VolGroup_F21_VolGroupData⟩
    (local_cons ⟨_, by decide +kernel, local_F14_XConfig⟩
    (local_cons ⟨_, by decide +kernel, local_F9_ZeroMbr⟩
    (local_cons ⟨_, by decide +kernel, local_F14_ZFCP_F14_ZFCPData⟩ (List.forall_mem_nil _))))))))))))))))))))))))))))))))))))))))))))))))))))))))))))))

theorem commandMapF22_local : ∀ x ∈ commandMapF22, ∃ a, attrName x.2.name = a ∧ Command.Local x.2 (looksAt a) := by
  unfold commandMapF22
  exact (local_cons ⟨_, by decide +kernel, local_FC3_Authconfig⟩
    (local_cons ⟨_, by decide +kernel, local_FC3_Authconfig⟩
    (local_cons ⟨_, by decide +kernel, local_F21_AutoPart⟩
    (local_cons ⟨_, by decide +kernel, local_FC3_AutoStep⟩
    (local_cons ⟨_, by decide +kernel, local_F21_Bootloader⟩
    (local_cons ⟨_, by decide +kernel, local_F17_BTRFS_F17_BTRFSData⟩
    (local_cons ⟨_, by decide +kernel, local_FC3_Cdrom⟩
    (local_cons ⟨_, by decide +kernel, local_F21_ClearPart⟩
    (local_cons ⟨_, by decide +kernel, local_FC3_DisplayMode⟩
    (local_cons ⟨_, by decide +kernel, local_F8_Device_F8_DeviceData⟩
    (local_cons ⟨_, by decide +kernel, local_FC3_DeviceProbe⟩
    (local_cons ⟨_, by decide +kernel, local_FC6_DmRaid_FC6_DmRaidData⟩
    (local_cons ⟨_, by decide +kernel, local_F14_DriverDisk_F14_DriverDiskData⟩
    (local_cons ⟨_, by decide +kernel, local_F20_Eula⟩
    (local_cons ⟨_, by decide +kernel, local_F13_Fcoe_F13_FcoeData⟩
    (local_cons ⟨_, by decide +kernel, local_F20_Firewall⟩
    (local_cons ⟨_, by decide +kernel, local_FC3_Firstboot⟩
    (local_cons ⟨_, by decide +kernel, local_FC3_DisplayMode⟩
    (local_cons ⟨_, by decide +kernel, local_F12_Group_F12_GroupData⟩
    (local_cons ⟨_, by decide +kernel, local_F18_Reboot⟩
    (local_cons ⟨_, by decide +kernel, local_FC3_HardDrive⟩
    (local_cons ⟨_, by decide +kernel, local_F14_IgnoreDisk⟩
    (local_cons ⟨_, by decide +kernel, local_F20_Install⟩
    (local_cons ⟨_, by decide +kernel, local_F17_Iscsi_F17_IscsiData⟩
    (local_cons ⟨_, by decide +kernel, local_FC6_IscsiName⟩
    (local_cons ⟨_, by decide +kernel, local_F18_Keyboard⟩
    (local_cons ⟨_, by decide +kernel, local_F19_Lang⟩
    (local_cons ⟨_, by decide +kernel, local_F19_Liveimg⟩
    (local_cons ⟨_, by decide +kernel, local_FC6_Logging⟩
    (local_cons ⟨_, by decide +kernel, local_F21_LogVol_F21_LogVolData⟩
    (local_cons ⟨_, by decide +kernel, local_FC4_MediaCheck⟩
    (local_cons ⟨_, by decide +kernel, local_F19_Method⟩
    (local_cons ⟨_, by decide +kernel, local_FC6_MultiPath_FC6_MultiPathData⟩
    (local_cons ⟨_, by decide +kernel, local_F22_Network_F22_NetworkData⟩
    (local_cons ⟨_, by decide +kernel, local_FC6_NFS⟩
    (local_cons ⟨_, by decide +kernel, local_F21_OSTreeSetup⟩
    (local_cons ⟨_, by decide +kernel, local_F20_Partition_F18_PartData⟩
    (local_cons ⟨_, by decide +kernel, local_F20_Partition_F18_PartData⟩
    (local_cons ⟨_, by decide +kernel, local_F18_Reboot⟩
    (local_cons ⟨_, by decide +kernel, local_F20_Raid_F18_RaidData⟩
    (local_cons ⟨_, by decide +kernel, local_F19_Realm⟩
    (local_cons ⟨_, by decide +kernel, local_F18_Reboot⟩
    (local_cons ⟨_, by decide +kernel, local_F21_Repo_F21_RepoData⟩
    (local_cons ⟨_, by decide +kernel, local_F10_Rescue⟩
    (local_cons ⟨_, by decide +kernel, local_F18_RootPw⟩
    (local_cons ⟨_, by decide +kernel, local_FC3_SELinux⟩
    (local_cons ⟨_, by decide +kernel, local_FC6_Services⟩
    (local_cons ⟨_, by decide +kernel, local_F18_Reboot⟩
    (local_cons ⟨_, by decide +kernel, local_FC3_SkipX⟩
    (local_cons ⟨_, by decide +kernel, local_F13_SshPw_F13_SshPwData⟩
    (local_cons ⟨_, by decide +kernel, local_F22_SshKey_F22_SshKeyData⟩
    (local_cons ⟨_, by decide +kernel, local_FC3_DisplayMode⟩
    (local_cons ⟨_, by decide +kernel, local_F18_Timezone⟩
    (local_cons ⟨_, by decide +kernel, local_F7_Updates⟩
    (local_cons ⟨_, by decide +kernel, local_F20_Upgrade⟩
    (local_cons ⟨_, by decide +kernel, local_F18_Url⟩
    (local_cons ⟨_, by decide +kernel, local_F19_User_F19_UserData⟩
    (local_cons ⟨_, by decide +kernel, local_F9_Vnc⟩
    (local_cons ⟨_, by decide +kernel, local_F21_VolGroup_F21_VolGroupData⟩
    (local_cons ⟨_, by decide +kernel, local_F14_XConfig⟩
    (local_cons ⟨_, by decide +kernel, local_F9_ZeroMbr⟩
    (local_cons ⟨_, by decide +kernel, local_F14_ZFCP_F14_ZFCPData⟩ (List.forall_mem_nil _)))))))))))))))))))))))))))))))))))))))))))))))))))))))))))))))

theorem commandMapF23_local : ∀ x ∈ commandMapF23, ∃ a, attrName x.2.name = a ∧ Command.Local x.2 (looksAt a) := by
  unfold commandMapF23
  exact (local_cons ⟨_, by decide +kernel, local_FC3_Authconfig⟩
    (local_cons ⟨_, by decide +kernel, local_FC3_Authconfig⟩
    (local_cons ⟨_, by decide +kernel, local_F23_AutoPart⟩
    (local_cons ⟨_, by decide +kernel, local_FC3_AutoStep⟩
    (local_cons ⟨_, by decide +kernel, local_F21_Bootloader⟩
    (local_cons ⟨_, by decide +kernel, local_F23_BTRFS_F23_BTRFSData⟩
    (local_cons ⟨_, by decide +kernel, local_FC3_Cdrom⟩
    (local_cons ⟨_, by decide +kernel, local_F21_ClearPart⟩
    (local_cons ⟨_, by decide +kernel, local_FC3_DisplayMode⟩
    (local_cons ⟨_, by decide +kernel, local_F8_Device_F8_DeviceData⟩
    (local_cons ⟨_, by decide +kernel, local_FC3_DeviceProbe⟩
    (local_cons ⟨_, by decide +kernel, local_FC6_DmRaid_FC6_DmRaidData⟩
    (local_cons ⟨_, by decide +kernel, local_F14_DriverDisk_F14_DriverDiskData⟩
    (local_cons ⟨_, by decide +kernel, local_F20_Eula⟩
    (local_cons ⟨_, by decide +kernel, local_F13_Fcoe_F13_FcoeData⟩
    (local_cons ⟨_, by decide +kernel, local_F20_Firewall⟩
    (local_cons ⟨_, by decide +kernel, local_FC3_Firstboot⟩
    (local_cons ⟨_, by decide +kernel, local_FC3_DisplayMode⟩
    (local_cons ⟨_, by decide +kernel, local_F12_Group_F12_GroupData⟩
    (local_cons ⟨_, by decide +kernel, local_F23_Reboot⟩
    (local_cons ⟨_, by decide +kernel, local_FC3_HardDrive⟩
    (local_cons ⟨_, by decide +kernel, local_F14_IgnoreDisk⟩
    (local_cons ⟨_, by decide +kernel, local_F20_Install⟩
    (local_cons ⟨_, by decide +kernel, local_F17_Iscsi_F17_IscsiData⟩
    (local_cons ⟨_, by decide +kernel, local_FC6_IscsiName⟩
    (local_cons ⟨_, by decide +kernel, local_F18_Keyboard⟩
    (local_cons ⟨_, by decide +kernel, local_F19_Lang⟩
    (local_cons ⟨_, by decide +kernel, local_F19_Liveimg⟩
    (local_cons ⟨_, by decide +kernel, local_FC6_Logging⟩
    (local_cons ⟨_, by decide +kernel, local_F23_LogVol_F23_LogVolData⟩
    (local_cons ⟨_, by decide +kernel, local_FC4_MediaCheck⟩
    (local_cons ⟨_, by decide +kernel, local_F19_Method⟩
    (local_cons ⟨_, by decide +kernel, local_FC6_MultiPath_FC6_MultiPathData⟩
    (local_cons ⟨_, by decide +kernel, local_F22_Network_F22_NetworkData⟩
    (local_cons ⟨_, by decide +kernel, local_FC6_NFS⟩
    (local_cons ⟨_, by decide +kernel, local_F21_OSTreeSetup⟩
    (local_cons ⟨_, by decide +kernel, local_F23_Partition_F23_PartData⟩
    (local_cons ⟨_, by decide +kernel, local_F23_Partition_F23_PartData⟩
    (local_cons ⟨_, by decide +kernel, local_F23_Reboot⟩
    (local_cons ⟨_, by decide +kernel, local_F23_Raid_F23_RaidData⟩
    (local_cons ⟨_, by decide +kernel, local_F19_Realm⟩
    (local_cons ⟨_, by decide +kernel, local_F23_Reboot⟩
    (local_cons ⟨_, by decide +kernel, local_F21_Repo_F21_RepoData⟩
    (local_cons ⟨_, by decide +kernel, local_F23_ReqPart⟩
    (local_cons ⟨_, by decide +kernel, local_F10_Rescue⟩
    (local_cons ⟨_, by decide +kernel, local_F18_RootPw⟩
    (local_cons ⟨_, by decide +kernel, local_FC3_SELinux⟩
    (local_cons ⟨_, by decide +kernel, local_FC6_Services⟩
    (local_cons ⟨_, by decide +kernel, local_F23_Reboot⟩
    (local_cons ⟨_, by decide +kernel, local_FC3_SkipX⟩
    (local_cons ⟨_, by decide +kernel, local_F13_SshPw_F13_SshPwData⟩
    (local_cons ⟨_, by decide +kernel, local_F22_SshKey_F22_SshKeyData⟩
    (local_cons ⟨_, by decide +kernel, local_FC3_DisplayMode⟩
    (local_cons ⟨_, by decide +kernel, local_F23_Timezone⟩
    (local_cons ⟨_, by decide +kernel, local_F7_Updates⟩
    (local_cons ⟨_, by decide +kernel, local_F20_Upgrade⟩
    (local_cons ⟨_, by decide +kernel, local_F18_Url⟩
    (local_cons ⟨_, by decide +kernel, local_F19_User_F19_UserData⟩
    (local_cons ⟨_, by decide +kernel, local_F9_Vnc⟩
    (local_cons ⟨_, by decide +kernel, local_F21_VolGroup_F21_VolGroupData⟩
    (local_cons ⟨_, by decide +kernel, local_F14_XConfig⟩
    (local_cons ⟨_, by decide +kernel, local_F9_ZeroMbr⟩
    (local_cons ⟨_, by decide +kernel, local_F14_ZFCP_F14_ZFCPData⟩ (List.forall_mem_nil _))))))))))))))))))))))))))))))))))))))))))))))))))))))))))))))))

theorem commandMapF24_local : ∀ x ∈ commandMapF24, ∃ a, attrName x.2.name = a ∧ Command.Local x.2 (looksAt a) := by
  unfold commandMapF24
  exact (local_cons ⟨_, by decide +kernel, local_FC3_Authconfig⟩
    (local_cons ⟨_, by decide +kernel, local_FC3_Authconfig⟩
    (local_cons ⟨_, by decide +kernel, local_F23_AutoPart⟩
    (local_cons ⟨_, by decide +kernel, local_FC3_AutoStep⟩
    (local_cons ⟨_, by decide +kernel, local_F21_Bootloader⟩
    (local_cons ⟨_, by decide +kernel, local_F23_BTRFS_F23_BTRFSData⟩
    (local_cons ⟨_, by decide +kernel, local_FC3_Cdrom⟩
    (local_cons ⟨_, by decide +kernel, local_F21_ClearPart⟩
    (local_cons ⟨_, by decide +kernel, local_FC3_DisplayMode⟩
    (local_cons ⟨_, by decide +kernel, local_F24_Device⟩
    (local_cons ⟨_, by decide +kernel, local_FC3_DeviceProbe⟩
    (local_cons ⟨_, by decide +kernel, local_F24_DmRaid⟩
    (local_cons ⟨_, by decide +kernel, local_F14_DriverDisk_F14_DriverDiskData⟩
    (local_cons ⟨_, by decide +kernel, local_F20_Eula⟩
    (local_cons ⟨_, by decide +kernel, local_F13_Fcoe_F13_FcoeData⟩
    (local_cons ⟨_, by decide +kernel, local_F20_Firewall⟩
    (local_cons ⟨_, by decide +kernel, local_FC3_Firstboot⟩
    (local_cons ⟨_, by decide +kernel, local_FC3_DisplayMode⟩
    (local_cons ⟨_, by decide +kernel, local_F12_Group_F12_GroupData⟩
    (local_cons ⟨_, by decide +kernel, local_F23_Reboot⟩
    (local_cons ⟨_, by decide +kernel, local_FC3_HardDrive⟩
    (local_cons ⟨_, by decide +kernel, local_F14_IgnoreDisk⟩
    (local_cons ⟨_, by decide +kernel, local_F20_Install⟩
    (local_cons ⟨_, by decide +kernel, local_F17_Iscsi_F17_IscsiData⟩
    (local_cons ⟨_, by decide +kernel, local_FC6_IscsiName⟩
    (local_cons ⟨_, by decide +kernel, local_F18_Keyboard⟩
    (local_cons ⟨_, by decide +kernel, local_F19_Lang⟩
    (local_cons ⟨_, by decide +kernel, local_F19_Liveimg⟩
    (local_cons ⟨_, by decide +kernel, local_FC6_Logging⟩
    (local_cons ⟨_, by decide +kernel, local_F23_LogVol_F23_LogVolData⟩
    (local_cons ⟨_, by decide +kernel, local_FC4_MediaCheck⟩
    (local_cons ⟨_, by decide +kernel, local_F19_Method⟩
    (local_cons ⟨_, by decide +kernel, local_F24_MultiPath⟩
    (local_cons ⟨_, by decide +kernel, local_F24_Network_F22_NetworkData⟩
    (local_cons ⟨_, by decide +kernel, local_FC6_NFS⟩
    (local_cons ⟨_, by decide +kernel, local_F21_OSTreeSetup⟩
    (local_cons ⟨_, by decide +kernel, local_F23_Partition_F23_PartData⟩
    (local_cons ⟨_, by decide +kernel, local_F23_Partition_F23_PartData⟩
    (local_cons ⟨_, by decide +kernel, local_F23_Reboot⟩
    (local_cons ⟨_, by decide +kernel, local_F23_Raid_F23_RaidData⟩
    (local_cons ⟨_, by decide +kernel, local_F19_Realm⟩
    (local_cons ⟨_, by decide +kernel, local_F23_Reboot⟩
    (local_cons ⟨_, by decide +kernel, local_F21_Repo_F21_RepoData⟩
    (local_cons ⟨_, by decide +kernel, local_F23_ReqPart⟩
    (local_cons ⟨_, by decide +kernel, local_F10_Rescue⟩
    (local_cons ⟨_, by decide +kernel, local_F18_RootPw⟩
    (local_cons ⟨_, by decide +kernel, local_FC3_SELinux⟩
    (local_cons ⟨_, by decide +kernel, local_FC6_Services⟩
    (local_cons ⟨_, by decide +kernel, local_F23_Reboot⟩
    (local_cons ⟨_, by decide +kernel, local_FC3_SkipX⟩
    (local_cons ⟨_, by decide +kernel, local_F24_SshPw_F24_SshPwData⟩
    (local_cons ⟨_, by decide +kernel, local_F22_SshKey_F22_SshKeyData⟩
    (local_cons ⟨_, by decide +kernel, local_FC3_DisplayMode⟩
    (local_cons ⟨_, by decide +kernel, local_F23_Timezone⟩
    (local_cons ⟨_, by decide +kernel, local_F7_Updates⟩
    (local_cons ⟨_, by decide +kernel, local_F20_Upgrade⟩
    (local_cons ⟨_, by decide +kernel, local_F18_Url⟩
    (local_cons ⟨_, by decide +kernel, local_F24_User_F19_UserData⟩
    (local_cons ⟨_, by decide +kernel, local_F9_Vnc⟩
    (local_cons ⟨_, by decide +kernel, local_F21_VolGroup_F21_VolGroupData⟩
    (local_cons ⟨_, by decide +kernel, local_F14_XConfig⟩
    (local_cons ⟨_, by decide +kernel, local_F9_ZeroMbr⟩
    (local_cons ⟨_, by decide +kernel, local_F14_ZFCP_F14_ZFCPData⟩ (List.forall_mem_nil _))))))))))))))))))))))))))))))))))))))))))))))))))))))))))))))))

theorem commandMapF25_local : ∀ x ∈ commandMapF25, ∃ a, attrName x.2.name = a ∧ Command.Local x.2 (looksAt a) := by
  unfold commandMapF25
  exact (local_cons ⟨_, by decide +kernel, local_FC3_Authconfig⟩
    (local_cons ⟨_, by decide +kernel, local_FC3_Authconfig⟩
    (local_cons ⟨_, by decide +kernel, local_F23_AutoPart⟩
    (local_cons ⟨_, by decide +kernel, local_FC3_AutoStep⟩
    (local_cons ⟨_, by decide +kernel, local_F21_Bootloader⟩
    (local_cons ⟨_, by decide +kernel, local_F23_BTRFS_F23_BTRFSData⟩
    (local_cons ⟨_, by decide +kernel, local_FC3_Cdrom⟩
    (local_cons ⟨_, by decide +kernel, local_F21_ClearPart⟩
    (local_cons ⟨_, by decide +kernel, local_FC3_DisplayMode⟩
    (local_cons ⟨_, by decide +kernel, local_F24_Device⟩
    (local_cons ⟨_, by decide +kernel, local_FC3_DeviceProbe⟩
    (local_cons ⟨_, by decide +kernel, local_F24_DmRaid⟩
    (local_cons ⟨_, by decide +kernel, local_F14_DriverDisk_F14_DriverDiskData⟩
    (local_cons ⟨_, by decide +kernel, local_F20_Eula⟩
    (local_cons ⟨_, by decide +kernel, local_F13_Fcoe_F13_FcoeData⟩
    (local_cons ⟨_, by decide +kernel, local_F20_Firewall⟩
    (local_cons ⟨_, by decide +kernel, local_FC3_Firstboot⟩
    (local_cons ⟨_, by decide +kernel, local_FC3_DisplayMode⟩
    (local_cons ⟨_, by decide +kernel, local_F12_Group_F12_GroupData⟩
    (local_cons ⟨_, by decide +kernel, local_F23_Reboot⟩
    (local_cons ⟨_, by decide +kernel, local_FC3_HardDrive⟩
    (local_cons ⟨_, by decide +kernel, local_F14_IgnoreDisk⟩
    (local_cons ⟨_, by decide +kernel, local_F20_Install⟩
    (local_cons ⟨_, by decide +kernel, local_F17_Iscsi_F17_IscsiData⟩
    (local_cons ⟨_, by decide +kernel, local_FC6_IscsiName⟩
    (local_cons ⟨_, by decide +kernel, local_F18_Keyboard⟩
    (local_cons ⟨_, by decide +kernel, local_F19_Lang⟩
    (local_cons ⟨_, by decide +kernel, local_F19_Liveimg⟩
    (local_cons ⟨_, by decide +kernel, local_FC6_Logging⟩
    (local_cons ⟨_, by decide +kernel, local_F23_LogVol_F23_LogVolData⟩
    (local_cons ⟨_, by decide +kernel, local_FC4_MediaCheck⟩
    (local_cons ⟨_, by decide +kernel, local_F19_Method⟩
    (local_cons ⟨_, by decide +kernel, local_F24_MultiPath⟩
    (local_cons ⟨_, by decide +kernel, local_F25_Network_F25_NetworkData⟩
    (local_cons ⟨_, by decide +kernel, local_FC6_NFS⟩
    (local_cons ⟨_, by decide +kernel, local_F21_OSTreeSetup⟩
    (local_cons ⟨_, by decide +kernel, local_F23_Partition_F23_PartData⟩
    (local_cons ⟨_, by decide +kernel, local_F23_Partition_F23_PartData⟩
    (local_cons ⟨_, by decide +kernel, local_F23_Reboot⟩
    (local_cons ⟨_, by decide +kernel, local_F25_Raid_F25_RaidData⟩
    (local_cons ⟨_, by decide +kernel, local_F19_Realm⟩
    (local_cons ⟨_, by decide +kernel, local_F23_Reboot⟩
    (local_cons ⟨_, by decide +kernel, local_F21_Repo_F21_RepoData⟩
    (local_cons ⟨_, by decide +kernel, local_F23_ReqPart⟩
    (local_cons ⟨_, by decide +kernel, local_F10_Rescue⟩
    (local_cons ⟨_, by decide +kernel, local_F18_RootPw⟩
    (local_cons ⟨_, by decide +kernel, local_FC3_SELinux⟩
    (local_cons ⟨_, by decide +kernel, local_FC6_Services⟩
    (local_cons ⟨_, by decide +kernel, local_F23_Reboot⟩
    (local_cons ⟨_, by decide +kernel, local_FC3_SkipX⟩
    (local_cons ⟨_, by decide +kernel, local_F24_SshPw_F24_SshPwData⟩
    (local_cons ⟨_, by decide +kernel, local_F22_SshKey_F22_SshKeyData⟩
    (local_cons ⟨_, by decide +kernel, local_FC3_DisplayMode⟩
    (local_cons ⟨_, by decide +kernel, local_F25_Timezone⟩
    (local_cons ⟨_, by decide +kernel, local_F7_Updates⟩
    (local_cons ⟨_, by decide +kernel, local_F20_Upgrade⟩
    (local_cons ⟨_, by decide +kernel, local_F18_Url⟩
    (local_cons ⟨_, by decide +kernel, local_F24_User_F19_UserData⟩
    (local_cons ⟨_, by decide +kernel, local_F9_Vnc⟩
    (local_cons ⟨_, by decide +kernel, local_F21_VolGroup_F21_VolGroupData⟩
    (local_cons ⟨_, by decide +kernel, local_F14_XConfig⟩
    (local_cons ⟨_, by decide +kernel, local_F9_ZeroMbr⟩
    (local_cons ⟨_, by decide +kernel, local_F14_ZFCP_F14_ZFCPData⟩ (List.forall_mem_nil _))))))))))))))))))))))))))))))))))))))))))))))))))))))))))))))))

theorem commandMapF26_local : ∀ x ∈ commandMapF26, ∃ a, attrName x.2.name = a ∧ Command.Local x.2 (looksAt a) := by
  unfold commandMapF26
  exact (local_cons ⟨_, by decide +kernel, local_FC3_Authconfig⟩
    (local_cons ⟨_, by decide +kernel, local_FC3_Authconfig⟩
    (local_cons ⟨_, by decide +kernel, local_F26_AutoPart⟩
    (local_cons ⟨_, by decide +kernel, local_FC3_AutoStep⟩
    (local_cons ⟨_, by decide +kernel, local_F21_Bootloader⟩
    (local_cons ⟨_, by decide +kernel, local_F23_BTRFS_F23_BTRFSData⟩
    (local_cons ⟨_, by decide +kernel, local_FC3_Cdrom⟩
    (local_cons ⟨_, by decide +kernel, local_F21_ClearPart⟩
    (local_cons ⟨_, by decide +kernel, local_F26_DisplayMode⟩
    (local_cons ⟨_, by decide +kernel, local_F24_Device⟩
    (local_cons ⟨_, by decide +kernel, local_FC3_DeviceProbe⟩
    (local_cons ⟨_, by decide +kernel, local_F24_DmRaid⟩
    (local_cons ⟨_, by decide +kernel, local_F14_DriverDisk_F14_DriverDiskData⟩
    (local_cons ⟨_, by decide +kernel, local_F20_Eula⟩
    (local_cons ⟨_, by decide +kernel, local_F13_Fcoe_F13_FcoeData⟩
    (local_cons ⟨_, by decide +kernel, local_F20_Firewall⟩
    (local_cons ⟨_, by decide +kernel, local_FC3_Firstboot⟩
    (local_cons ⟨_, by decide +kernel, local_F26_DisplayMode⟩
    (local_cons ⟨_, by decide +kernel, local_F12_Group_F12_GroupData⟩
    (local_cons ⟨_, by decide +kernel, local_F23_Reboot⟩
    (local_cons ⟨_, by decide +kernel, local_FC3_HardDrive⟩
    (local_cons ⟨_, by decide +kernel, local_F14_IgnoreDisk⟩
    (local_cons ⟨_, by decide +kernel, local_F20_Install⟩
    (local_cons ⟨_, by decide +kernel, local_F17_Iscsi_F17_IscsiData⟩
    (local_cons ⟨_, by decide +kernel, local_FC6_IscsiName⟩
    (local_cons ⟨_, by decide +kernel, local_F18_Keyboard⟩
    (local_cons ⟨_, by decide +kernel, local_F19_Lang⟩
    (local_cons ⟨_, by decide +kernel, local_F19_Liveimg⟩
    (local_cons ⟨_, by decide +kernel, local_FC6_Logging⟩
    (local_cons ⟨_, by decide +kernel, local_F23_LogVol_F23_LogVolData⟩
    (local_cons ⟨_, by decide +kernel, local_FC4_MediaCheck⟩
    (local_cons ⟨_, by decide +kernel, local_F19_Method⟩
    (local_cons ⟨_, by decide +kernel, local_F24_MultiPath⟩
    (local_cons ⟨_, by decide +kernel, local_F25_Network_F25_NetworkData⟩
    (local_cons ⟨_, by decide +kernel, local_FC6_NFS⟩
    (local_cons ⟨_, by decide +kernel, local_F21_OSTreeSetup⟩
    (local_cons ⟨_, by decide +kernel, local_F23_Partition_F23_PartData⟩
    (local_cons ⟨_, by decide +kernel, local_F23_Partition_F23_PartData⟩
    (local_cons ⟨_, by decide +kernel, local_F23_Reboot⟩
    (local_cons ⟨_, by decide +kernel, local_F25_Raid_F25_RaidData⟩
    (local_cons ⟨_, by decide +kernel, local_F19_Realm⟩
    (local_cons ⟨_, by decide +kernel, local_F23_Reboot⟩
    (local_cons ⟨_, by decide +kernel, local_F21_Repo_F21_RepoData⟩
    (local_cons ⟨_, by decide +kernel, local_F23_ReqPart⟩
    (local_cons ⟨_, by decide +kernel, local_F10_Rescue⟩
    (local_cons ⟨_, by decide +kernel, local_F18_RootPw⟩
    (local_cons ⟨_, by decide +kernel, local_FC3_SELinux⟩
    (local_cons ⟨_, by decide +kernel, local_FC6_Services⟩
    (local_cons ⟨_, by decide +kernel, local_F23_Reboot⟩
    (local_cons ⟨_, by decide +kernel, local_FC3_SkipX⟩
    (local_cons ⟨_, by decide +kernel, local_F26_Snapshot_F26_SnapshotData⟩
    (local_cons ⟨_, by decide +kernel, local_F24_SshPw_F24_SshPwData⟩
    (local_cons ⟨_, by decide +kernel, local_F22_SshKey_F22_SshKeyData⟩
    (local_cons ⟨_, by decide +kernel, local_F26_DisplayMode⟩
    (local_cons ⟨_, by decide +kernel, local_F25_Timezone⟩
    (local_cons ⟨_, by decide +kernel, local_F7_Updates⟩
    (local_cons ⟨_, by decide +kernel, local_F20_Upgrade⟩
    (local_cons ⟨_, by decide +kernel, local_F18_Url⟩
    (local_cons ⟨_, by decide +kernel, local_F24_User_F19_UserData⟩
    (local_cons ⟨_, by decide +kernel, local_F9_Vnc⟩
    (local_cons ⟨_, by decide +kernel, local_F21_VolGroup_F21_VolGroupData⟩
    (local_cons ⟨_, by decide +kernel, local_F14_XConfig⟩
    (local_cons ⟨_, by decide +kernel, local_F9_ZeroMbr⟩
    (local_cons ⟨_, by decide +kernel, local_F14_ZFCP_F14_ZFCPData⟩ (List.forall_mem_nil _)))))))))))))))))))))))))))))))))))))))))))))))))))))))))))))))))

theorem commandMapF27_local : ∀ x ∈ commandMapF27, ∃ a, attrName x.2.name = a ∧ Command.Local x.2 (looksAt a) := by
  unfold commandMapF27
  exact (local_cons ⟨_, by decide +kernel, local_FC3_Authconfig⟩
    (local_cons ⟨_, by decide +kernel, local_FC3_Authconfig⟩
    (local_cons ⟨_, by decide +kernel, local_F26_AutoPart⟩
    (local_cons ⟨_, by decide +kernel, local_FC3_AutoStep⟩
    (local_cons ⟨_, by decide +kernel, local_F21_Bootloader⟩
    (local_cons ⟨_, by decide +kernel, local_F23_BTRFS_F23_BTRFSData⟩
    (local_cons ⟨_, by decide +kernel, local_FC3_Cdrom⟩
    (local_cons ⟨_, by decide +kernel, local_F21_ClearPart⟩
    (local_cons ⟨_, by decide +kernel, local_F26_DisplayMode⟩
    (local_cons ⟨_, by decide +kernel, local_F24_Device⟩
    (local_cons ⟨_, by decide +kernel, local_FC3_DeviceProbe⟩
    (local_cons ⟨_, by decide +kernel, local_F24_DmRaid⟩
    (local_cons ⟨_, by decide +kernel, local_F14_DriverDisk_F14_DriverDiskData⟩
    (local_cons ⟨_, by decide +kernel, local_F20_Eula⟩
    (local_cons ⟨_, by decide +kernel, local_F13_Fcoe_F13_FcoeData⟩
    (local_cons ⟨_, by decide +kernel, local_F20_Firewall⟩
    (local_cons ⟨_, by decide +kernel, local_FC3_Firstboot⟩
    (local_cons ⟨_, by decide +kernel, local_F26_DisplayMode⟩
    (local_cons ⟨_, by decide +kernel, local_F12_Group_F12_GroupData⟩
    (local_cons ⟨_, by decide +kernel, local_F23_Reboot⟩
    (local_cons ⟨_, by decide +kernel, local_FC3_HardDrive⟩
    (local_cons ⟨_, by decide +kernel, local_F14_IgnoreDisk⟩
    (local_cons ⟨_, by decide +kernel, local_F20_Install⟩
    (local_cons ⟨_, by decide +kernel, local_F17_Iscsi_F17_IscsiData⟩
    (local_cons ⟨_, by decide +kernel, local_FC6_IscsiName⟩
    (local_cons ⟨_, by decide +kernel, local_F18_Keyboard⟩
    (local_cons ⟨_, by decide +kernel, local_F19_Lang⟩
    (local_cons ⟨_, by decide +kernel, local_F19_Liveimg⟩
    (local_cons ⟨_, by decide +kernel, local_FC6_Logging⟩
    (local_cons ⟨_, by decide +kernel, local_F23_LogVol_F23_LogVolData⟩
    (local_cons ⟨_, by decide +kernel, local_FC4_MediaCheck⟩
    (local_cons ⟨_, by decide +kernel, local_F19_Method⟩
    (local_cons ⟨_, by decide +kernel, local_F27_Mount_F27_MountData⟩
    (local_cons ⟨_, by decide +kernel, local_F24_MultiPath⟩
    (local_cons ⟨_, by decide +kernel, local_F27_Network_F27_NetworkData⟩
    (local_cons ⟨_, by decide +kernel, local_FC6_NFS⟩
    (local_cons ⟨_, by decide +kernel, local_F21_OSTreeSetup⟩
    (local_cons ⟨_, by decide +kernel, local_F23_Partition_F23_PartData⟩
    (local_cons ⟨_, by decide +kernel, local_F23_Partition_F23_PartData⟩
    (local_cons ⟨_, by decide +kernel, local_F23_Reboot⟩
    (local_cons ⟨_, by decide +kernel, local_F25_Raid_F25_RaidData⟩
    (local_cons ⟨_, by decide +kernel, local_F19_Realm⟩
    (local_cons ⟨_, by decide +kernel, local_F23_Reboot⟩
    (local_cons ⟨_, by decide +kernel, local_F27_Repo_F27_RepoData⟩
    (local_cons ⟨_, by decide +kernel, local_F23_ReqPart⟩
    (local_cons ⟨_, by decide +kernel, local_F10_Rescue⟩
    (local_cons ⟨_, by decide +kernel, local_F18_RootPw⟩
    (local_cons ⟨_, by decide +kernel, local_FC3_SELinux⟩
    (local_cons ⟨_, by decide +kernel, local_FC6_Services⟩
    (local_cons ⟨_, by decide +kernel, local_F23_Reboot⟩
    (local_cons ⟨_, by decide +kernel, local_FC3_SkipX⟩
    (local_cons ⟨_, by decide +kernel, local_F26_Snapshot_F26_SnapshotData⟩
    (local_cons ⟨_, by decide +kernel, local_F24_SshPw_F24_SshPwData⟩
    (local_cons ⟨_, by decide +kernel, local_F22_SshKey_F22_SshKeyData⟩
    (local_cons ⟨_, by decide +kernel, local_F26_DisplayMode⟩
    (local_cons ⟨_, by decide +kernel, local_F25_Timezone⟩
    (local_cons ⟨_, by decide +kernel, local_F7_Updates⟩
    (local_cons ⟨_, by decide +kernel, local_F20_Upgrade⟩
    (local_cons ⟨_, by decide +kernel, local_F27_Url⟩
    (local_cons ⟨_, by decide +kernel, local_F24_User_F19_UserData⟩
    (local_cons ⟨_, by decide +kernel, local_F9_Vnc⟩
    (local_cons ⟨_, by decide +kernel, local_F21_VolGroup_F21_VolGroupData⟩
    (local_cons ⟨_, by decide +kernel, local_F14_XConfig⟩
    (local_cons ⟨_, by decide +kernel, local_F9_ZeroMbr⟩
    (local_cons ⟨_, by decide +kernel, local_F14_ZFCP_F14_ZFCPData⟩ (List.forall_mem_nil _))))))))))))))))))))))))))))))))))))))))))))))))))))))))))))))))))

theorem commandMapF28_local : ∀ x ∈ commandMapF28, ∃ a, attrName x.2.name = a ∧ Command.Local x.2 (looksAt a) := by
  unfold commandMapF28
  exact (local_cons ⟨_, by decide +kernel, local_F28_Authconfig⟩
    (local_cons ⟨_, by decide +kernel, local_F28_Authconfig⟩
    (local_cons ⟨_, by decide +kernel, local_F28_Authselect⟩
    (local_cons ⟨_, by decide +kernel, local_F26_AutoPart⟩
    (local_cons ⟨_, by decide +kernel, local_FC3_AutoStep⟩
    (local_cons ⟨_, by decide +kernel, local_F21_Bootloader⟩
    (local_cons ⟨_, by decide +kernel, local_F23_BTRFS_F23_BTRFSData⟩
    (local_cons ⟨_, by decide +kernel, local_FC3_Cdrom⟩
    (local_cons ⟨_, by decide +kernel, local_F28_ClearPart⟩
    (local_cons ⟨_, by decide +kernel, local_F26_DisplayMode⟩
    (local_cons ⟨_, by decide +kernel, local_F24_Device⟩
    (local_cons ⟨_, by decide +kernel, local_FC3_DeviceProbe⟩
    (local_cons ⟨_, by decide +kernel, local_F24_DmRaid⟩
    (local_cons ⟨_, by decide +kernel, local_F14_DriverDisk_F14_DriverDiskData⟩
    (local_cons ⟨_, by decide +kernel, local_F20_Eula⟩
    (local_cons ⟨_, by decide +kernel, local_F28_Fcoe_F28_FcoeData⟩
    (local_cons ⟨_, by decide +kernel, local_F28_Firewall⟩
    (local_cons ⟨_, by decide +kernel, local_FC3_Firstboot⟩
    (local_cons ⟨_, by decide +kernel, local_F26_DisplayMode⟩
    (local_cons ⟨_, by decide +kernel, local_F12_Group_F12_GroupData⟩
    (local_cons ⟨_, by decide +kernel, local_F23_Reboot⟩
    (local_cons ⟨_, by decide +kernel, local_FC3_HardDrive⟩
    (local_cons ⟨_, by decide +kernel, local_F28_Hmc⟩
    (local_cons ⟨_, by decide +kernel, local_F14_IgnoreDisk⟩
    (local_cons ⟨_, by decide +kernel, local_F20_Install⟩
    (local_cons ⟨_, by decide +kernel, local_F17_Iscsi_F17_IscsiData⟩
    (local_cons ⟨_, by decide +kernel, local_FC6_IscsiName⟩
    (local_cons ⟨_, by decide +kernel, local_F18_Keyboard⟩
    (local_cons ⟨_, by decide +kernel, local_F19_Lang⟩
    (local_cons ⟨_, by decide +kernel, local_F19_Liveimg⟩
    (local_cons ⟨_, by decide +kernel, local_FC6_Logging⟩
    (local_cons ⟨_, by decide +kernel, local_F23_LogVol_F23_LogVolData⟩
    (local_cons ⟨_, by decide +kernel, local_FC4_MediaCheck⟩
    (local_cons ⟨_, by decide +kernel, local_F28_Method⟩
    (local_cons ⟨_, by decide +kernel, local_F27_Mount_F27_MountData⟩
    (local_cons ⟨_, by decide +kernel, local_F24_MultiPath⟩
    (local_cons ⟨_, by decide +kernel, local_F27_Network_F27_NetworkData⟩
    (local_cons ⟨_, by decide +kernel, local_FC6_NFS⟩
    (local_cons ⟨_, by decide +kernel, local_F28_Nvdimm_F28_NvdimmData⟩
    (local_cons ⟨_, by decide +kernel, local_F21_OSTreeSetup⟩
    (local_cons ⟨_, by decide +kernel, local_F23_Partition_F23_PartData⟩
    (local_cons ⟨_, by decide +kernel, local_F23_Partition_F23_PartData⟩
    (local_cons ⟨_, by decide +kernel, local_F23_Reboot⟩
    (local_cons ⟨_, by decide +kernel, local_F25_Raid_F25_RaidData⟩
    (local_cons ⟨_, by decide +kernel, local_F19_Realm⟩
    (local_cons ⟨_, by decide +kernel, local_F23_Reboot⟩
    (local_cons ⟨_, by decide +kernel, local_F27_Repo_F27_RepoData⟩
    (local_cons ⟨_, by decide +kernel, local_F23_ReqPart⟩
    (local_cons ⟨_, by decide +kernel, local_F10_Rescue⟩
    (local_cons ⟨_, by decide +kernel, local_F18_RootPw⟩
    (local_cons ⟨_, by decide +kernel, local_FC3_SELinux⟩
    (local_cons ⟨_, by decide +kernel, local_FC6_Services⟩
    (local_cons ⟨_, by decide +kernel, local_F23_Reboot⟩
    (local_cons ⟨_, by decide +kernel, local_FC3_SkipX⟩
    (local_cons ⟨_, by decide +kernel, local_F26_Snapshot_F26_SnapshotData⟩
    (local_cons ⟨_, by decide +kernel, local_F24_SshPw_F24_SshPwData⟩
    (local_cons ⟨_, by decide +kernel, local_F22_SshKey_F22_SshKeyData⟩
    (local_cons ⟨_, by decide +kernel, local_F26_DisplayMode⟩
    (local_cons ⟨_, by decide +kernel, local_F25_Timezone⟩
    (local_cons ⟨_, by decide +kernel, local_F7_Updates⟩
    (local_cons ⟨_, by decide +kernel, local_F20_Upgrade⟩
    (local_cons ⟨_, by decide +kernel, local_F27_Url⟩
    (local_cons ⟨_, by decide +kernel, local_F24_User_F19_UserData⟩
    (local_cons ⟨_, by decide +kernel, local_F9_Vnc⟩
    (local_cons ⟨_, by decide +kernel, local_F21_VolGroup_F21_VolGroupData⟩
    (local_cons ⟨_, by decide +kernel, local_F14_XConfig⟩
    (local_cons ⟨_, by decide +kernel, local_F9_ZeroMbr⟩
    (local_cons ⟨_, by decide +kernel, local_F14_ZFCP_F14_ZFCPData⟩ (List.forall_mem_nil _)))))))))))))))))))))))))))))))))))))))))))))))))))))))))))))))))))))

theorem commandMapF29_local : ∀ x ∈ commandMapF29, ∃ a, attrName x.2.name = a ∧ Command.Local x.2 (looksAt a) := by
  unfold commandMapF29
  exact (local_cons ⟨_, by decide +kernel, local_F28_Authconfig⟩
    (local_cons ⟨_, by decide +kernel, local_F28_Authconfig⟩
    (local_cons ⟨_, by decide +kernel, local_F28_Authselect⟩
    (local_cons ⟨_, by decide +kernel, local_F29_AutoPart⟩
    (local_cons ⟨_, by decide +kernel, local_FC3_AutoStep⟩
    (local_cons ⟨_, by decide +kernel, local_F29_Bootloader⟩
    (local_cons ⟨_, by decide +kernel, local_F23_BTRFS_F23_BTRFSData⟩
    (local_cons ⟨_, by decide +kernel, local_FC3_Cdrom⟩
    (local_cons ⟨_, by decide +kernel, local_F28_ClearPart⟩
    (local_cons ⟨_, by decide +kernel, local_F26_DisplayMode⟩
    (local_cons ⟨_, by decide +kernel, local_F24_Device⟩
    (local_cons ⟨_, by decide +kernel, local_F29_DeviceProbe⟩
    (local_cons ⟨_, by decide +kernel, local_F24_DmRaid⟩
    (local_cons ⟨_, by decide +kernel, local_F14_DriverDisk_F14_DriverDiskData⟩
    (local_cons ⟨_, by decide +kernel, local_F29_Module_F29_ModuleData⟩
    (local_cons ⟨_, by decide +kernel, local_F20_Eula⟩
    (local_cons ⟨_, by decide +kernel, local_F28_Fcoe_F28_FcoeData⟩
    (local_cons ⟨_, by decide +kernel, local_F28_Firewall⟩
    (local_cons ⟨_, by decide +kernel, local_FC3_Firstboot⟩
    (local_cons ⟨_, by decide +kernel, local_F26_DisplayMode⟩
    (local_cons ⟨_, by decide +kernel, local_F12_Group_F12_GroupData⟩
    (local_cons ⟨_, by decide +kernel, local_F23_Reboot⟩
    (local_cons ⟨_, by decide +kernel, local_FC3_HardDrive⟩
    (local_cons ⟨_, by decide +kernel, local_F28_Hmc⟩
    (local_cons ⟨_, by decide +kernel, local_F29_IgnoreDisk⟩
    (local_cons ⟨_, by decide +kernel, local_F29_Install⟩
    (local_cons ⟨_, by decide +kernel, local_F17_Iscsi_F17_IscsiData⟩
    (local_cons ⟨_, by decide +kernel, local_FC6_IscsiName⟩
    (local_cons ⟨_, by decide +kernel, local_F18_Keyboard⟩
    (local_cons ⟨_, by decide +kernel, local_F19_Lang⟩
    (local_cons ⟨_, by decide +kernel, local_F19_Liveimg⟩
    (local_cons ⟨_, by decide +kernel, local_FC6_Logging⟩
    (local_cons ⟨_, by decide +kernel, local_F29_LogVol_F29_LogVolData⟩
    (local_cons ⟨_, by decide +kernel, local_FC4_MediaCheck⟩
    (local_cons ⟨_, by decide +kernel, local_F28_Method⟩
    (local_cons ⟨_, by decide +kernel, local_F27_Mount_F27_MountData⟩
    (local_cons ⟨_, by decide +kernel, local_F24_MultiPath⟩
    (local_cons ⟨_, by decide +kernel, local_F27_Network_F27_NetworkData⟩
    (local_cons ⟨_, by decide +kernel, local_FC6_NFS⟩
    (local_cons ⟨_, by decide +kernel, local_F28_Nvdimm_F28_NvdimmData⟩
    (local_cons ⟨_, by decide +kernel, local_F21_OSTreeSetup⟩
    (local_cons ⟨_, by decide +kernel, local_F29_Partition_F29_PartData⟩
    (local_cons ⟨_, by decide +kernel, local_F29_Partition_F29_PartData⟩
    (local_cons ⟨_, by decide +kernel, local_F23_Reboot⟩
    (local_cons ⟨_, by decide +kernel, local_F29_Raid_F29_RaidData⟩
    (local_cons ⟨_, by decide +kernel, local_F19_Realm⟩
    (local_cons ⟨_, by decide +kernel, local_F23_Reboot⟩
    (local_cons ⟨_, by decide +kernel, local_F27_Repo_F27_RepoData⟩
    (local_cons ⟨_, by decide +kernel, local_F23_ReqPart⟩
    (local_cons ⟨_, by decide +kernel, local_F10_Rescue⟩
    (local_cons ⟨_, by decide +kernel, local_F18_RootPw⟩
    (local_cons ⟨_, by decide +kernel, local_FC3_SELinux⟩
    (local_cons ⟨_, by decide +kernel, local_FC6_Services⟩
    (local_cons ⟨_, by decide +kernel, local_F23_Reboot⟩
    (local_cons ⟨_, by decide +kernel, local_FC3_SkipX⟩
    (local_cons ⟨_, by decide +kernel, local_F26_Snapshot_F26_SnapshotData⟩
    (local_cons ⟨_, by decide +kernel, local_F24_SshPw_F24_SshPwData⟩
    (local_cons ⟨_, by decide +kernel, local_F22_SshKey_F22_SshKeyData⟩
    (local_cons ⟨_, by decide +kernel, local_F26_DisplayMode⟩
    (local_cons ⟨_, by decide +kernel, local_F25_Timezone⟩
    (local_cons ⟨_, by decide +kernel, local_F7_Updates⟩
    (local_cons ⟨_, by decide +kernel, local_F29_Upgrade⟩
    (local_cons ⟨_, by decide +kernel, local_F27_Url⟩
    (local_cons ⟨_, by decide +kernel, local_F24_User_F19_UserData⟩
    (local_cons ⟨_, by decide +kernel, local_F9_Vnc⟩
    (local_cons ⟨_, by decide +kernel, local_F21_VolGroup_F21_VolGroupData⟩
    (local_cons ⟨_, by decide +kernel, local_F14_XConfig⟩
    (local_cons ⟨_, by decide +kernel, local_F9_ZeroMbr⟩
    (local_cons ⟨_, by decide +kernel, local_F14_ZFCP_F14_ZFCPData⟩ (List.forall_mem_nil _))))))))))))))))))))))))))))))))))))))))))))))))))))))))))))))))))))))

theorem commandMapF30_local : ∀ x ∈ commandMapF30, ∃ a, attrName x.2.name = a ∧ Command.Local x.2 (looksAt a) := by
  unfold commandMapF30
  exact (local_cons ⟨_, by decide +kernel, local_F28_Authconfig⟩
    (local_cons ⟨_, by decide +kernel, local_F28_Authconfig⟩
    (local_cons ⟨_, by decide +kernel, local_F28_Authselect⟩
    (local_cons ⟨_, by decide +kernel, local_F29_AutoPart⟩
    (local_cons ⟨_, by decide +kernel, local_FC3_AutoStep⟩
    (local_cons ⟨_, by decide +kernel, local_F29_Bootloader⟩
    (local_cons ⟨_, by decide +kernel, local_F23_BTRFS_F23_BTRFSData⟩
    (local_cons ⟨_, by decide +kernel, local_FC3_Cdrom⟩
    (local_cons ⟨_, by decide +kernel, local_F28_ClearPart⟩
    (local_cons ⟨_, by decide +kernel, local_F26_DisplayMode⟩
    (local_cons ⟨_, by decide +kernel, local_F24_Device⟩
    (local_cons ⟨_, by decide +kernel, local_F29_DeviceProbe⟩
    (local_cons ⟨_, by decide +kernel, local_F24_DmRaid⟩
    (local_cons ⟨_, by decide +kernel, local_F14_DriverDisk_F14_DriverDiskData⟩
    (local_cons ⟨_, by decide +kernel, local_F29_Module_F29_ModuleData⟩
    (local_cons ⟨_, by decide +kernel, local_F20_Eula⟩
    (local_cons ⟨_, by decide +kernel, local_F28_Fcoe_F28_FcoeData⟩
    (local_cons ⟨_, by decide +kernel, local_F28_Firewall⟩
    (local_cons ⟨_, by decide +kernel, local_FC3_Firstboot⟩
    (local_cons ⟨_, by decide +kernel, local_F26_DisplayMode⟩
    (local_cons ⟨_, by decide +kernel, local_F12_Group_F12_GroupData⟩
    (local_cons ⟨_, by decide +kernel, local_F23_Reboot⟩
    (local_cons ⟨_, by decide +kernel, local_FC3_HardDrive⟩
    (local_cons ⟨_, by decide +kernel, local_F28_Hmc⟩
    (local_cons ⟨_, by decide +kernel, local_F29_IgnoreDisk⟩
    (local_cons ⟨_, by decide +kernel, local_F29_Install⟩
    (local_cons ⟨_, by decide +kernel, local_F17_Iscsi_F17_IscsiData⟩
    (local_cons ⟨_, by decide +kernel, local_FC6_IscsiName⟩
    (local_cons ⟨_, by decide +kernel, local_F18_Keyboard⟩
    (local_cons ⟨_, by decide +kernel, local_F19_Lang⟩
    (local_cons ⟨_, by decide +kernel, local_F19_Liveimg⟩
    (local_cons ⟨_, by decide +kernel, local_FC6_Logging⟩
    (local_cons ⟨_, by decide +kernel, local_F29_LogVol_F29_LogVolData⟩
    (local_cons ⟨_, by decide +kernel, local_FC4_MediaCheck⟩
    (local_cons ⟨_, by decide +kernel, local_F28_Method⟩
    (local_cons ⟨_, by decide +kernel, local_F27_Mount_F27_MountData⟩
    (local_cons ⟨_, by decide +kernel, local_F24_MultiPath⟩
    (local_cons ⟨_, by decide +kernel, local_F27_Network_F27_NetworkData⟩
    (local_cons ⟨_, by decide +kernel, local_FC6_NFS⟩
    (local_cons ⟨_, by decide +kernel, local_F28_Nvdimm_F28_NvdimmData⟩
    (local_cons ⟨_, by decide +kernel, local_F21_OSTreeSetup⟩
    (local_cons ⟨_, by decide +kernel, local_F29_Partition_F29_PartData⟩
    (local_cons ⟨_, by decide +kernel, local_F29_Partition_F29_PartData⟩
    (local_cons ⟨_, by decide +kernel, local_F23_Reboot⟩
    (local_cons ⟨_, by decide +kernel, local_F29_Raid_F29_RaidData⟩
    (local_cons ⟨_, by decide +kernel, local_F19_Realm⟩
    (local_cons ⟨_, by decide +kernel, local_F23_Reboot⟩
    (local_cons ⟨_, by decide +kernel, local_F30_Repo_F30_RepoData⟩
    (local_cons ⟨_, by decide +kernel, local_F23_ReqPart⟩
    (local_cons ⟨_, by decide +kernel, local_F10_Rescue⟩
    (local_cons ⟨_, by decide +kernel, local_F18_RootPw⟩
    (local_cons ⟨_, by decide +kernel, local_FC3_SELinux⟩
    (local_cons ⟨_, by decide +kernel, local_FC6_Services⟩
    (local_cons ⟨_, by decide +kernel, local_F23_Reboot⟩
    (local_cons ⟨_, by decide +kernel, local_FC3_SkipX⟩
    (local_cons ⟨_, by decide +kernel, local_F26_Snapshot_F26_SnapshotData⟩
    (local_cons ⟨_, by decide +kernel, local_F24_SshPw_F24_SshPwData⟩
    (local_cons ⟨_, by decide +kernel, local_F22_SshKey_F22_SshKeyData⟩
    (local_cons ⟨_, by decide +kernel, local_F26_DisplayMode⟩
    (local_cons ⟨_, by decide +kernel, local_F25_Timezone⟩
    (local_cons ⟨_, by decide +kernel, local_F7_Updates⟩
    (local_cons ⟨_, by decide +kernel, local_F30_Url⟩
    (local_cons ⟨_, by decide +kernel, local_F24_User_F19_UserData⟩
    (local_cons ⟨_, by decide +kernel, local_F9_Vnc⟩
    (local_cons ⟨_, by decide +kernel, local_F21_VolGroup_F21_VolGroupData⟩
    (local_cons ⟨_, by decide +kernel, local_F14_XConfig⟩
    (local_cons ⟨_, by decide +kernel, local_F9_ZeroMbr⟩
    (local_cons ⟨_, by decide +kernel, local_F14_ZFCP_F14_ZFCPData⟩ (List.forall_mem_nil _)))))))))))))))))))))))))))))))))))))))))))))))))))))))))))))))))))))

theorem commandMapF31_local : ∀ x ∈ commandMapF31, ∃ a, attrName x.2.name = a ∧ Command.Local x.2 (looksAt a) := by
  unfold commandMapF31
  exact (local_cons ⟨_, by decide +kernel, local_F28_Authconfig⟩
    (local_cons ⟨_, by decide +kernel, local_F28_Authconfig⟩
    (local_cons ⟨_, by decide +kernel, local_F28_Authselect⟩
    (local_cons ⟨_, by decide +kernel, local_F29_AutoPart⟩
    (local_cons ⟨_, by decide +kernel, local_FC3_AutoStep⟩
    (local_cons ⟨_, by decide +kernel, local_F29_Bootloader⟩
    (local_cons ⟨_, by decide +kernel, local_F23_BTRFS_F23_BTRFSData⟩
    (local_cons ⟨_, by decide +kernel, local_FC3_Cdrom⟩
    (local_cons ⟨_, by decide +kernel, local_F28_ClearPart⟩
    (local_cons ⟨_, by decide +kernel, local_F26_DisplayMode⟩
    (local_cons ⟨_, by decide +kernel, local_F24_Device⟩
    (local_cons ⟨_, by decide +kernel, local_F29_DeviceProbe⟩
    (local_cons ⟨_, by decide +kernel, local_F24_DmRaid⟩
    (local_cons ⟨_, by decide +kernel, local_F14_DriverDisk_F14_DriverDiskData⟩
    (local_cons ⟨_, by decide +kernel, local_F31_Module_F31_ModuleData⟩
    (local_cons ⟨_, by decide +kernel, local_F20_Eula⟩
    (local_cons ⟨_, by decide +kernel, local_F28_Fcoe_F28_FcoeData⟩
    (local_cons ⟨_, by decide +kernel, local_F28_Firewall⟩
    (local_cons ⟨_, by decide +kernel, local_FC3_Firstboot⟩
    (local_cons ⟨_, by decide +kernel, local_F26_DisplayMode⟩
    (local_cons ⟨_, by decide +kernel, local_F12_Group_F12_GroupData⟩
    (local_cons ⟨_, by decide +kernel, local_F23_Reboot⟩
    (local_cons ⟨_, by decide +kernel, local_FC3_HardDrive⟩
    (local_cons ⟨_, by decide +kernel, local_F28_Hmc⟩
    (local_cons ⟨_, by decide +kernel, local_F29_IgnoreDisk⟩
    (local_cons ⟨_, by decide +kernel, local_F29_Install⟩
    (local_cons ⟨_, by decide +kernel, local_F17_Iscsi_F17_IscsiData⟩
    (local_cons ⟨_, by decide +kernel, local_FC6_IscsiName⟩
    (local_cons ⟨_, by decide +kernel, local_F18_Keyboard⟩
    (local_cons ⟨_, by decide +kernel, local_F19_Lang⟩
    (local_cons ⟨_, by decide +kernel, local_F19_Liveimg⟩
    (local_cons ⟨_, by decide +kernel, local_FC6_Logging⟩
    (local_cons ⟨_, by decide +kernel, local_F29_LogVol_F29_LogVolData⟩
    (local_cons ⟨_, by decide +kernel, local_FC4_MediaCheck⟩
    (local_cons ⟨_, by decide +kernel, local_F28_Method⟩
    (local_cons ⟨_, by decide +kernel, local_F27_Mount_F27_MountData⟩
    (local_cons ⟨_, by decide +kernel, local_F24_MultiPath⟩
    (local_cons ⟨_, by decide +kernel, local_F27_Network_F27_NetworkData⟩
    (local_cons ⟨_, by decide +kernel, local_FC6_NFS⟩
    (local_cons ⟨_, by decide +kernel, local_F28_Nvdimm_F28_NvdimmData⟩
    (local_cons ⟨_, by decide +kernel, local_F21_OSTreeSetup⟩
    (local_cons ⟨_, by decide +kernel, local_F29_Partition_F29_PartData⟩
    (local_cons ⟨_, by decide +kernel, local_F29_Partition_F29_PartData⟩
    (local_cons ⟨_, by decide +kernel, local_F23_Reboot⟩
    (local_cons ⟨_, by decide +kernel, local_F29_Raid_F29_RaidData⟩
    (local_cons ⟨_, by decide +kernel, local_F19_Realm⟩
    (local_cons ⟨_, by decide +kernel, local_F23_Reboot⟩
    (local_cons ⟨_, by decide +kernel, local_F30_Repo_F30_RepoData⟩
    (local_cons ⟨_, by decide +kernel, local_F23_ReqPart⟩
    (local_cons ⟨_, by decide +kernel, local_F10_Rescue⟩
    (local_cons ⟨_, by decide +kernel, local_F18_RootPw⟩
    (local_cons ⟨_, by decide +kernel, local_FC3_SELinux⟩
    (local_cons ⟨_, by decide +kernel, local_FC6_Services⟩
    (local_cons ⟨_, by decide +kernel, local_F23_Reboot⟩
    (local_cons ⟨_, by decide +kernel, local_FC3_SkipX⟩
    (local_cons ⟨_, by decide +kernel, local_F26_Snapshot_F26_SnapshotData⟩
    (local_cons ⟨_, by decide +kernel, local_F24_SshPw_F24_SshPwData⟩
    (local_cons ⟨_, by decide +kernel, local_F22_SshKey_F22_SshKeyData⟩
    (local_cons ⟨_, by decide +kernel, local_F26_DisplayMode⟩
    (local_cons ⟨_, by decide +kernel, local_F25_Timezone⟩
    (local_cons ⟨_, by decide +kernel, local_F7_Updates⟩
    (local_cons ⟨_, by decide +kernel, local_F30_Url⟩
    (local_cons ⟨_, by decide +kernel, local_F24_User_F19_UserData⟩
    (local_cons ⟨_, by decide +kernel, local_F9_Vnc⟩
    (local_cons ⟨_, by decide +kernel, local_F21_VolGroup_F21_VolGroupData⟩
    (local_cons ⟨_, by decide +kernel, local_F14_XConfig⟩
    (local_cons ⟨_, by decide +kernel, local_F9_ZeroMbr⟩
    (local_cons ⟨_, by decide +kernel, local_F14_ZFCP_F14_ZFCPData⟩ (List.forall_mem_nil _)))))))))))))))))))))))))))))))))))))))))))))))))))))))))))))))))))))

theorem commandMapF32_local : ∀ x ∈ commandMapF32, ∃ a, attrName x.2.name = a ∧ Command.Local x.2 (looksAt a) := by
  unfold commandMapF32
  exact (local_cons ⟨_, by decide +kernel, local_F28_Authconfig⟩
    (local_cons ⟨_, by decide +kernel, local_F28_Authconfig⟩
    (local_cons ⟨_, by decide +kernel, local_F28_Authselect⟩
    (local_cons ⟨_, by decide +kernel, local_F29_AutoPart⟩
    (local_cons ⟨_, by decide +kernel, local_FC3_AutoStep⟩
    (local_cons ⟨_, by decide +kernel, local_F29_Bootloader⟩
    (local_cons ⟨_, by decide +kernel, local_F23_BTRFS_F23_BTRFSData⟩
    (local_cons ⟨_, by decide +kernel, local_FC3_Cdrom⟩
    (local_cons ⟨_, by decide +kernel, local_F28_ClearPart⟩
    (local_cons ⟨_, by decide +kernel, local_F26_DisplayMode⟩
    (local_cons ⟨_, by decide +kernel, local_F24_Device⟩
    (local_cons ⟨_, by decide +kernel, local_F29_DeviceProbe⟩
    (local_cons ⟨_, by decide +kernel, local_F24_DmRaid⟩
    (local_cons ⟨_, by decide +kernel, local_F14_DriverDisk_F14_DriverDiskData⟩
    (local_cons ⟨_, by decide +kernel, local_F31_Module_F31_ModuleData⟩
    (local_cons ⟨_, by decide +kernel, local_F20_Eula⟩
    (local_cons ⟨_, by decide +kernel, local_F28_Fcoe_F28_FcoeData⟩
    (local_cons ⟨_, by decide +kernel, local_F28_Firewall⟩
    (local_cons ⟨_, by decide +kernel, local_FC3_Firstboot⟩
    (local_cons ⟨_, by decide +kernel, local_F26_DisplayMode⟩
    (local_cons ⟨_, by decide +kernel, local_F12_Group_F12_GroupData⟩
    (local_cons ⟨_, by decide +kernel, local_F23_Reboot⟩
    (local_cons ⟨_, by decide +kernel, local_FC3_HardDrive⟩
    (local_cons ⟨_, by decide +kernel, local_F28_Hmc⟩
    (local_cons ⟨_, by decide +kernel, local_F29_IgnoreDisk⟩
    (local_cons ⟨_, by decide +kernel, local_F29_Install⟩
    (local_cons ⟨_, by decide +kernel, local_F17_Iscsi_F17_IscsiData⟩
    (local_cons ⟨_, by decide +kernel, local_FC6_IscsiName⟩
    (local_cons ⟨_, by decide +kernel, local_F18_Keyboard⟩
    (local_cons ⟨_, by decide +kernel, local_F19_Lang⟩
    (local_cons ⟨_, by decide +kernel, local_F19_Liveimg⟩
    (local_cons ⟨_, by decide +kernel, local_FC6_Logging⟩
    (local_cons ⟨_, by decide +kernel, local_F29_LogVol_F29_LogVolData⟩
    (local_cons ⟨_, by decide +kernel, local_FC4_MediaCheck⟩
    (local_cons ⟨_, by decide +kernel, local_F28_Method⟩
    (local_cons ⟨_, by decide +kernel, local_F27_Mount_F27_MountData⟩
    (local_cons ⟨_, by decide +kernel, local_F24_MultiPath⟩
    (local_cons ⟨_, by decide +kernel, local_F27_Network_F27_NetworkData⟩
    (local_cons ⟨_, by decide +kernel, local_FC6_NFS⟩
    (local_cons ⟨_, by decide +kernel, local_F28_Nvdimm_F28_NvdimmData⟩
    (local_cons ⟨_, by decide +kernel, local_F21_OSTreeSetup⟩
    (local_cons ⟨_, by decide +kernel, local_F29_Partition_F29_PartData⟩
    (local_cons ⟨_, by decide +kernel, local_F29_Partition_F29_PartData⟩
    (local_cons ⟨_, by decide +kernel, local_F23_Reboot⟩
    (local_cons ⟨_, by decide +kernel, local_F29_Raid_F29_RaidData⟩
    (local_cons ⟨_, by decide +kernel, local_F19_Realm⟩
    (local_cons ⟨_, by decide +kernel, local_F23_Reboot⟩
    (local_cons ⟨_, by decide +kernel, local_F30_Repo_F30_RepoData⟩
    (local_cons ⟨_, by decide +kernel, local_F23_ReqPart⟩
    (local_cons ⟨_, by decide +kernel, local_F10_Rescue⟩
    (local_cons ⟨_, by decide +kernel, local_F18_RootPw⟩
    (local_cons ⟨_, by decide +kernel, local_FC3_SELinux⟩
    (local_cons ⟨_, by decide +kernel, local_FC6_Services⟩
    (local_cons ⟨_, by decide +kernel, local_F23_Reboot⟩
    (local_cons ⟨_, by decide +kernel, local_FC3_SkipX⟩
    (local_cons ⟨_, by decide +kernel, local_F26_Snapshot_F26_SnapshotData⟩
    (local_cons ⟨_, by decide +kernel, local_F24_SshPw_F24_SshPwData⟩
    (local_cons ⟨_, by decide +kernel, local_F22_SshKey_F22_SshKeyData⟩
    (local_cons ⟨_, by decide +kernel, local_F26_DisplayMode⟩
    (local_cons ⟨_, by decide +kernel, local_F32_Timezone⟩
    (local_cons ⟨_, by decide +kernel, local_F7_Updates⟩
    (local_cons ⟨_, by decide +kernel, local_F30_Url⟩
    (local_cons ⟨_, by decide +kernel, local_F24_User_F19_UserData⟩
    (local_cons ⟨_, by decide +kernel, local_F9_Vnc⟩
    (local_cons ⟨_, by decide +kernel, local_F21_VolGroup_F21_VolGroupData⟩
    (local_cons ⟨_, by decide +kernel, local_F14_XConfig⟩
    (local_cons ⟨_, by decide +kernel, local_F9_ZeroMbr⟩
    (local_cons ⟨_, by decide +kernel, local_F14_ZFCP_F14_ZFCPData⟩
    (local_cons ⟨_, by decide +kernel, local_F32_Zipl⟩ (List.forall_mem_nil _))))))))))))))))))))))))))))))))))))))))))))))))))))))))))))))))))))))

theorem commandMapF33_local : ∀ x ∈ commandMapF33, ∃ a, attrName x.2.name = a ∧ Command.Local x.2 (looksAt a) := by
  unfold commandMapF33
  exact (local_cons ⟨_, by decide +kernel, local_F28_Authconfig⟩
    (local_cons ⟨_, by decide +kernel, local_F28_Authconfig⟩
    (local_cons ⟨_, by decide +kernel, local_F28_Authselect⟩
    (local_cons ⟨_, by decide +kernel, local_F29_AutoPart⟩
    (local_cons ⟨_, by decide +kernel, local_FC3_AutoStep⟩
    (local_cons ⟨_, by decide +kernel, local_F29_Bootloader⟩
    (local_cons ⟨_, by decide +kernel, local_F23_BTRFS_F23_BTRFSData⟩
    (local_cons ⟨_, by decide +kernel, local_FC3_Cdrom⟩
    (local_cons ⟨_, by decide +kernel, local_F28_ClearPart⟩
    (local_cons ⟨_, by decide +kernel, local_F26_DisplayMode⟩
    (local_cons ⟨_, by decide +kernel, local_F24_Device⟩
    (local_cons ⟨_, by decide +kernel, local_F29_DeviceProbe⟩
    (local_cons ⟨_, by decide +kernel, local_F24_DmRaid⟩
    (local_cons ⟨_, by decide +kernel, local_F14_DriverDisk_F14_DriverDiskData⟩
    (local_cons ⟨_, by decide +kernel, local_F31_Module_F31_ModuleData⟩
    (local_cons ⟨_, by decide +kernel, local_F20_Eula⟩
    (local_cons ⟨_, by decide +kernel, local_F28_Fcoe_F28_FcoeData⟩
    (local_cons ⟨_, by decide +kernel, local_F28_Firewall⟩
    (local_cons ⟨_, by decide +kernel, local_FC3_Firstboot⟩
    (local_cons ⟨_, by decide +kernel, local_F26_DisplayMode⟩
    (local_cons ⟨_, by decide +kernel, local_F12_Group_F12_GroupData⟩
    (local_cons ⟨_, by decide +kernel, local_F23_Reboot⟩
    (local_cons ⟨_, by decide +kernel, local_F33_HardDrive⟩
    (local_cons ⟨_, by decide +kernel, local_F28_Hmc⟩
    (local_cons ⟨_, by decide +kernel, local_F29_IgnoreDisk⟩
    (local_cons ⟨_, by decide +kernel, local_F29_Install⟩
    (local_cons ⟨_, by decide +kernel, local_F17_Iscsi_F17_IscsiData⟩
    (local_cons ⟨_, by decide +kernel, local_FC6_IscsiName⟩
    (local_cons ⟨_, by decide +kernel, local_F18_Keyboard⟩
    (local_cons ⟨_, by decide +kernel, local_F19_Lang⟩
    (local_cons ⟨_, by decide +kernel, local_F19_Liveimg⟩
    (local_cons ⟨_, by decide +kernel, local_FC6_Logging⟩
    (local_cons ⟨_, by decide +kernel, local_F29_LogVol_F29_LogVolData⟩
    (local_cons ⟨_, by decide +kernel, local_FC4_MediaCheck⟩
    (local_cons ⟨_, by decide +kernel, local_F28_Method⟩
    (local_cons ⟨_, by decide +kernel, local_F27_Mount_F27_MountData⟩
    (local_cons ⟨_, by decide +kernel, local_F24_MultiPath⟩
    (local_cons ⟨_, by decide +kernel, local_F27_Network_F27_NetworkData⟩
    (local_cons ⟨_, by decide +kernel, local_FC6_NFS⟩
    (local_cons ⟨_, by decide +kernel, local_F28_Nvdimm_F28_NvdimmData⟩
    (local_cons ⟨_, by decide +kernel, local_F33_Timesource_F33_TimesourceData⟩
    (local_cons ⟨_, by decide +kernel, local_F21_OSTreeSetup⟩
    (local_cons ⟨_, by decide +kernel, local_F29_Partition_F29_PartData⟩
    (local_cons ⟨_, by decide +kernel, local_F29_Partition_F29_PartData⟩
    (local_cons ⟨_, by decide +kernel, local_F23_Reboot⟩
    (local_cons ⟨_, by decide +kernel, local_F29_Raid_F29_RaidData⟩
    (local_cons ⟨_, by decide +kernel, local_F19_Realm⟩
    (local_cons ⟨_, by decide +kernel, local_F23_Reboot⟩
    (local_cons ⟨_, by decide +kernel, local_F33_Repo_F30_RepoData⟩
    (local_cons ⟨_, by decide +kernel, local_F23_ReqPart⟩
    (local_cons ⟨_, by decide +kernel, local_F10_Rescue⟩
    (local_cons ⟨_, by decide +kernel, local_F18_RootPw⟩
    (local_cons ⟨_, by decide +kernel, local_FC3_SELinux⟩
    (local_cons ⟨_, by decide +kernel, local_FC6_Services⟩
    (local_cons ⟨_, by decide +kernel, local_F23_Reboot⟩
    (local_cons ⟨_, by decide +kernel, local_FC3_SkipX⟩
    (local_cons ⟨_, by decide +kernel, local_F26_Snapshot_F26_SnapshotData⟩
    (local_cons ⟨_, by decide +kernel, local_F24_SshPw_F24_SshPwData⟩
    (local_cons ⟨_, by decide +kernel, local_F22_SshKey_F22_SshKeyData⟩
    (local_cons ⟨_, by decide +kernel, local_F26_DisplayMode⟩
    (local_cons ⟨_, by decide +kernel, local_F33_Timezone⟩
    (local_cons ⟨_, by decide +kernel, local_F7_Updates⟩
    (local_cons ⟨_, by decide +kernel, local_F30_Url⟩
    (local_cons ⟨_, by decide +kernel, local_F24_User_F19_UserData⟩
    (local_cons ⟨_, by decide +kernel, local_F9_Vnc⟩
    (local_cons ⟨_, by decide +kernel, local_F21_VolGroup_F21_VolGroupData⟩
    (local_cons ⟨_, by decide +kernel, local_F14_XConfig⟩
    (local_cons ⟨_, by decide +kernel, local_F9_ZeroMbr⟩
    (local_cons ⟨_, by decide +kernel, local_F14_ZFCP_F14_ZFCPData⟩
    (local_cons ⟨_, by decide +kernel, local_F32_Zipl⟩ (List.forall_mem_nil _)))))))))))))))))))))))))))))))))))))))))))))))))))))))))))))))))))))))

theorem commandMapF34_local : ∀ x ∈ commandMapF34, ∃ a, attrName x.2.name = a ∧ Command.Local x.2 (looksAt a) := by
  unfold commandMapF34
  exact (local_cons ⟨_, by decide +kernel, local_F28_Authconfig⟩
    (local_cons ⟨_, by decide +kernel, local_F28_Authconfig⟩
    (local_cons ⟨_, by decide +kernel, local_F28_Authselect⟩
    (local_cons ⟨_, by decide +kernel, local_F29_AutoPart⟩
    (local_cons ⟨_, by decide +kernel, local_F34_AutoStep⟩
    (local_cons ⟨_, by decide +kernel, local_F34_Bootloader⟩
    (local_cons ⟨_, by decide +kernel, local_F23_BTRFS_F23_BTRFSData⟩
    (local_cons ⟨_, by decide +kernel, local_FC3_Cdrom⟩
    (local_cons ⟨_, by decide +kernel, local_F28_ClearPart⟩
    (local_cons ⟨_, by decide +kernel, local_F26_DisplayMode⟩
    (local_cons ⟨_, by decide +kernel, local_F34_Device⟩
    (local_cons ⟨_, by decide +kernel, local_F34_DeviceProbe⟩
    (local_cons ⟨_, by decide +kernel, local_F34_DmRaid⟩
    (local_cons ⟨_, by decide +kernel, local_F14_DriverDisk_F14_DriverDiskData⟩
    (local_cons ⟨_, by decide +kernel, local_F31_Module_F31_ModuleData⟩
    (local_cons ⟨_, by decide +kernel, local_F20_Eula⟩
    (local_cons ⟨_, by decide +kernel, local_F28_Fcoe_F28_FcoeData⟩
    (local_cons ⟨_, by decide +kernel, local_F28_Firewall⟩
    (local_cons ⟨_, by decide +kernel, local_FC3_Firstboot⟩
    (local_cons ⟨_, by decide +kernel, local_F26_DisplayMode⟩
    (local_cons ⟨_, by decide +kernel, local_F12_Group_F12_GroupData⟩
    (local_cons ⟨_, by decide +kernel, local_F23_Reboot⟩
    (local_cons ⟨_, by decide +kernel, local_F33_HardDrive⟩
    (local_cons ⟨_, by decide +kernel, local_F28_Hmc⟩
    (local_cons ⟨_, by decide +kernel, local_F34_IgnoreDisk⟩
    (local_cons ⟨_, by decide +kernel, local_F34_Install⟩
    (local_cons ⟨_, by decide +kernel, local_F17_Iscsi_F17_IscsiData⟩
    (local_cons ⟨_, by decide +kernel, local_FC6_IscsiName⟩
    (local_cons ⟨_, by decide +kernel, local_F18_Keyboard⟩
    (local_cons ⟨_, by decide +kernel, local_F19_Lang⟩
    (local_cons ⟨_, by decide +kernel, local_F19_Liveimg⟩
    (local_cons ⟨_, by decide +kernel, local_F34_Logging⟩
    (local_cons ⟨_, by decide +kernel, local_F29_LogVol_F29_LogVolData⟩
    (local_cons ⟨_, by decide +kernel, local_FC4_MediaCheck⟩
    (local_cons ⟨_, by decide +kernel, local_F34_Method⟩
    (local_cons ⟨_, by decide +kernel, local_F27_Mount_F27_MountData⟩
    (local_cons ⟨_, by decide +kernel, local_F34_MultiPath⟩
    (local_cons ⟨_, by decide +kernel, local_F27_Network_F27_NetworkData⟩
    (local_cons ⟨_, by decide +kernel, local_FC6_NFS⟩
    (local_cons ⟨_, by decide +kernel, local_F28_Nvdimm_F28_NvdimmData⟩
    (local_cons ⟨_, by decide +kernel, local_F33_Timesource_F33_TimesourceData⟩
    (local_cons ⟨_, by decide +kernel, local_F21_OSTreeSetup⟩
    (local_cons ⟨_, by decide +kernel, local_F34_Partition_F29_PartData⟩
    (local_cons ⟨_, by decide +kernel, local_F34_Partition_F29_PartData⟩
    (local_cons ⟨_, by decide +kernel, local_F23_Reboot⟩
    (local_cons ⟨_, by decide +kernel, local_F29_Raid_F29_RaidData⟩
    (local_cons ⟨_, by decide +kernel, local_F19_Realm⟩
    (local_cons ⟨_, by decide +kernel, local_F23_Reboot⟩
    (local_cons ⟨_, by decide +kernel, local_F33_Repo_F30_RepoData⟩
    (local_cons ⟨_, by decide +kernel, local_F23_ReqPart⟩
    (local_cons ⟨_, by decide +kernel, local_F10_Rescue⟩
    (local_cons ⟨_, by decide +kernel, local_F18_RootPw⟩
    (local_cons ⟨_, by decide +kernel, local_FC3_SELinux⟩
    (local_cons ⟨_, by decide +kernel, local_FC6_Services⟩
    (local_cons ⟨_, by decide +kernel, local_F23_Reboot⟩
    (local_cons ⟨_, by decide +kernel, local_FC3_SkipX⟩
    (local_cons ⟨_, by decide +kernel, local_F26_Snapshot_F26_SnapshotData⟩
    (local_cons ⟨_, by decide +kernel, local_F24_SshPw_F24_SshPwData⟩
    (local_cons ⟨_, by decide +kernel, local_F22_SshKey_F22_SshKeyData⟩
    (local_cons ⟨_, by decide +kernel, local_F26_DisplayMode⟩
    (local_cons ⟨_, by decide +kernel, local_F33_Timezone⟩
    (local_cons ⟨_, by decide +kernel, local_F34_Updates⟩
    (local_cons ⟨_, by decide +kernel, local_F30_Url⟩
    (local_cons ⟨_, by decide +kernel, local_F24_User_F19_UserData⟩
    (local_cons ⟨_, by decide +kernel, local_F9_Vnc⟩
    (local_cons ⟨_, by decide +kernel, local_F21_VolGroup_F21_VolGroupData⟩
    (local_cons ⟨_, by decide +kernel, local_F14_XConfig⟩
    (local_cons ⟨_, by decide +kernel, local_F9_ZeroMbr⟩
    (local_cons ⟨_, by decide +kernel, local_F14_ZFCP_F14_ZFCPData⟩
    (local_cons ⟨_, by decide +kernel, local_F32_Zipl⟩ (List.forall_mem_nil _)))))))))))))))))))))))))))))))))))))))))))))))))))))))))))))))))))))))

theorem commandMapF7_local : ∀ x ∈ commandMapF7, ∃ a, attrName x.2.name = a ∧ Command.Local x.2 (looksAt a) := by
  unfold commandMapF7
  exact (local_cons ⟨_, by decide +kernel, local_FC3_Authconfig⟩
    (local_cons ⟨_, by decide +kernel, local_FC3_Authconfig⟩
    (local_cons ⟨_, by decide +kernel, local_FC3_AutoPart⟩
    (local_cons ⟨_, by decide +kernel, local_FC3_AutoStep⟩
    (local_cons ⟨_, by decide +kernel, local_FC4_Bootloader⟩
    (local_cons ⟨_, by decide +kernel, local_FC3_Cdrom⟩
    (local_cons ⟨_, by decide +kernel, local_FC3_ClearPart⟩
    (local_cons ⟨_, by decide +kernel, local_FC3_DisplayMode⟩
    (local_cons ⟨_, by decide +kernel, local_FC3_Device⟩
    (local_cons ⟨_, by decide +kernel, local_FC3_DeviceProbe⟩
    (local_cons ⟨_, by decide +kernel, local_FC6_DmRaid_FC6_DmRaidData⟩
    (local_cons ⟨_, by decide +kernel, local_FC4_DriverDisk_FC4_DriverDiskData⟩
    (local_cons ⟨_, by decide +kernel, local_FC3_Firewall⟩
    (local_cons ⟨_, by decide +kernel, local_FC3_Firstboot⟩
    (local_cons ⟨_, by decide +kernel, local_FC3_DisplayMode⟩
    (local_cons ⟨_, by decide +kernel, local_FC6_Reboot⟩
    (local_cons ⟨_, by decide +kernel, local_FC3_HardDrive⟩
    (local_cons ⟨_, by decide +kernel, local_FC3_IgnoreDisk⟩
    (local_cons ⟨_, by decide +kernel, local_FC3_Upgrade⟩
    (local_cons ⟨_, by decide +kernel, local_FC3_Interactive⟩
    (local_cons ⟨_, by decide +kernel, local_FC6_Iscsi_FC6_IscsiData⟩
    (local_cons ⟨_, by decide +kernel, local_FC6_IscsiName⟩
    (local_cons ⟨_, by decide +kernel, local_FC3_Keyboard⟩
    (local_cons ⟨_, by decide +kernel, local_FC3_Lang⟩
    (local_cons ⟨_, by decide +kernel, local_F7_LangSupport⟩
    (local_cons ⟨_, by decide +kernel, local_FC6_Logging⟩
    (local_cons ⟨_, by decide +kernel, local_FC4_LogVol_FC4_LogVolData⟩
    (local_cons ⟨_, by decide +kernel, local_FC4_MediaCheck⟩
    (local_cons ⟨_, by decide +kernel, local_FC6_Method⟩
    (local_cons ⟨_, by decide +kernel, local_FC6_Monitor⟩
    (local_cons ⟨_, by decide +kernel, local_F7_Mouse⟩
    (local_cons ⟨_, by decide +kernel, local_FC6_MultiPath_FC6_MultiPathData⟩
    (local_cons ⟨_, by decide +kernel, local_FC6_Network_FC6_NetworkData⟩
    (local_cons ⟨_, by decide +kernel, local_FC6_NFS⟩
    (local_cons ⟨_, by decide +kernel, local_FC4_Partition_FC4_PartData⟩
    (local_cons ⟨_, by decide +kernel, local_FC4_Partition_FC4_PartData⟩
    (local_cons ⟨_, by decide +kernel, local_FC6_Reboot⟩
    (local_cons ⟨_, by decide +kernel, local_F7_Raid_F7_RaidData⟩
    (local_cons ⟨_, by decide +kernel, local_FC6_Reboot⟩
    (local_cons ⟨_, by decide +kernel, local_FC6_Repo_FC6_RepoData⟩
    (local_cons ⟨_, by decide +kernel, local_FC3_RootPw⟩
    (local_cons ⟨_, by decide +kernel, local_FC3_SELinux⟩
    (local_cons ⟨_, by decide +kernel, local_FC6_Services⟩
    (local_cons ⟨_, by decide +kernel, local_FC6_Reboot⟩
    (local_cons ⟨_, by decide +kernel, local_FC3_SkipX⟩
    (local_cons ⟨_, by decide +kernel, local_FC3_DisplayMode⟩
    (local_cons ⟨_, by decide +kernel, local_FC6_Timezone⟩
    (local_cons ⟨_, by decide +kernel, local_F7_Updates⟩
    (local_cons ⟨_, by decide +kernel, local_FC3_Upgrade⟩
    (local_cons ⟨_, by decide +kernel, local_FC3_Url⟩
    (local_cons ⟨_, by decide +kernel, local_FC6_User_FC6_UserData⟩
    (local_cons ⟨_, by decide +kernel, local_FC6_Vnc⟩
    (local_cons ⟨_, by decide +kernel, local_FC3_VolGroup_FC3_VolGroupData⟩
    (local_cons ⟨_, by decide +kernel, local_FC6_XConfig⟩
    (local_cons ⟨_, by decide +kernel, local_FC3_ZeroMbr⟩
    (local_cons ⟨_, by decide +kernel, local_FC3_ZFCP_FC3_ZFCPData⟩ (List.forall_mem_nil _)))))))))))))))))))))))))))))))))))))))))))))))))))))))))

theorem commandMapF8_local : ∀ x ∈ commandMapF8, ∃ a, attrName x.2.name = a ∧ Command.Local x.2 (looksAt a) := by
  unfold commandMapF8
  exact (local_cons ⟨_, by decide +kernel, local_FC3_Authconfig⟩
    (local_cons ⟨_, by decide +kernel, local_FC3_Authconfig⟩
    (local_cons ⟨_, by decide +kernel, local_FC3_AutoPart⟩
    (local_cons ⟨_, by decide +kernel, local_FC3_AutoStep⟩
    (local_cons ⟨_, by decide +kernel, local_F8_Bootloader⟩
    (local_cons ⟨_, by decide +kernel, local_FC3_Cdrom⟩
    (local_cons ⟨_, by decide +kernel, local_FC3_ClearPart⟩
    (local_cons ⟨_, by decide +kernel, local_FC3_DisplayMode⟩
    (local_cons ⟨_, by decide +kernel, local_F8_Device_F8_DeviceData⟩
    (local_cons ⟨_, by decide +kernel, local_FC3_DeviceProbe⟩
    (local_cons ⟨_, by decide +kernel, local_FC6_DmRaid_FC6_DmRaidData⟩
    (local_cons ⟨_, by decide +kernel, local_FC4_DriverDisk_FC4_DriverDiskData⟩
    (local_cons ⟨_, by decide +kernel, local_FC3_Firewall⟩
    (local_cons ⟨_, by decide +kernel, local_FC3_Firstboot⟩
    (local_cons ⟨_, by decide +kernel, local_FC3_DisplayMode⟩
    (local_cons ⟨_, by decide +kernel, local_FC6_Reboot⟩
    (local_cons ⟨_, by decide +kernel, local_FC3_HardDrive⟩
    (local_cons ⟨_, by decide +kernel, local_F8_IgnoreDisk⟩
    (local_cons ⟨_, by decide +kernel, local_FC3_Upgrade⟩
    (local_cons ⟨_, by decide +kernel, local_FC3_Interactive⟩
    (local_cons ⟨_, by decide +kernel, local_FC6_Iscsi_FC6_IscsiData⟩
    (local_cons ⟨_, by decide +kernel, local_FC6_IscsiName⟩
    (local_cons ⟨_, by decide +kernel, local_FC3_Keyboard⟩
    (local_cons ⟨_, by decide +kernel, local_FC3_Lang⟩
    (local_cons ⟨_, by decide +kernel, local_FC6_Logging⟩
    (local_cons ⟨_, by decide +kernel, local_FC4_LogVol_FC4_LogVolData⟩
    (local_cons ⟨_, by decide +kernel, local_FC4_MediaCheck⟩
    (local_cons ⟨_, by decide +kernel, local_FC6_Method⟩
    (local_cons ⟨_, by decide +kernel, local_FC6_Monitor⟩
    (local_cons ⟨_, by decide +kernel, local_FC6_MultiPath_FC6_MultiPathData⟩
    (local_cons ⟨_, by decide +kernel, local_F8_Network_F8_NetworkData⟩
    (local_cons ⟨_, by decide +kernel, local_FC6_NFS⟩
    (local_cons ⟨_, by decide +kernel, local_FC4_Partition_FC4_PartData⟩
    (local_cons ⟨_, by decide +kernel, local_FC4_Partition_FC4_PartData⟩
    (local_cons ⟨_, by decide +kernel, local_FC6_Reboot⟩
    (local_cons ⟨_, by decide +kernel, local_F7_Raid_F7_RaidData⟩
    (local_cons ⟨_, by decide +kernel, local_FC6_Reboot⟩
    (local_cons ⟨_, by decide +kernel, local_F8_Repo_F8_RepoData⟩
    (local_cons ⟨_, by decide +kernel, local_F8_RootPw⟩
    (local_cons ⟨_, by decide +kernel, local_FC3_SELinux⟩
    (local_cons ⟨_, by decide +kernel, local_FC6_Services⟩
    (local_cons ⟨_, by decide +kernel, local_FC6_Reboot⟩
    (local_cons ⟨_, by decide +kernel, local_FC3_SkipX⟩
    (local_cons ⟨_, by decide +kernel, local_FC3_DisplayMode⟩
    (local_cons ⟨_, by decide +kernel, local_FC6_Timezone⟩
    (local_cons ⟨_, by decide +kernel, local_F7_Updates⟩
    (local_cons ⟨_, by decide +kernel, local_FC3_Upgrade⟩
    (local_cons ⟨_, by decide +kernel, local_FC3_Url⟩
    (local_cons ⟨_, by decide +kernel, local_F8_User_F8_UserData⟩
    (local_cons ⟨_, by decide +kernel, local_FC6_Vnc⟩
    (local_cons ⟨_, by decide +kernel, local_FC3_VolGroup_FC3_VolGroupData⟩
    (local_cons ⟨_, by decide +kernel, local_FC6_XConfig⟩
    (local_cons ⟨_, by decide +kernel, local_FC3_ZeroMbr⟩
    (local_cons ⟨_, by decide +kernel, local_FC3_ZFCP_FC3_ZFCPData⟩ (List.forall_mem_nil _)))))))))))))))))))))))))))))))))))))))))))))))))))))))

theorem commandMapF9_local : ∀ x ∈ commandMapF9, ∃ a, attrName x.2.name = a ∧ Command.Local x.2 (looksAt a) := by
  unfold commandMapF9
  exact (local_cons ⟨_, by decide +kernel, local_FC3_Authconfig⟩
    (local_cons ⟨_, by decide +kernel, local_FC3_Authconfig⟩
    (local_cons ⟨_, by decide +kernel, local_F9_AutoPart⟩
    (local_cons ⟨_, by decide +kernel, local_FC3_AutoStep⟩
    (local_cons ⟨_, by decide +kernel, local_F8_Bootloader⟩
    (local_cons ⟨_, by decide +kernel, local_FC3_Cdrom⟩
    (local_cons ⟨_, by decide +kernel, local_FC3_ClearPart⟩
    (local_cons ⟨_, by decide +kernel, local_FC3_DisplayMode⟩
    (local_cons ⟨_, by decide +kernel, local_F8_Device_F8_DeviceData⟩
    (local_cons ⟨_, by decide +kernel, local_FC3_DeviceProbe⟩
    (local_cons ⟨_, by decide +kernel, local_FC6_DmRaid_FC6_DmRaidData⟩
    (local_cons ⟨_, by decide +kernel, local_FC4_DriverDisk_FC4_DriverDiskData⟩
    (local_cons ⟨_, by decide +kernel, local_F9_Firewall⟩
    (local_cons ⟨_, by decide +kernel, local_FC3_Firstboot⟩
    (local_cons ⟨_, by decide +kernel, local_FC3_DisplayMode⟩
    (local_cons ⟨_, by decide +kernel, local_FC6_Reboot⟩
    (local_cons ⟨_, by decide +kernel, local_FC3_HardDrive⟩
    (local_cons ⟨_, by decide +kernel, local_F8_IgnoreDisk⟩
    (local_cons ⟨_, by decide +kernel, local_FC3_Upgrade⟩
    (local_cons ⟨_, by decide +kernel, local_FC3_Interactive⟩
    (local_cons ⟨_, by decide +kernel, local_FC6_Iscsi_FC6_IscsiData⟩
    (local_cons ⟨_, by decide +kernel, local_FC6_IscsiName⟩
    (local_cons ⟨_, by decide +kernel, local_FC3_Keyboard⟩
    (local_cons ⟨_, by decide +kernel, local_FC3_Lang⟩
    (local_cons ⟨_, by decide +kernel, local_FC6_Logging⟩
    (local_cons ⟨_, by decide +kernel, local_F9_LogVol_F9_LogVolData⟩
    (local_cons ⟨_, by decide +kernel, local_FC4_MediaCheck⟩
    (local_cons ⟨_, by decide +kernel, local_FC6_Method⟩
    (local_cons ⟨_, by decide +kernel, local_FC6_Monitor⟩
    (local_cons ⟨_, by decide +kernel, local_FC6_MultiPath_FC6_MultiPathData⟩
    (local_cons ⟨_, by decide +kernel, local_F9_Network_F8_NetworkData⟩
    (local_cons ⟨_, by decide +kernel, local_FC6_NFS⟩
    (local_cons ⟨_, by decide +kernel, local_F9_Partition_F9_PartData⟩
    (local_cons ⟨_, by decide +kernel, local_F9_Partition_F9_PartData⟩
    (local_cons ⟨_, by decide +kernel, local_FC6_Reboot⟩
    (local_cons ⟨_, by decide +kernel, local_F9_Raid_F9_RaidData⟩
    (local_cons ⟨_, by decide +kernel, local_FC6_Reboot⟩
    (local_cons ⟨_, by decide +kernel, local_F8_Repo_F8_RepoData⟩
    (local_cons ⟨_, by decide +kernel, local_F8_RootPw⟩
    (local_cons ⟨_, by decide +kernel, local_FC3_SELinux⟩
    (local_cons ⟨_, by decide +kernel, local_FC6_Services⟩
    (local_cons ⟨_, by decide +kernel, local_FC6_Reboot⟩
    (local_cons ⟨_, by decide +kernel, local_FC3_SkipX⟩
    (local_cons ⟨_, by decide +kernel, local_FC3_DisplayMode⟩
    (local_cons ⟨_, by decide +kernel, local_FC6_Timezone⟩
    (local_cons ⟨_, by decide +kernel, local_F7_Updates⟩
    (local_cons ⟨_, by decide +kernel, local_FC3_Upgrade⟩
    (local_cons ⟨_, by decide +kernel, local_FC3_Url⟩
    (local_cons ⟨_, by decide +kernel, local_F8_User_F8_UserData⟩
    (local_cons ⟨_, by decide +kernel, local_F9_Vnc⟩
    (local_cons ⟨_, by decide +kernel, local_FC3_VolGroup_FC3_VolGroupData⟩
    (local_cons ⟨_, by decide +kernel, local_F9_XConfig⟩
    (local_cons ⟨_, by decide +kernel, local_F9_ZeroMbr⟩
    (local_cons ⟨_, by decide +kernel, local_FC3_ZFCP_FC3_ZFCPData⟩ (List.forall_mem_nil _)))))))))))))))))))))))))))))))))))))))))))))))))))))))

theorem commandMapFC3_local : ∀ x ∈ commandMapFC3, ∃ a, attrName x.2.name = a ∧ Command.Local x.2 (looksAt a) := by
  unfold commandMapFC3
  exact (local_cons ⟨_, by decide +kernel, local_FC3_Authconfig⟩
    (local_cons ⟨_, by decide +kernel, local_FC3_Authconfig⟩
    (local_cons ⟨_, by decide +kernel, local_FC3_AutoPart⟩
    (local_cons ⟨_, by decide +kernel, local_FC3_AutoStep⟩
    (local_cons ⟨_, by decide +kernel, local_FC3_Bootloader⟩
    (local_cons ⟨_, by decide +kernel, local_FC3_Cdrom⟩
    (local_cons ⟨_, by decide +kernel, local_FC3_ClearPart⟩
    (local_cons ⟨_, by decide +kernel, local_FC3_DisplayMode⟩
    (local_cons ⟨_, by decide +kernel, local_FC3_Device⟩
    (local_cons ⟨_, by decide +kernel, local_FC3_DeviceProbe⟩
    (local_cons ⟨_, by decide +kernel, local_FC3_DriverDisk_FC3_DriverDiskData⟩
    (local_cons ⟨_, by decide +kernel, local_FC3_Firewall⟩
    (local_cons ⟨_, by decide +kernel, local_FC3_Firstboot⟩
    (local_cons ⟨_, by decide +kernel, local_FC3_DisplayMode⟩
    (local_cons ⟨_, by decide +kernel, local_FC3_Reboot⟩
    (local_cons ⟨_, by decide +kernel, local_FC3_HardDrive⟩
    (local_cons ⟨_, by decide +kernel, local_FC3_IgnoreDisk⟩
    (local_cons ⟨_, by decide +kernel, local_FC3_Upgrade⟩
    (local_cons ⟨_, by decide +kernel, local_FC3_Interactive⟩
    (local_cons ⟨_, by decide +kernel, local_FC3_Keyboard⟩
    (local_cons ⟨_, by decide +kernel, local_FC3_Lang⟩
    (local_cons ⟨_, by decide +kernel, local_FC3_LangSupport⟩
    (local_cons ⟨_, by decide +kernel, local_FC3_Lilo⟩
    (local_cons ⟨_, by decide +kernel, local_FC3_LiloCheck⟩
    (local_cons ⟨_, by decide +kernel, local_FC3_LogVol_FC3_LogVolData⟩
    (local_cons ⟨_, by decide +kernel, local_FC3_Method⟩
    (local_cons ⟨_, by decide +kernel, local_FC3_Monitor⟩
    (local_cons ⟨_, by decide +kernel, local_FC3_Mouse⟩
    (local_cons ⟨_, by decide +kernel, local_FC3_Network_FC3_NetworkData⟩
    (local_cons ⟨_, by decide +kernel, local_FC3_NFS⟩
    (local_cons ⟨_, by decide +kernel, local_FC3_Partition_FC3_PartData⟩
    (local_cons ⟨_, by decide +kernel, local_FC3_Partition_FC3_PartData⟩
    (local_cons ⟨_, by decide +kernel, local_FC3_Reboot⟩
    (local_cons ⟨_, by decide +kernel, local_FC3_Raid_FC3_RaidData⟩
    (local_cons ⟨_, by decide +kernel, local_FC3_Reboot⟩
    (local_cons ⟨_, by decide +kernel, local_FC3_RootPw⟩
    (local_cons ⟨_, by decide +kernel, local_FC3_SELinux⟩
    (local_cons ⟨_, by decide +kernel, local_FC3_Reboot⟩
    (local_cons ⟨_, by decide +kernel, local_FC3_SkipX⟩
    (local_cons ⟨_, by decide +kernel, local_FC3_DisplayMode⟩
    (local_cons ⟨_, by decide +kernel, local_FC3_Timezone⟩
    (local_cons ⟨_, by decide +kernel, local_FC3_Upgrade⟩
    (local_cons ⟨_, by decide +kernel, local_FC3_Url⟩
    (local_cons ⟨_, by decide +kernel, local_FC3_Vnc⟩
    (local_cons ⟨_, by decide +kernel, local_FC3_VolGroup_FC3_VolGroupData⟩
    (local_cons ⟨_, by decide +kernel, local_FC3_XConfig⟩
    (local_cons ⟨_, by decide +kernel, local_FC3_ZeroMbr⟩
    (local_cons ⟨_, by decide +kernel, local_FC3_ZFCP_FC3_ZFCPData⟩ (List.forall_mem_nil _)))))))))))))))))))))))))))))))))))))))))))))))))

theorem commandMapFC4_local : ∀ x ∈ commandMapFC4, ∃ a, attrName x.2.name = a ∧ Command.Local x.2 (looksAt a) := by
  unfold commandMapFC4
  exact (local_cons ⟨_, by decide +kernel, local_FC3_Authconfig⟩
    (local_cons ⟨_, by decide +kernel, local_FC3_Authconfig⟩
    (local_cons ⟨_, by decide +kernel, local_FC3_AutoPart⟩
    (local_cons ⟨_, by decide +kernel, local_FC3_AutoStep⟩
    (local_cons ⟨_, by decide +kernel, local_FC4_Bootloader⟩
    (local_cons ⟨_, by decide +kernel, local_FC3_Cdrom⟩
    (local_cons ⟨_, by decide +kernel, local_FC3_ClearPart⟩
    (local_cons ⟨_, by decide +kernel, local_FC3_DisplayMode⟩
    (local_cons ⟨_, by decide +kernel, local_FC3_Device⟩
    (local_cons ⟨_, by decide +kernel, local_FC3_DeviceProbe⟩
    (local_cons ⟨_, by decide +kernel, local_FC4_DriverDisk_FC4_DriverDiskData⟩
    (local_cons ⟨_, by decide +kernel, local_FC3_Firewall⟩
    (local_cons ⟨_, by decide +kernel, local_FC3_Firstboot⟩
    (local_cons ⟨_, by decide +kernel, local_FC3_DisplayMode⟩
    (local_cons ⟨_, by decide +kernel, local_FC3_Reboot⟩
    (local_cons ⟨_, by decide +kernel, local_FC3_HardDrive⟩
    (local_cons ⟨_, by decide +kernel, local_FC3_IgnoreDisk⟩
    (local_cons ⟨_, by decide +kernel, local_FC3_Upgrade⟩
    (local_cons ⟨_, by decide +kernel, local_FC3_Interactive⟩
    (local_cons ⟨_, by decide +kernel, local_FC3_Keyboard⟩
    (local_cons ⟨_, by decide +kernel, local_FC3_Lang⟩
    (local_cons ⟨_, by decide +kernel, local_FC3_LangSupport⟩
    (local_cons ⟨_, by decide +kernel, local_FC4_Lilo⟩
    (local_cons ⟨_, by decide +kernel, local_FC4_LiloCheck⟩
    (local_cons ⟨_, by decide +kernel, local_FC4_LogVol_FC4_LogVolData⟩
    (local_cons ⟨_, by decide +kernel, local_FC4_MediaCheck⟩
    (local_cons ⟨_, by decide +kernel, local_FC3_Method⟩
    (local_cons ⟨_, by decide +kernel, local_FC3_Monitor⟩
    (local_cons ⟨_, by decide +kernel, local_FC3_Mouse⟩
    (local_cons ⟨_, by decide +kernel, local_FC4_Network_FC4_NetworkData⟩
    (local_cons ⟨_, by decide +kernel, local_FC3_NFS⟩
    (local_cons ⟨_, by decide +kernel, local_FC4_Partition_FC4_PartData⟩
    (local_cons ⟨_, by decide +kernel, local_FC4_Partition_FC4_PartData⟩
    (local_cons ⟨_, by decide +kernel, local_FC3_Reboot⟩
    (local_cons ⟨_, by decide +kernel, local_FC4_Raid_FC4_RaidData⟩
    (local_cons ⟨_, by decide +kernel, local_FC3_Reboot⟩
    (local_cons ⟨_, by decide +kernel, local_FC3_RootPw⟩
    (local_cons ⟨_, by decide +kernel, local_FC3_SELinux⟩
    (local_cons ⟨_, by decide +kernel, local_FC3_Reboot⟩
    (local_cons ⟨_, by decide +kernel, local_FC3_SkipX⟩
    (local_cons ⟨_, by decide +kernel, local_FC3_DisplayMode⟩
    (local_cons ⟨_, by decide +kernel, local_FC3_Timezone⟩
    (local_cons ⟨_, by decide +kernel, local_FC3_Upgrade⟩
    (local_cons ⟨_, by decide +kernel, local_FC3_Url⟩
    (local_cons ⟨_, by decide +kernel, local_FC3_Vnc⟩
    (local_cons ⟨_, by decide +kernel, local_FC3_VolGroup_FC3_VolGroupData⟩
    (local_cons ⟨_, by decide +kernel, local_FC3_XConfig⟩
    (local_cons ⟨_, by decide +kernel, local_FC3_ZeroMbr⟩
    (local_cons ⟨_, by decide +kernel, local_FC3_ZFCP_FC3_ZFCPData⟩ (List.forall_mem_nil _))))))))))))))))))))))))))))))))))))))))))))))))))

theorem commandMapFC5_local : ∀ x ∈ commandMapFC5, ∃ a, attrName x.2.name = a ∧ Command.Local x.2 (looksAt a) := by
  unfold commandMapFC5
  exact (local_cons ⟨_, by decide +kernel, local_FC3_Authconfig⟩
    (local_cons ⟨_, by decide +kernel, local_FC3_Authconfig⟩
    (local_cons ⟨_, by decide +kernel, local_FC3_AutoPart⟩
    (local_cons ⟨_, by decide +kernel, local_FC3_AutoStep⟩
    (local_cons ⟨_, by decide +kernel, local_FC4_Bootloader⟩
    (local_cons ⟨_, by decide +kernel, local_FC3_Cdrom⟩
    (local_cons ⟨_, by decide +kernel, local_FC3_ClearPart⟩
    (local_cons ⟨_, by decide +kernel, local_FC3_DisplayMode⟩
    (local_cons ⟨_, by decide +kernel, local_FC3_Device⟩
    (local_cons ⟨_, by decide +kernel, local_FC3_DeviceProbe⟩
    (local_cons ⟨_, by decide +kernel, local_FC4_DriverDisk_FC4_DriverDiskData⟩
    (local_cons ⟨_, by decide +kernel, local_FC3_Firewall⟩
    (local_cons ⟨_, by decide +kernel, local_FC3_Firstboot⟩
    (local_cons ⟨_, by decide +kernel, local_FC3_DisplayMode⟩
    (local_cons ⟨_, by decide +kernel, local_FC3_Reboot⟩
    (local_cons ⟨_, by decide +kernel, local_FC3_HardDrive⟩
    (local_cons ⟨_, by decide +kernel, local_FC3_IgnoreDisk⟩
    (local_cons ⟨_, by decide +kernel, local_FC3_Upgrade⟩
    (local_cons ⟨_, by decide +kernel, local_FC3_Interactive⟩
    (local_cons ⟨_, by decide +kernel, local_FC3_Keyboard⟩
    (local_cons ⟨_, by decide +kernel, local_FC3_Lang⟩
    (local_cons ⟨_, by decide +kernel, local_FC5_LangSupport⟩
    (local_cons ⟨_, by decide +kernel, local_FC4_LogVol_FC4_LogVolData⟩
    (local_cons ⟨_, by decide +kernel, local_FC4_MediaCheck⟩
    (local_cons ⟨_, by decide +kernel, local_FC3_Method⟩
    (local_cons ⟨_, by decide +kernel, local_FC3_Monitor⟩
    (local_cons ⟨_, by decide +kernel, local_FC3_Mouse⟩
    (local_cons ⟨_, by decide +kernel, local_FC4_Network_FC4_NetworkData⟩
    (local_cons ⟨_, by decide +kernel, local_FC3_NFS⟩
    (local_cons ⟨_, by decide +kernel, local_FC4_Partition_FC4_PartData⟩
    (local_cons ⟨_, by decide +kernel, local_FC4_Partition_FC4_PartData⟩
    (local_cons ⟨_, by decide +kernel, local_FC3_Reboot⟩
    (local_cons ⟨_, by decide +kernel, local_FC5_Raid_FC5_RaidData⟩
    (local_cons ⟨_, by decide +kernel, local_FC3_Reboot⟩
    (local_cons ⟨_, by decide +kernel, local_FC3_RootPw⟩
    (local_cons ⟨_, by decide +kernel, local_FC3_SELinux⟩
    (local_cons ⟨_, by decide +kernel, local_FC3_Reboot⟩
    (local_cons ⟨_, by decide +kernel, local_FC3_SkipX⟩
    (local_cons ⟨_, by decide +kernel, local_FC3_DisplayMode⟩
    (local_cons ⟨_, by decide +kernel, local_FC3_Timezone⟩
    (local_cons ⟨_, by decide +kernel, local_FC3_Upgrade⟩
    (local_cons ⟨_, by decide +kernel, local_FC3_Url⟩
    (local_cons ⟨_, by decide +kernel, local_FC3_Vnc⟩
    (local_cons ⟨_, by decide +kernel, local_FC3_VolGroup_FC3_VolGroupData⟩
    (local_cons ⟨_, by decide +kernel, local_FC3_XConfig⟩
    (local_cons ⟨_, by decide +kernel, local_FC3_ZeroMbr⟩
    (local_cons ⟨_, by decide +kernel, local_FC3_ZFCP_FC3_ZFCPData⟩ (List.forall_mem_nil _))))))))))))))))))))))))))))))))))))))))))))))))

theorem commandMapFC6_local : ∀ x ∈ commandMapFC6, ∃ a, attrName x.2.name = a ∧ Command.Local x.2 (looksAt a) := by
  unfold commandMapFC6
  exact (local_cons ⟨_, by decide +kernel, local_FC3_Authconfig⟩
    (local_cons ⟨_, by decide +kernel, local_FC3_Authconfig⟩
    (local_cons ⟨_, by decide +kernel, local_FC3_AutoPart⟩
    (local_cons ⟨_, by decide +kernel, local_FC3_AutoStep⟩
    (local_cons ⟨_, by decide +kernel, local_FC4_Bootloader⟩
    (local_cons ⟨_, by decide +kernel, local_FC3_Cdrom⟩
    (local_cons ⟨_, by decide +kernel, local_FC3_ClearPart⟩
    (local_cons ⟨_, by decide +kernel, local_FC3_DisplayMode⟩
    (local_cons ⟨_, by decide +kernel, local_FC3_Device⟩
    (local_cons ⟨_, by decide +kernel, local_FC3_DeviceProbe⟩
    (local_cons ⟨_, by decide +kernel, local_FC6_DmRaid_FC6_DmRaidData⟩
    (local_cons ⟨_, by decide +kernel, local_FC4_DriverDisk_FC4_DriverDiskData⟩
    (local_cons ⟨_, by decide +kernel, local_FC3_Firewall⟩
    (local_cons ⟨_, by decide +kernel, local_FC3_Firstboot⟩
    (local_cons ⟨_, by decide +kernel, local_FC3_DisplayMode⟩
    (local_cons ⟨_, by decide +kernel, local_FC6_Reboot⟩
    (local_cons ⟨_, by decide +kernel, local_FC3_HardDrive⟩
    (local_cons ⟨_, by decide +kernel, local_FC3_IgnoreDisk⟩
    (local_cons ⟨_, by decide +kernel, local_FC3_Upgrade⟩
    (local_cons ⟨_, by decide +kernel, local_FC3_Interactive⟩
    (local_cons ⟨_, by decide +kernel, local_FC6_Iscsi_FC6_IscsiData⟩
    (local_cons ⟨_, by decide +kernel, local_FC6_IscsiName⟩
    (local_cons ⟨_, by decide +kernel, local_FC3_Keyboard⟩
    (local_cons ⟨_, by decide +kernel, local_FC3_Lang⟩
    (local_cons ⟨_, by decide +kernel, local_FC5_LangSupport⟩
    (local_cons ⟨_, by decide +kernel, local_FC6_Logging⟩
    (local_cons ⟨_, by decide +kernel, local_FC4_LogVol_FC4_LogVolData⟩
    (local_cons ⟨_, by decide +kernel, local_FC4_MediaCheck⟩
    (local_cons ⟨_, by decide +kernel, local_FC6_Method⟩
    (local_cons ⟨_, by decide +kernel, local_FC6_Monitor⟩
    (local_cons ⟨_, by decide +kernel, local_FC3_Mouse⟩
    (local_cons ⟨_, by decide +kernel, local_FC6_MultiPath_FC6_MultiPathData⟩
    (local_cons ⟨_, by decide +kernel, local_FC6_Network_FC6_NetworkData⟩
    (local_cons ⟨_, by decide +kernel, local_FC6_NFS⟩
    (local_cons ⟨_, by decide +kernel, local_FC4_Partition_FC4_PartData⟩
    (local_cons ⟨_, by decide +kernel, local_FC4_Partition_FC4_PartData⟩
    (local_cons ⟨_, by decide +kernel, local_FC6_Reboot⟩
    (local_cons ⟨_, by decide +kernel, local_FC5_Raid_FC5_RaidData⟩
    (local_cons ⟨_, by decide +kernel, local_FC6_Reboot⟩
    (local_cons ⟨_, by decide +kernel, local_FC6_Repo_FC6_RepoData⟩
    (local_cons ⟨_, by decide +kernel, local_FC3_RootPw⟩
    (local_cons ⟨_, by decide +kernel, local_FC3_SELinux⟩
    (local_cons ⟨_, by decide +kernel, local_FC6_Services⟩
    (local_cons ⟨_, by decide +kernel, local_FC6_Reboot⟩
    (local_cons ⟨_, by decide +kernel, local_FC3_SkipX⟩
    (local_cons ⟨_, by decide +kernel, local_FC3_DisplayMode⟩
    (local_cons ⟨_, by decide +kernel, local_FC6_Timezone⟩
    (local_cons ⟨_, by decide +kernel, local_FC3_Upgrade⟩
    (local_cons ⟨_, by decide +kernel, local_FC6_User_FC6_UserData⟩
    (local_cons ⟨_, by decide +kernel, local_FC3_Url⟩
    (local_cons ⟨_, by decide +kernel, local_FC6_Vnc⟩
    (local_cons ⟨_, by decide +kernel, local_FC3_VolGroup_FC3_VolGroupData⟩
    (local_cons ⟨_, by decide +kernel, local_FC6_XConfig⟩
    (local_cons ⟨_, by decide +kernel, local_FC3_ZeroMbr⟩
    (local_cons ⟨_, by decide +kernel, local_FC3_ZFCP_FC3_ZFCPData⟩ (List.forall_mem_nil _))))))))))))))))))))))))))))))))))))))))))))))))))))))))

theorem commandMapRHEL3_local : ∀ x ∈ commandMapRHEL3, ∃ a, attrName x.2.name = a ∧ Command.Local x.2 (looksAt a) := by
  unfold commandMapRHEL3
  exact (local_cons ⟨_, by decide +kernel, local_FC3_Authconfig⟩
    (local_cons ⟨_, by decide +kernel, local_FC3_Authconfig⟩
    (local_cons ⟨_, by decide +kernel, local_FC3_AutoPart⟩
    (local_cons ⟨_, by decide +kernel, local_FC3_AutoStep⟩
    (local_cons ⟨_, by decide +kernel, local_FC3_Bootloader⟩
    (local_cons ⟨_, by decide +kernel, local_FC3_Cdrom⟩
    (local_cons ⟨_, by decide +kernel, local_FC3_ClearPart⟩
    (local_cons ⟨_, by decide +kernel, local_FC3_DisplayMode⟩
    (local_cons ⟨_, by decide +kernel, local_FC3_Device⟩
    (local_cons ⟨_, by decide +kernel, local_FC3_DeviceProbe⟩
    (local_cons ⟨_, by decide +kernel, local_FC3_DriverDisk_FC3_DriverDiskData⟩
    (local_cons ⟨_, by decide +kernel, local_FC3_Firewall⟩
    (local_cons ⟨_, by decide +kernel, local_FC3_Firstboot⟩
    (local_cons ⟨_, by decide +kernel, local_FC3_DisplayMode⟩
    (local_cons ⟨_, by decide +kernel, local_FC3_Reboot⟩
    (local_cons ⟨_, by decide +kernel, local_FC3_HardDrive⟩
    (local_cons ⟨_, by decide +kernel, local_FC3_IgnoreDisk⟩
    (local_cons ⟨_, by decide +kernel, local_FC3_Upgrade⟩
    (local_cons ⟨_, by decide +kernel, local_FC3_Interactive⟩
    (local_cons ⟨_, by decide +kernel, local_FC3_Keyboard⟩
    (local_cons ⟨_, by decide +kernel, local_FC3_Lang⟩
    (local_cons ⟨_, by decide +kernel, local_FC3_LangSupport⟩
    (local_cons ⟨_, by decide +kernel, local_FC3_Lilo⟩
    (local_cons ⟨_, by decide +kernel, local_FC3_LiloCheck⟩
    (local_cons ⟨_, by decide +kernel, local_FC3_LogVol_FC3_LogVolData⟩
    (local_cons ⟨_, by decide +kernel, local_FC3_Method⟩
    (local_cons ⟨_, by decide +kernel, local_FC3_Monitor⟩
    (local_cons ⟨_, by decide +kernel, local_RHEL3_Mouse⟩
    (local_cons ⟨_, by decide +kernel, local_FC3_Network_RHEL4_NetworkData⟩
    (local_cons ⟨_, by decide +kernel, local_FC3_NFS⟩
    (local_cons ⟨_, by decide +kernel, local_FC3_Partition_FC3_PartData⟩
    (local_cons ⟨_, by decide +kernel, local_FC3_Partition_FC3_PartData⟩
    (local_cons ⟨_, by decide +kernel, local_FC3_Reboot⟩
    (local_cons ⟨_, by decide +kernel, local_FC3_Raid_FC3_RaidData⟩
    (local_cons ⟨_, by decide +kernel, local_FC3_Reboot⟩
    (local_cons ⟨_, by decide +kernel, local_FC3_RootPw⟩
    (local_cons ⟨_, by decide +kernel, local_FC3_Reboot⟩
    (local_cons ⟨_, by decide +kernel, local_FC3_SkipX⟩
    (local_cons ⟨_, by decide +kernel, local_FC3_DisplayMode⟩
    (local_cons ⟨_, by decide +kernel, local_FC3_Timezone⟩
    (local_cons ⟨_, by decide +kernel, local_FC3_Upgrade⟩
    (local_cons ⟨_, by decide +kernel, local_FC3_Url⟩
    (local_cons ⟨_, by decide +kernel, local_FC3_Vnc⟩
    (local_cons ⟨_, by decide +kernel, local_FC3_VolGroup_FC3_VolGroupData⟩
    (local_cons ⟨_, by decide +kernel, local_FC3_XConfig⟩
    (local_cons ⟨_, by decide +kernel, local_FC3_ZeroMbr⟩ (List.forall_mem_nil _)))))))))))))))))))))))))))))))))))))))))))))))

theorem commandMapRHEL4_local : ∀ x ∈ commandMapRHEL4, ∃ a, attrName x.2.name = a ∧ Command.Local x.2 (looksAt a) := by
  unfold commandMapRHEL4
  exact (local_cons ⟨_, by decide +kernel, local_FC3_Authconfig⟩
    (local_cons ⟨_, by decide +kernel, local_FC3_Authconfig⟩
    (local_cons ⟨_, by decide +kernel, local_FC3_AutoPart⟩
    (local_cons ⟨_, by decide +kernel, local_FC3_AutoStep⟩
    (local_cons ⟨_, by decide +kernel, local_FC3_Bootloader⟩
    (local_cons ⟨_, by decide +kernel, local_FC3_Cdrom⟩
    (local_cons ⟨_, by decide +kernel, local_FC3_ClearPart⟩
    (local_cons ⟨_, by decide +kernel, local_FC3_DisplayMode⟩
    (local_cons ⟨_, by decide +kernel, local_FC3_Device⟩
    (local_cons ⟨_, by decide +kernel, local_FC3_DeviceProbe⟩
    (local_cons ⟨_, by decide +kernel, local_FC4_DriverDisk_FC4_DriverDiskData⟩
    (local_cons ⟨_, by decide +kernel, local_FC3_Firewall⟩
    (local_cons ⟨_, by decide +kernel, local_FC3_Firstboot⟩
    (local_cons ⟨_, by decide +kernel, local_FC3_DisplayMode⟩
    (local_cons ⟨_, by decide +kernel, local_FC3_Reboot⟩
    (local_cons ⟨_, by decide +kernel, local_FC3_HardDrive⟩
    (local_cons ⟨_, by decide +kernel, local_F8_IgnoreDisk⟩
    (local_cons ⟨_, by decide +kernel, local_FC3_Upgrade⟩
    (local_cons ⟨_, by decide +kernel, local_FC3_Interactive⟩
    (local_cons ⟨_, by decide +kernel, local_FC3_Keyboard⟩
    (local_cons ⟨_, by decide +kernel, local_FC3_Lang⟩
    (local_cons ⟨_, by decide +kernel, local_FC3_LangSupport⟩
    (local_cons ⟨_, by decide +kernel, local_FC3_Lilo⟩
    (local_cons ⟨_, by decide +kernel, local_FC3_LiloCheck⟩
    (local_cons ⟨_, by decide +kernel, local_FC3_LogVol_FC3_LogVolData⟩
    (local_cons ⟨_, by decide +kernel, local_FC3_Method⟩
    (local_cons ⟨_, by decide +kernel, local_FC3_Monitor⟩
    (local_cons ⟨_, by decide +kernel, local_FC3_Mouse⟩
    (local_cons ⟨_, by decide +kernel, local_RHEL4_Network_RHEL4_NetworkData⟩
    (local_cons ⟨_, by decide +kernel, local_FC3_NFS⟩
    (local_cons ⟨_, by decide +kernel, local_FC3_Partition_FC3_PartData⟩
    (local_cons ⟨_, by decide +kernel, local_FC3_Partition_FC3_PartData⟩
    (local_cons ⟨_, by decide +kernel, local_FC3_Reboot⟩
    (local_cons ⟨_, by decide +kernel, local_FC3_Raid_FC3_RaidData⟩
    (local_cons ⟨_, by decide +kernel, local_FC3_Reboot⟩
    (local_cons ⟨_, by decide +kernel, local_FC3_RootPw⟩
    (local_cons ⟨_, by decide +kernel, local_FC3_SELinux⟩
    (local_cons ⟨_, by decide +kernel, local_FC3_Reboot⟩
    (local_cons ⟨_, by decide +kernel, local_FC3_SkipX⟩
    (local_cons ⟨_, by decide +kernel, local_FC3_DisplayMode⟩
    (local_cons ⟨_, by decide +kernel, local_FC3_Timezone⟩
    (local_cons ⟨_, by decide +kernel, local_FC3_Upgrade⟩
    (local_cons ⟨_, by decide +kernel, local_FC3_Url⟩
    (local_cons ⟨_, by decide +kernel, local_FC3_Vnc⟩
    (local_cons ⟨_, by decide +kernel, local_FC3_VolGroup_FC3_VolGroupData⟩
    (local_cons ⟨_, by decide +kernel, local_FC3_XConfig⟩
    (local_cons ⟨_, by decide +kernel, local_FC3_ZeroMbr⟩
    (local_cons ⟨_, by decide +kernel, local_FC3_ZFCP_FC3_ZFCPData⟩ (List.forall_mem_nil _)))))))))))))))))))))))))))))))))))))))))))))))))

theorem commandMapRHEL5_local : ∀ x ∈ commandMapRHEL5, ∃ a, attrName x.2.name = a ∧ Command.Local x.2 (looksAt a) := by
  unfold commandMapRHEL5
  exact (local_cons ⟨_, by decide +kernel, local_FC3_Authconfig⟩
    (local_cons ⟨_, by decide +kernel, local_FC3_Authconfig⟩
    (local_cons ⟨_, by decide +kernel, local_F9_AutoPart⟩
    (local_cons ⟨_, by decide +kernel, local_FC3_AutoStep⟩
    (local_cons ⟨_, by decide +kernel, local_RHEL5_Bootloader⟩
    (local_cons ⟨_, by decide +kernel, local_FC3_Cdrom⟩
    (local_cons ⟨_, by decide +kernel, local_FC3_ClearPart⟩
    (local_cons ⟨_, by decide +kernel, local_FC3_DisplayMode⟩
    (local_cons ⟨_, by decide +kernel, local_FC3_Device⟩
    (local_cons ⟨_, by decide +kernel, local_FC3_DeviceProbe⟩
    (local_cons ⟨_, by decide +kernel, local_FC6_DmRaid_FC6_DmRaidData⟩
    (local_cons ⟨_, by decide +kernel, local_F12_DriverDisk_F12_DriverDiskData⟩
    (local_cons ⟨_, by decide +kernel, local_FC3_Firewall⟩
    (local_cons ⟨_, by decide +kernel, local_FC3_Firstboot⟩
    (local_cons ⟨_, by decide +kernel, local_FC3_DisplayMode⟩
    (local_cons ⟨_, by decide +kernel, local_FC6_Reboot⟩
    (local_cons ⟨_, by decide +kernel, local_FC3_HardDrive⟩
    (local_cons ⟨_, by decide +kernel, local_F8_IgnoreDisk⟩
    (local_cons ⟨_, by decide +kernel, local_FC3_Upgrade⟩
    (local_cons ⟨_, by decide +kernel, local_FC3_Interactive⟩
    (local_cons ⟨_, by decide +kernel, local_FC6_Iscsi_FC6_IscsiData⟩
    (local_cons ⟨_, by decide +kernel, local_FC6_IscsiName⟩
    (local_cons ⟨_, by decide +kernel, local_RHEL5_Key⟩
    (local_cons ⟨_, by decide +kernel, local_FC3_Keyboard⟩
    (local_cons ⟨_, by decide +kernel, local_FC3_Lang⟩
    (local_cons ⟨_, by decide +kernel, local_FC5_LangSupport⟩
    (local_cons ⟨_, by decide +kernel, local_FC6_Logging⟩
    (local_cons ⟨_, by decide +kernel, local_RHEL5_LogVol_RHEL5_LogVolData⟩
    (local_cons ⟨_, by decide +kernel, local_FC4_MediaCheck⟩
    (local_cons ⟨_, by decide +kernel, local_FC6_Method⟩
    (local_cons ⟨_, by decide +kernel, local_FC6_Monitor⟩
    (local_cons ⟨_, by decide +kernel, local_FC3_Mouse⟩
    (local_cons ⟨_, by decide +kernel, local_FC6_MultiPath_FC6_MultiPathData⟩
    (local_cons ⟨_, by decide +kernel, local_RHEL5_Network_FC6_NetworkData⟩
    (local_cons ⟨_, by decide +kernel, local_FC6_NFS⟩
    (local_cons ⟨_, by decide +kernel, local_RHEL5_Partition_RHEL5_PartData⟩
    (local_cons ⟨_, by decide +kernel, local_RHEL5_Partition_RHEL5_PartData⟩
    (local_cons ⟨_, by decide +kernel, local_FC6_Reboot⟩
    (local_cons ⟨_, by decide +kernel, local_RHEL5_Raid_RHEL5_RaidData⟩
    (local_cons ⟨_, by decide +kernel, local_FC6_Reboot⟩
    (local_cons ⟨_, by decide +kernel, local_FC6_Repo_FC6_RepoData⟩
    (local_cons ⟨_, by decide +kernel, local_FC3_RootPw⟩
    (local_cons ⟨_, by decide +kernel, local_FC6_Services⟩
    (local_cons ⟨_, by decide +kernel, local_FC3_SELinux⟩
    (local_cons ⟨_, by decide +kernel, local_FC6_Reboot⟩
    (local_cons ⟨_, by decide +kernel, local_FC3_SkipX⟩
    (local_cons ⟨_, by decide +kernel, local_FC3_DisplayMode⟩
    (local_cons ⟨_, by decide +kernel, local_FC6_Timezone⟩
    (local_cons ⟨_, by decide +kernel, local_FC3_Upgrade⟩
    (local_cons ⟨_, by decide +kernel, local_FC6_User_FC6_UserData⟩
    (local_cons ⟨_, by decide +kernel, local_FC3_Url⟩
    (local_cons ⟨_, by decide +kernel, local_FC6_Vnc⟩
    (local_cons ⟨_, by decide +kernel, local_FC3_VolGroup_FC3_VolGroupData⟩
    (local_cons ⟨_, by decide +kernel, local_FC6_XConfig⟩
    (local_cons ⟨_, by decide +kernel, local_FC3_ZeroMbr⟩
    (local_cons ⟨_, by decide +kernel, local_FC3_ZFCP_FC3_ZFCPData⟩ (List.forall_mem_nil _)))))))))))))))))))))))))))))))))))))))))))))))))))))))))

theorem commandMapRHEL6_local : ∀ x ∈ commandMapRHEL6, ∃ a, attrName x.2.name = a ∧ Command.Local x.2 (looksAt a) := by
  unfold commandMapRHEL6
  exact (local_cons ⟨_, by decide +kernel, local_FC3_Authconfig⟩
    (local_cons ⟨_, by decide +kernel, local_FC3_Authconfig⟩
    (local_cons ⟨_, by decide +kernel, local_RHEL6_AutoPart⟩
    (local_cons ⟨_, by decide +kernel, local_FC3_AutoStep⟩
    (local_cons ⟨_, by decide +kernel, local_RHEL6_Bootloader⟩
    (local_cons ⟨_, by decide +kernel, local_FC3_Cdrom⟩
    (local_cons ⟨_, by decide +kernel, local_FC3_ClearPart⟩
    (local_cons ⟨_, by decide +kernel, local_FC3_DisplayMode⟩
    (local_cons ⟨_, by decide +kernel, local_F8_Device_F8_DeviceData⟩
    (local_cons ⟨_, by decide +kernel, local_FC3_DeviceProbe⟩
    (local_cons ⟨_, by decide +kernel, local_FC6_DmRaid_FC6_DmRaidData⟩
    (local_cons ⟨_, by decide +kernel, local_F12_DriverDisk_F12_DriverDiskData⟩
    (local_cons ⟨_, by decide +kernel, local_F13_Fcoe_F13_FcoeData⟩
    (local_cons ⟨_, by decide +kernel, local_F10_Firewall⟩
    (local_cons ⟨_, by decide +kernel, local_FC3_Firstboot⟩
    (local_cons ⟨_, by decide +kernel, local_FC3_DisplayMode⟩
    (local_cons ⟨_, by decide +kernel, local_F12_Group_F12_GroupData⟩
    (local_cons ⟨_, by decide +kernel, local_FC6_Reboot⟩
    (local_cons ⟨_, by decide +kernel, local_FC3_HardDrive⟩
    (local_cons ⟨_, by decide +kernel, local_RHEL6_IgnoreDisk⟩
    (local_cons ⟨_, by decide +kernel, local_F11_Upgrade⟩
    (local_cons ⟨_, by decide +kernel, local_FC3_Interactive⟩
    (local_cons ⟨_, by decide +kernel, local_RHEL6_Iscsi_RHEL6_IscsiData⟩
    (local_cons ⟨_, by decide +kernel, local_FC6_IscsiName⟩
    (local_cons ⟨_, by decide +kernel, local_RHEL5_Key⟩
    (local_cons ⟨_, by decide +kernel, local_FC3_Keyboard⟩
    (local_cons ⟨_, by decide +kernel, local_FC3_Lang⟩
    (local_cons ⟨_, by decide +kernel, local_FC6_Logging⟩
    (local_cons ⟨_, by decide +kernel, local_RHEL6_LogVol_RHEL6_LogVolData⟩
    (local_cons ⟨_, by decide +kernel, local_FC4_MediaCheck⟩
    (local_cons ⟨_, by decide +kernel, local_RHEL6_Method⟩
    (local_cons ⟨_, by decide +kernel, local_F10_Monitor⟩
    (local_cons ⟨_, by decide +kernel, local_FC6_MultiPath_FC6_MultiPathData⟩
    (local_cons ⟨_, by decide +kernel, local_RHEL6_Network_RHEL6_NetworkData⟩
    (local_cons ⟨_, by decide +kernel, local_FC6_NFS⟩
    (local_cons ⟨_, by decide +kernel, local_RHEL6_Partition_RHEL6_PartData⟩
    (local_cons ⟨_, by decide +kernel, local_RHEL6_Partition_RHEL6_PartData⟩
    (local_cons ⟨_, by decide +kernel, local_FC6_Reboot⟩
    (local_cons ⟨_, by decide +kernel, local_RHEL6_Raid_RHEL6_RaidData⟩
    (local_cons ⟨_, by decide +kernel, local_FC6_Reboot⟩
    (local_cons ⟨_, by decide +kernel, local_RHEL6_Repo_RHEL6_RepoData⟩
    (local_cons ⟨_, by decide +kernel, local_F10_Rescue⟩
    (local_cons ⟨_, by decide +kernel, local_F8_RootPw⟩
    (local_cons ⟨_, by decide +kernel, local_FC3_SELinux⟩
    (local_cons ⟨_, by decide +kernel, local_FC6_Services⟩
    (local_cons ⟨_, by decide +kernel, local_FC6_Reboot⟩
    (local_cons ⟨_, by decide +kernel, local_FC3_SkipX⟩
    (local_cons ⟨_, by decide +kernel, local_F13_SshPw_F13_SshPwData⟩
    (local_cons ⟨_, by decide +kernel, local_FC3_DisplayMode⟩
    (local_cons ⟨_, by decide +kernel, local_FC6_Timezone⟩
    (local_cons ⟨_, by decide +kernel, local_RHEL6_UnsupportedHardware⟩
    (local_cons ⟨_, by decide +kernel, local_F7_Updates⟩
    (local_cons ⟨_, by decide +kernel, local_F11_Upgrade⟩
    (local_cons ⟨_, by decide +kernel, local_RHEL6_Url⟩
    (local_cons ⟨_, by decide +kernel, local_F12_User_F12_UserData⟩
    (local_cons ⟨_, by decide +kernel, local_F9_Vnc⟩
    (local_cons ⟨_, by decide +kernel, local_F16_VolGroup_F16_VolGroupData⟩
    (local_cons ⟨_, by decide +kernel, local_F10_XConfig⟩
    (local_cons ⟨_, by decide +kernel, local_F9_ZeroMbr⟩
    (local_cons ⟨_, by decide +kernel, local_F12_ZFCP_F12_ZFCPData⟩ (List.forall_mem_nil _)))))))))))))))))))))))))))))))))))))))))))))))))))))))))))))

theorem commandMapRHEL7_local : ∀ x ∈ commandMapRHEL7, ∃ a, attrName x.2.name = a ∧ Command.Local x.2 (looksAt a) := by
  unfold commandMapRHEL7
  exact (local_cons ⟨_, by decide +kernel, local_FC3_Authconfig⟩
    (local_cons ⟨_, by decide +kernel, local_FC3_Authconfig⟩
    (local_cons ⟨_, by decide +kernel, local_RHEL7_AutoPart⟩
    (local_cons ⟨_, by decide +kernel, local_FC3_AutoStep⟩
    (local_cons ⟨_, by decide +kernel, local_RHEL7_Bootloader⟩
    (local_cons ⟨_, by decide +kernel, local_RHEL7_BTRFS_RHEL7_BTRFSData⟩
    (local_cons ⟨_, by decide +kernel, local_FC3_Cdrom⟩
    (local_cons ⟨_, by decide +kernel, local_RHEL7_ClearPart⟩
    (local_cons ⟨_, by decide +kernel, local_FC3_DisplayMode⟩
    (local_cons ⟨_, by decide +kernel, local_F8_Device_F8_DeviceData⟩
    (local_cons ⟨_, by decide +kernel, local_FC3_DeviceProbe⟩
    (local_cons ⟨_, by decide +kernel, local_FC6_DmRaid_FC6_DmRaidData⟩
    (local_cons ⟨_, by decide +kernel, local_F14_DriverDisk_F14_DriverDiskData⟩
    (local_cons ⟨_, by decide +kernel, local_F20_Eula⟩
    (local_cons ⟨_, by decide +kernel, local_RHEL7_Fcoe_RHEL7_FcoeData⟩
    (local_cons ⟨_, by decide +kernel, local_F20_Firewall⟩
    (local_cons ⟨_, by decide +kernel, local_FC3_Firstboot⟩
    (local_cons ⟨_, by decide +kernel, local_FC3_DisplayMode⟩
    (local_cons ⟨_, by decide +kernel, local_F12_Group_F12_GroupData⟩
    (local_cons ⟨_, by decide +kernel, local_F18_Reboot⟩
    (local_cons ⟨_, by decide +kernel, local_FC3_HardDrive⟩
    (local_cons ⟨_, by decide +kernel, local_RHEL7_Hmc⟩
    (local_cons ⟨_, by decide +kernel, local_F14_IgnoreDisk⟩
    (local_cons ⟨_, by decide +kernel, local_F11_Upgrade⟩
    (local_cons ⟨_, by decide +kernel, local_F17_Iscsi_F17_IscsiData⟩
    (local_cons ⟨_, by decide +kernel, local_FC6_IscsiName⟩
    (local_cons ⟨_, by decide +kernel, local_F18_Keyboard⟩
    (local_cons ⟨_, by decide +kernel, local_F19_Lang⟩
    (local_cons ⟨_, by decide +kernel, local_F19_Liveimg⟩
    (local_cons ⟨_, by decide +kernel, local_FC6_Logging⟩
    (local_cons ⟨_, by decide +kernel, local_RHEL7_LogVol_RHEL7_LogVolData⟩
    (local_cons ⟨_, by decide +kernel, local_FC4_MediaCheck⟩
    (local_cons ⟨_, by decide +kernel, local_RHEL7_Method⟩
    (local_cons ⟨_, by decide +kernel, local_FC6_MultiPath_FC6_MultiPathData⟩
    (local_cons ⟨_, by decide +kernel, local_RHEL7_Network_RHEL7_NetworkData⟩
    (local_cons ⟨_, by decide +kernel, local_FC6_NFS⟩
    (local_cons ⟨_, by decide +kernel, local_F28_Nvdimm_F28_NvdimmData⟩
    (local_cons ⟨_, by decide +kernel, local_RHEL7_OSTreeSetup⟩
    (local_cons ⟨_, by decide +kernel, local_RHEL7_Partition_RHEL7_PartData⟩
    (local_cons ⟨_, by decide +kernel, local_RHEL7_Partition_RHEL7_PartData⟩
    (local_cons ⟨_, by decide +kernel, local_F18_Reboot⟩
    (local_cons ⟨_, by decide +kernel, local_RHEL7_Raid_RHEL7_RaidData⟩
    (local_cons ⟨_, by decide +kernel, local_F19_Realm⟩
    (local_cons ⟨_, by decide +kernel, local_F18_Reboot⟩
    (local_cons ⟨_, by decide +kernel, local_RHEL7_Repo_RHEL7_RepoData⟩
    (local_cons ⟨_, by decide +kernel, local_RHEL7_ReqPart⟩
    (local_cons ⟨_, by decide +kernel, local_F10_Rescue⟩
    (local_cons ⟨_, by decide +kernel, local_F18_RootPw⟩
    (local_cons ⟨_, by decide +kernel, local_FC3_SELinux⟩
    (local_cons ⟨_, by decide +kernel, local_FC6_Services⟩
    (local_cons ⟨_, by decide +kernel, local_F18_Reboot⟩
    (local_cons ⟨_, by decide +kernel, local_FC3_SkipX⟩
    (local_cons ⟨_, by decide +kernel, local_F26_Snapshot_F26_SnapshotData⟩
    (local_cons ⟨_, by decide +kernel, local_F13_SshPw_F13_SshPwData⟩
    (local_cons ⟨_, by decide +kernel, local_FC3_DisplayMode⟩
    (local_cons ⟨_, by decide +kernel, local_RHEL7_Timezone⟩
    (local_cons ⟨_, by decide +kernel, local_RHEL6_UnsupportedHardware⟩
    (local_cons ⟨_, by decide +kernel, local_F7_Updates⟩
    (local_cons ⟨_, by decide +kernel, local_F20_Upgrade⟩
    (local_cons ⟨_, by decide +kernel, local_F18_Url⟩
    (local_cons ⟨_, by decide +kernel, local_F19_User_F19_UserData⟩
    (local_cons ⟨_, by decide +kernel, local_F9_Vnc⟩
    (local_cons ⟨_, by decide +kernel, local_RHEL7_VolGroup_RHEL7_VolGroupData⟩
    (local_cons ⟨_, by decide +kernel, local_F14_XConfig⟩
    (local_cons ⟨_, by decide +kernel, local_F9_ZeroMbr⟩
    (local_cons ⟨_, by decide +kernel, local_F14_ZFCP_F14_ZFCPData⟩ (List.forall_mem_nil _)))))))))))))))))))))))))))))))))))))))))))))))))))))))))))))))))))

theorem commandMapRHEL8_local : ∀ x ∈ commandMapRHEL8, ∃ a, attrName x.2.name = a ∧ Command.Local x.2 (looksAt a) := by
  unfold commandMapRHEL8
  exact (local_cons ⟨_, by decide +kernel, local_F28_Authconfig⟩
    (local_cons ⟨_, by decide +kernel, local_F28_Authconfig⟩
    (local_cons ⟨_, by decide +kernel, local_F28_Authselect⟩
    (local_cons ⟨_, by decide +kernel, local_RHEL8_AutoPart⟩
    (local_cons ⟨_, by decide +kernel, local_FC3_AutoStep⟩
    (local_cons ⟨_, by decide +kernel, local_RHEL8_Bootloader⟩
    (local_cons ⟨_, by decide +kernel, local_RHEL8_BTRFS⟩
    (local_cons ⟨_, by decide +kernel, local_FC3_Cdrom⟩
    (local_cons ⟨_, by decide +kernel, local_F28_ClearPart⟩
    (local_cons ⟨_, by decide +kernel, local_F26_DisplayMode⟩
    (local_cons ⟨_, by decide +kernel, local_F24_Device⟩
    (local_cons ⟨_, by decide +kernel, local_F29_DeviceProbe⟩
    (local_cons ⟨_, by decide +kernel, local_F24_DmRaid⟩
    (local_cons ⟨_, by decide +kernel, local_F14_DriverDisk_F14_DriverDiskData⟩
    (local_cons ⟨_, by decide +kernel, local_RHEL8_Module_RHEL8_ModuleData⟩
    (local_cons ⟨_, by decide +kernel, local_F20_Eula⟩
    (local_cons ⟨_, by decide +kernel, local_RHEL8_Fcoe_RHEL8_FcoeData⟩
    (local_cons ⟨_, by decide +kernel, local_F28_Firewall⟩
    (local_cons ⟨_, by decide +kernel, local_FC3_Firstboot⟩
    (local_cons ⟨_, by decide +kernel, local_F26_DisplayMode⟩
    (local_cons ⟨_, by decide +kernel, local_F12_Group_F12_GroupData⟩
    (local_cons ⟨_, by decide +kernel, local_F23_Reboot⟩
    (local_cons ⟨_, by decide +kernel, local_FC3_HardDrive⟩
    (local_cons ⟨_, by decide +kernel, local_F28_Hmc⟩
    (local_cons ⟨_, by decide +kernel, local_F29_IgnoreDisk⟩
    (local_cons ⟨_, by decide +kernel, local_F29_Install⟩
    (local_cons ⟨_, by decide +kernel, local_F17_Iscsi_F17_IscsiData⟩
    (local_cons ⟨_, by decide +kernel, local_FC6_IscsiName⟩
    (local_cons ⟨_, by decide +kernel, local_F18_Keyboard⟩
    (local_cons ⟨_, by decide +kernel, local_F19_Lang⟩
    (local_cons ⟨_, by decide +kernel, local_F19_Liveimg⟩
    (local_cons ⟨_, by decide +kernel, local_FC6_Logging⟩
    (local_cons ⟨_, by decide +kernel, local_RHEL8_LogVol_RHEL8_LogVolData⟩
    (local_cons ⟨_, by decide +kernel, local_FC4_MediaCheck⟩
    (local_cons ⟨_, by decide +kernel, local_F28_Method⟩
    (local_cons ⟨_, by decide +kernel, local_F27_Mount_F27_MountData⟩
    (local_cons ⟨_, by decide +kernel, local_F24_MultiPath⟩
    (local_cons ⟨_, by decide +kernel, local_F27_Network_F27_NetworkData⟩
    (local_cons ⟨_, by decide +kernel, local_FC6_NFS⟩
    (local_cons ⟨_, by decide +kernel, local_F28_Nvdimm_F28_NvdimmData⟩
    (local_cons ⟨_, by decide +kernel, local_RHEL8_OSTreeSetup⟩
    (local_cons ⟨_, by decide +kernel, local_RHEL8_Partition_RHEL8_PartData⟩
    (local_cons ⟨_, by decide +kernel, local_RHEL8_Partition_RHEL8_PartData⟩
    (local_cons ⟨_, by decide +kernel, local_F23_Reboot⟩
    (local_cons ⟨_, by decide +kernel, local_RHEL8_Raid_RHEL8_RaidData⟩
    (local_cons ⟨_, by decide +kernel, local_F19_Realm⟩
    (local_cons ⟨_, by decide +kernel, local_F23_Reboot⟩
    (local_cons ⟨_, by decide +kernel, local_RHEL8_Repo_RHEL8_RepoData⟩
    (local_cons ⟨_, by decide +kernel, local_F23_ReqPart⟩
    (local_cons ⟨_, by decide +kernel, local_F10_Rescue⟩
    (local_cons ⟨_, by decide +kernel, local_RHEL8_RHSM⟩
    (local_cons ⟨_, by decide +kernel, local_F18_RootPw⟩
    (local_cons ⟨_, by decide +kernel, local_FC3_SELinux⟩
    (local_cons ⟨_, by decide +kernel, local_FC6_Services⟩
    (local_cons ⟨_, by decide +kernel, local_F23_Reboot⟩
    (local_cons ⟨_, by decide +kernel, local_FC3_SkipX⟩
    (local_cons ⟨_, by decide +kernel, local_F26_Snapshot_F26_SnapshotData⟩
    (local_cons ⟨_, by decide +kernel, local_F24_SshPw_F24_SshPwData⟩
    (local_cons ⟨_, by decide +kernel, local_F22_SshKey_F22_SshKeyData⟩
    (local_cons ⟨_, by decide +kernel, local_RHEL8_Syspurpose⟩
    (local_cons ⟨_, by decide +kernel, local_F26_DisplayMode⟩
    (local_cons ⟨_, by decide +kernel, local_F25_Timezone⟩
    (local_cons ⟨_, by decide +kernel, local_F7_Updates⟩
    (local_cons ⟨_, by decide +kernel, local_RHEL8_Url⟩
    (local_cons ⟨_, by decide +kernel, local_F24_User_F19_UserData⟩
    (local_cons ⟨_, by decide +kernel, local_F9_Vnc⟩
    (local_cons ⟨_, by decide +kernel, local_RHEL8_VolGroup_RHEL8_VolGroupData⟩
    (local_cons ⟨_, by decide +kernel, local_F14_XConfig⟩
    (local_cons ⟨_, by decide +kernel, local_F9_ZeroMbr⟩
    (local_cons ⟨_, by decide +kernel, local_F14_ZFCP_F14_ZFCPData⟩
    (local_cons ⟨_, by decide +kernel, local_RHEL8_Zipl⟩ (List.forall_mem_nil _))))))))))))))))))))))))))))))))))))))))))))))))))))))))))))))))))))))))

theorem commandMaps_local : ∀ y ∈ commandMaps, ∀ x ∈ y.2, ∃ a, attrName x.2.name = a ∧ Command.Local x.2 (looksAt a) := by
  unfold commandMaps
  exact (local_cons commandMapF10_local (local_cons commandMapF11_local (local_cons commandMapF12_local (local_cons commandMapF13_local (local_cons commandMapF14_local (local_cons commandMapF15_local (local_cons commandMapF16_local (local_cons commandMapF17_local (local_cons commandMapF18_local (local_cons commandMapF19_local (local_cons commandMapF20_local (local_cons commandMapF21_local (local_cons commandMapF22_local (local_cons commandMapF23_local (local_cons commandMapF24_local (local_cons commandMapF25_local (local_cons commandMapF26_local (local_cons commandMapF27_local (local_cons commandMapF28_local (local_cons commandMapF29_local (local_cons commandMapF30_local (local_cons commandMapF31_local (local_cons commandMapF32_local (local_cons commandMapF33_local (local_cons commandMapF34_local (local_cons commandMapF7_local (local_cons commandMapF8_local (local_cons commandMapF9_local (local_cons commandMapFC3_local (local_cons commandMapFC4_local (local_cons commandMapFC5_local (local_cons commandMapFC6_local (local_cons commandMapRHEL3_local (local_cons commandMapRHEL4_local (local_cons commandMapRHEL5_local (local_cons commandMapRHEL6_local (local_cons commandMapRHEL7_local (local_cons commandMapRHEL8_local (List.forall_mem_nil _)))))))))))))))))))))))))))))))))))))))

end Ks.Cmd
