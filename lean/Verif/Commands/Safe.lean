import Verif.Commands.Logic
import Verif.Commands.Maps
/-!
# Which exceptions the `parse` methods raise

Written by `scripts/gen_safe.py`.
-/
set_option linter.unusedTactic false
set_option linter.unreachableTactic false
namespace Ks.Cmd

theorem FC3_Authconfig.parse_good (_k : Info) (_args : List Str) :
    M.Good ParseErr (FC3_Authconfig.parse _k _args) fun _ => True := by
  unfold FC3_Authconfig.parse
  repeat' (first | good_step | good_fact)

theorem F28_Authconfig.parse_good (k : Info) (args : List Str) :
    M.Good ParseErr (F28_Authconfig.parse k args) fun _ => True := by
  unfold F28_Authconfig.parse
  repeat' (first | (with_reducible apply FC3_Authconfig.parse_good <;> assumption) | good_step | good_fact)

theorem F28_Authselect.parse_good (_k : Info) (_args : List Str) :
    M.Good ParseErr (F28_Authselect.parse _k _args) fun _ => True := by
  unfold F28_Authselect.parse
  repeat' (first | good_step | good_fact)

theorem FC3_AutoPart.parse_good (_k : Info) (args : List Str) :
    M.Good ParseErr (FC3_AutoPart.parse _k args) fun _ => True := by
  unfold FC3_AutoPart.parse
  repeat' (first | good_step | good_fact)

theorem F9_AutoPart.parse_good (k : Info) (args : List Str) :
    M.Good ParseErr (F9_AutoPart.parse k args) fun _ => True := by
  unfold F9_AutoPart.parse
  repeat' (first | good_step | good_fact)

theorem RHEL6_AutoPart.parse_good (k : Info) (args : List Str) :
    M.Good ParseErr (RHEL6_AutoPart.parse k args) fun _ => True := by
  unfold RHEL6_AutoPart.parse
  repeat' (first | (with_reducible apply F9_AutoPart.parse_good <;> assumption) | good_step | good_fact)

theorem F17_AutoPart.parse_good (k : Info) (args : List Str) :
    M.Good ParseErr (F17_AutoPart.parse k args) fun _ => True := by
  unfold F17_AutoPart.parse
  repeat' (first | (with_reducible apply F9_AutoPart.parse_good <;> assumption) | good_step | good_fact)

theorem F20_AutoPart.parse_good (k : Info) (args : List Str) :
    M.Good ParseErr (F20_AutoPart.parse k args) fun _ => True := by
  unfold F20_AutoPart.parse
  repeat' (first | (with_reducible apply F17_AutoPart.parse_good <;> assumption) | good_step | good_fact)

theorem F21_AutoPart.parse_good (k : Info) (args : List Str) :
    M.Good ParseErr (F21_AutoPart.parse k args) fun _ => True := by
  unfold F21_AutoPart.parse
  repeat' (first | (with_reducible apply F20_AutoPart.parse_good <;> assumption) | good_step | good_fact)

theorem F23_AutoPart.parse_good (k : Info) (args : List Str) :
    M.Good ParseErr (F23_AutoPart.parse k args) fun _ => True := by
  unfold F23_AutoPart.parse
  repeat' (first | (with_reducible apply F21_AutoPart.parse_good <;> assumption) | good_step | good_fact)

theorem RHEL7_AutoPart.parse_good (k : Info) (args : List Str) :
    M.Good ParseErr (RHEL7_AutoPart.parse k args) fun _ => True := by
  unfold RHEL7_AutoPart.parse
  repeat' (first | (with_reducible apply F21_AutoPart.parse_good <;> assumption) | good_step | good_fact)

theorem F29_AutoPart.parse_good (k : Info) (args : List Str) :
    M.Good ParseErr (F29_AutoPart.parse k args) fun _ => True := by
  unfold F29_AutoPart.parse
  repeat' (first | (with_reducible apply F23_AutoPart.parse_good <;> assumption) | good_step | good_fact)

theorem RHEL8_AutoPart.parse_good (k : Info) (args : List Str) :
    M.Good ParseErr (RHEL8_AutoPart.parse k args) fun _ => True := by
  unfold RHEL8_AutoPart.parse
  repeat' (first | (with_reducible apply F29_AutoPart.parse_good <;> assumption) | good_step | good_fact)

theorem FC3_AutoStep.parse_good (k : Info) (args : List Str) :
    M.Good ParseErr (FC3_AutoStep.parse k args) fun _ => True := by
  unfold FC3_AutoStep.parse
  repeat' (first | good_step | good_fact)

theorem FC3_Bootloader.parse_good (k : Info) (args : List Str) :
    M.Good ParseErr (FC3_Bootloader.parse k args) fun _ => True := by
  unfold FC3_Bootloader.parse
  repeat' (first | good_step | good_fact)

theorem FC4_Bootloader.parse_good (k : Info) (args : List Str) :
    M.Good ParseErr (FC4_Bootloader.parse k args) fun _ => True := by
  unfold FC4_Bootloader.parse
  repeat' (first | good_step | good_fact)

theorem F15_Bootloader.parse_good (k : Info) (args : List Str) :
    M.Good ParseErr (F15_Bootloader.parse k args) fun _ => True := by
  unfold F15_Bootloader.parse
  repeat' (first | good_step | good_fact)

theorem F17_Bootloader.parse_good (k : Info) (args : List Str) :
    M.Good ParseErr (F17_Bootloader.parse k args) fun _ => True := by
  unfold F17_Bootloader.parse
  repeat' (first | (with_reducible apply F15_Bootloader.parse_good <;> assumption) | good_step | good_fact)

theorem RHEL6_Bootloader.parse_good (k : Info) (args : List Str) :
    M.Good ParseErr (RHEL6_Bootloader.parse k args) fun _ => True := by
  unfold RHEL6_Bootloader.parse
  repeat' (first | good_step | good_fact)

theorem F17_BTRFS.parse_good (k : Info) (args : List Str) :
    M.Good ParseErr (F17_BTRFS.parse k args) fun _ => True := by
  unfold F17_BTRFS.parse
  repeat' (first | good_step | good_fact)

theorem F23_BTRFS.parse_good (k : Info) (args : List Str) :
    M.Good ParseErr (F23_BTRFS.parse k args) fun _ => True := by
  unfold F23_BTRFS.parse
  repeat' (first | (with_reducible apply F17_BTRFS.parse_good <;> assumption) | good_step | good_fact)

theorem FC3_Cdrom.parse_good (_k : Info) (args : List Str) :
    M.Good ParseErr (FC3_Cdrom.parse _k args) fun _ => True := by
  unfold FC3_Cdrom.parse
  repeat' (first | good_step | good_fact)

theorem FC3_ClearPart.parse_good (k : Info) (args : List Str) :
    M.Good ParseErr (FC3_ClearPart.parse k args) fun _ => True := by
  unfold FC3_ClearPart.parse
  repeat' (first | good_step | good_fact)

theorem F17_ClearPart.parse_good (k : Info) (args : List Str) :
    M.Good ParseErr (F17_ClearPart.parse k args) fun _ => True := by
  unfold F17_ClearPart.parse
  repeat' (first | (with_reducible apply FC3_ClearPart.parse_good <;> assumption) | good_step | good_fact)

theorem FC3_Device.parse_good (k : Info) (args : List Str) :
    M.Good ParseErr (FC3_Device.parse k args) fun _ => True := by
  unfold FC3_Device.parse
  repeat' (first | good_step | good_fact)

theorem F8_Device.parse_good (k : Info) (args : List Str) :
    M.Good ParseErr (F8_Device.parse k args) fun _ => True := by
  unfold F8_Device.parse
  repeat' (first | good_step | good_fact)

theorem FC3_DeviceProbe.parse_good (_k : Info) (args : List Str) :
    M.Good ParseErr (FC3_DeviceProbe.parse _k args) fun _ => True := by
  unfold FC3_DeviceProbe.parse
  repeat' (first | good_step | good_fact)

theorem FC3_DisplayMode.parse_good (k : Info) (args : List Str) :
    M.Good ParseErr (FC3_DisplayMode.parse k args) fun _ => True := by
  unfold FC3_DisplayMode.parse
  repeat' (first | good_step | good_fact)

theorem F26_DisplayMode.parse_good (k : Info) (args : List Str) :
    M.Good ParseErr (F26_DisplayMode.parse k args) fun _ => True := by
  unfold F26_DisplayMode.parse
  repeat' (first | (with_reducible apply FC3_DisplayMode.parse_good <;> assumption) | good_step | good_fact)

theorem FC6_DmRaid.parse_good (k : Info) (args : List Str) (h1 : k.op.StrDest c!"name") (h2 : (k.dc.init.getD c!"name").isStr = true) :
    M.Good ParseErr (FC6_DmRaid.parse k args) fun _ => True := by
  unfold FC6_DmRaid.parse
  repeat' (first | good_step | good_fact)
  rename_i ns hns
  have h : ((setToObj ns k.dc.init).getD c!"name").isStr = true := by
    obtain ⟨l, hl⟩ := hns
    have hs := h1.getArgs ⟨l, hl⟩
    unfold Ns.getD at hs h2 ⊢
    rw [C16_set_to_obj ns k.dc.init (C16_namespace_keys _ _ _ _ hl)]
    cases hg : ns.get c!"name" with
    | none => exact h2
    | some v =>
      rw [hg] at hs
      rcases hs with hs | hs
      · have hs : v = .none := hs
        subst hs; exact h2
      · cases v with
        | str s => rfl
        | none => exact h2
        | _ => cases hs
  exact (Val.StrOrNone.split_ok h _).1.last (Val.StrOrNone.split_ok h _).2

theorem FC3_DriverDisk.parse_good (k : Info) (args : List Str) :
    M.Good ParseErr (FC3_DriverDisk.parse k args) fun _ => True := by
  unfold FC3_DriverDisk.parse
  repeat' (first | good_step | good_fact)

theorem FC4_DriverDisk.parse_good (k : Info) (args : List Str) :
    M.Good ParseErr (FC4_DriverDisk.parse k args) fun _ => True := by
  unfold FC4_DriverDisk.parse
  repeat' (first | good_step | good_fact)

theorem F20_Eula.parse_good (k : Info) (args : List Str) :
    M.Good ParseErr (F20_Eula.parse k args) fun _ => True := by
  unfold F20_Eula.parse
  repeat' (first | good_step | good_fact)

theorem F12_Fcoe.parse_good (k : Info) (args : List Str) :
    M.Good ParseErr (F12_Fcoe.parse k args) fun _ => True := by
  unfold F12_Fcoe.parse
  repeat' (first | good_step | good_fact)

theorem FC3_Firewall.parse_good (k : Info) (args : List Str) :
    M.Good ParseErr (FC3_Firewall.parse k args) fun _ => True := by
  unfold FC3_Firewall.parse
  repeat' (first | good_step | good_fact)

theorem FC3_Firstboot.parse_good (k : Info) (args : List Str) :
    M.Good ParseErr (FC3_Firstboot.parse k args) fun _ => True := by
  unfold FC3_Firstboot.parse
  repeat' (first | good_step | good_fact)

theorem F12_Group.parse_good (k : Info) (args : List Str) :
    M.Good ParseErr (F12_Group.parse k args) fun _ => True := by
  unfold F12_Group.parse
  repeat' (first | good_step | good_fact)

theorem FC3_HardDrive.parse_good (k : Info) (args : List Str) :
    M.Good ParseErr (FC3_HardDrive.parse k args) fun _ => True := by
  unfold FC3_HardDrive.parse
  repeat' (first | good_step | good_fact)

theorem F33_HardDrive.parse_good (k : Info) (args : List Str) :
    M.Good ParseErr (F33_HardDrive.parse k args) fun _ => True := by
  unfold F33_HardDrive.parse
  repeat' (first | good_step | good_fact)

theorem RHEL7_Hmc.parse_good (_k : Info) (args : List Str) :
    M.Good ParseErr (RHEL7_Hmc.parse _k args) fun _ => True := by
  unfold RHEL7_Hmc.parse
  repeat' (first | good_step | good_fact)

theorem FC3_IgnoreDisk.parse_good (k : Info) (args : List Str) :
    M.Good ParseErr (FC3_IgnoreDisk.parse k args) fun _ => True := by
  unfold FC3_IgnoreDisk.parse
  repeat' (first | good_step | good_fact)

theorem F8_IgnoreDisk.parse_good (k : Info) (args : List Str) :
    M.Good ParseErr (F8_IgnoreDisk.parse k args) fun _ => True := by
  unfold F8_IgnoreDisk.parse
  repeat' (first | (with_reducible apply FC3_IgnoreDisk.parse_good <;> assumption) | good_step | good_fact)

theorem RHEL6_IgnoreDisk.parse_good (k : Info) (args : List Str) :
    M.Good ParseErr (RHEL6_IgnoreDisk.parse k args) fun _ => True := by
  unfold RHEL6_IgnoreDisk.parse
  repeat' (first | (with_reducible apply FC3_IgnoreDisk.parse_good <;> assumption) | good_step | good_fact)

theorem F29_IgnoreDisk.parse_good (k : Info) (args : List Str) :
    M.Good ParseErr (F29_IgnoreDisk.parse k args) fun _ => True := by
  unfold F29_IgnoreDisk.parse
  repeat' (first | (with_reducible apply F8_IgnoreDisk.parse_good <;> assumption) | good_step | good_fact)

theorem F11_Upgrade.parse_good (k : Info) (args : List Str) :
    M.Good ParseErr (F11_Upgrade.parse k args) fun _ => True := by
  unfold F11_Upgrade.parse
  repeat' (first | good_step | good_fact)

theorem F20_Install.parse_good (k : Info) (args : List Str) :
    M.Good ParseErr (F20_Install.parse k args) fun _ => True := by
  unfold F20_Install.parse
  repeat' (first | (with_reducible apply F11_Upgrade.parse_good <;> assumption) | good_step | good_fact)

theorem FC3_Interactive.parse_good (k : Info) (args : List Str) :
    M.Good ParseErr (FC3_Interactive.parse k args) fun _ => True := by
  unfold FC3_Interactive.parse
  repeat' (first | good_step | good_fact)

theorem FC6_Iscsi.parse_good (k : Info) (args : List Str) :
    M.Good ParseErr (FC6_Iscsi.parse k args) fun _ => True := by
  unfold FC6_Iscsi.parse
  repeat' (first | good_step | good_fact)

theorem FC6_IscsiName.parse_good (k : Info) (args : List Str) (h1 : k.op.OneFirst c!"iqn") :
    M.Good ParseErr (FC6_IscsiName.parse k args) fun _ => True := by
  unfold FC6_IscsiName.parse
  repeat' (first | good_step | good_fact)

theorem RHEL5_Key.parse_good (k : Info) (args : List Str) :
    M.Good ParseErr (RHEL5_Key.parse k args) fun _ => True := by
  unfold RHEL5_Key.parse
  repeat' (first | good_step | good_fact)

theorem FC3_Keyboard.parse_good (k : Info) (args : List Str) (h1 : k.op.StarPos c!"kbd") :
    M.Good ParseErr (FC3_Keyboard.parse k args) fun _ => True := by
  unfold FC3_Keyboard.parse
  repeat' (first | good_step | good_fact)

theorem F18_Keyboard.parse_good (k : Info) (args : List Str) (h1 : k.op.StarPos c!"kbd") :
    M.Good ParseErr (F18_Keyboard.parse k args) fun _ => True := by
  unfold F18_Keyboard.parse
  repeat' (first | good_step | good_fact)

theorem FC3_Lang.parse_good (k : Info) (args : List Str) (h1 : k.op.OneFirst c!"lang") :
    M.Good ParseErr (FC3_Lang.parse k args) fun _ => True := by
  unfold FC3_Lang.parse
  repeat' (first | good_step | good_fact)

theorem FC3_LangSupport.parse_good (k : Info) (args : List Str) :
    M.Good ParseErr (FC3_LangSupport.parse k args) fun _ => True := by
  unfold FC3_LangSupport.parse
  repeat' (first | good_step | good_fact)

theorem FC3_LiloCheck.parse_good (k : Info) (args : List Str) :
    M.Good ParseErr (FC3_LiloCheck.parse k args) fun _ => True := by
  unfold FC3_LiloCheck.parse
  repeat' (first | good_step | good_fact)

theorem F19_Liveimg.parse_good (k : Info) (args : List Str) :
    M.Good ParseErr (F19_Liveimg.parse k args) fun _ => True := by
  unfold F19_Liveimg.parse
  repeat' (first | good_step | good_fact)

theorem FC6_Logging.parse_good (k : Info) (args : List Str) :
    M.Good ParseErr (FC6_Logging.parse k args) fun _ => True := by
  unfold FC6_Logging.parse
  repeat' (first | good_step | good_fact)

theorem FC3_LogVol.parse_good (k : Info) (args : List Str) (h1 : k.op.OneFirst c!"mntpoint") :
    M.Good ParseErr (FC3_LogVol.parse k args) fun _ => True := by
  unfold FC3_LogVol.parse
  repeat' (first | good_step | good_fact)

theorem RHEL6_LogVol.parse_good (k : Info) (args : List Str) (h1 : k.op.OneFirst c!"mntpoint") :
    M.Good ParseErr (RHEL6_LogVol.parse k args) fun _ => True := by
  unfold RHEL6_LogVol.parse
  repeat' (first | (with_reducible apply FC3_LogVol.parse_good <;> assumption) | good_step | good_fact)

theorem F17_LogVol.parse_good (k : Info) (args : List Str) (h1 : k.op.OneFirst c!"mntpoint") :
    M.Good ParseErr (F17_LogVol.parse k args) fun _ => True := by
  unfold F17_LogVol.parse
  repeat' (first | (with_reducible apply FC3_LogVol.parse_good <;> assumption) | good_step | good_fact)

theorem F20_LogVol.parse_good (k : Info) (args : List Str) (h1 : k.op.OneFirst c!"mntpoint") :
    M.Good ParseErr (F20_LogVol.parse k args) fun _ => True := by
  unfold F20_LogVol.parse
  repeat' (first | (with_reducible apply F17_LogVol.parse_good <;> assumption) | good_step | good_fact)

theorem F21_LogVol.parse_good (k : Info) (args : List Str) (h1 : k.op.OneFirst c!"mntpoint") :
    M.Good ParseErr (F21_LogVol.parse k args) fun _ => True := by
  unfold F21_LogVol.parse
  repeat' (first | (with_reducible apply F20_LogVol.parse_good <;> assumption) | good_step | good_fact)

theorem RHEL7_LogVol.parse_good (k : Info) (args : List Str) (h1 : k.op.OneFirst c!"mntpoint") :
    M.Good ParseErr (RHEL7_LogVol.parse k args) fun _ => True := by
  unfold RHEL7_LogVol.parse
  repeat' (first | (with_reducible apply F21_LogVol.parse_good <;> assumption) | good_step | good_fact)

theorem F23_LogVol.parse_good (k : Info) (args : List Str) (h1 : k.op.OneFirst c!"mntpoint") :
    M.Good ParseErr (F23_LogVol.parse k args) fun _ => True := by
  unfold F23_LogVol.parse
  repeat' (first | (with_reducible apply F21_LogVol.parse_good <;> assumption) | good_step | good_fact)

theorem F29_LogVol.parse_good (k : Info) (args : List Str) (h1 : k.op.OneFirst c!"mntpoint") :
    M.Good ParseErr (F29_LogVol.parse k args) fun _ => True := by
  unfold F29_LogVol.parse
  repeat' (first | (with_reducible apply F23_LogVol.parse_good <;> assumption) | good_step | good_fact)

theorem RHEL8_LogVol.parse_good (k : Info) (args : List Str) (h1 : k.op.OneFirst c!"mntpoint") :
    M.Good ParseErr (RHEL8_LogVol.parse k args) fun _ => True := by
  unfold RHEL8_LogVol.parse
  repeat' (first | (with_reducible apply F29_LogVol.parse_good <;> assumption) | good_step | good_fact)

theorem FC4_MediaCheck.parse_good (k : Info) (args : List Str) :
    M.Good ParseErr (FC4_MediaCheck.parse k args) fun _ => True := by
  unfold FC4_MediaCheck.parse
  repeat' (first | good_step | good_fact)

theorem F29_Module.parse_good (k : Info) (args : List Str) :
    M.Good ParseErr (F29_Module.parse k args) fun _ => True := by
  unfold F29_Module.parse
  repeat' (first | good_step | good_fact)

theorem FC3_Monitor.parse_good (k : Info) (args : List Str) :
    M.Good ParseErr (FC3_Monitor.parse k args) fun _ => True := by
  unfold FC3_Monitor.parse
  repeat' (first | good_step | good_fact)

theorem F27_Mount.parse_good {E : Nat → Exc → Prop} [ErrSet E] (k : Info) (args : List Str) (h1 : k.op.OneFirst c!"device") (h2 : k.op.OnePos c!"mntpoint") (h3 : c!"--" ∈ args → ∀ n, E n .index) :
    M.Good E (F27_Mount.parse k args) fun _ => True := by
  unfold F27_Mount.parse
  repeat' (first | (with_reducible apply good_liftE; exact mount_index h2 (by assumption) h3) | good_step | good_fact)

theorem RHEL3_Mouse.parse_good (k : Info) (args : List Str) :
    M.Good ParseErr (RHEL3_Mouse.parse k args) fun _ => True := by
  unfold RHEL3_Mouse.parse
  repeat' (first | good_step | good_fact)

theorem FC3_Network.parse_good (k : Info) (args : List Str) :
    M.Good ParseErr (FC3_Network.parse k args) fun _ => True := by
  unfold FC3_Network.parse
  repeat' (first | good_step | good_fact)

theorem F22_Network.parse_good (k : Info) (args : List Str) :
    M.Good ParseErr (F22_Network.parse k args) fun _ => True := by
  unfold F22_Network.parse
  repeat' (first | (with_reducible apply FC3_Network.parse_good <;> assumption) | good_step | good_fact)

theorem F24_Network.parse_good (k : Info) (args : List Str) :
    M.Good ParseErr (F24_Network.parse k args) fun _ => True := by
  unfold F24_Network.parse
  repeat' (first | (with_reducible apply F22_Network.parse_good <;> assumption) | good_step | good_fact)

theorem F27_Network.parse_good (k : Info) (args : List Str) :
    M.Good ParseErr (F27_Network.parse k args) fun _ => True := by
  unfold F27_Network.parse
  repeat' (first | (with_reducible apply F24_Network.parse_good <;> assumption) | good_step | good_fact)

theorem RHEL7_Network.parse_good (k : Info) (args : List Str) :
    M.Good ParseErr (RHEL7_Network.parse k args) fun _ => True := by
  unfold RHEL7_Network.parse
  repeat' (first | (with_reducible apply FC3_Network.parse_good <;> assumption) | good_step | good_fact)

theorem FC3_NFS.parse_good (k : Info) (args : List Str) :
    M.Good ParseErr (FC3_NFS.parse k args) fun _ => True := by
  unfold FC3_NFS.parse
  repeat' (first | good_step | good_fact)

theorem F28_Nvdimm.parse_good (k : Info) (args : List Str) (h1 : k.op.OneFirst c!"action") :
    M.Good ParseErr' (F28_Nvdimm.parse k args) fun _ => True := by
  unfold F28_Nvdimm.parse
  repeat' (first | good_step | good_fact)

theorem F21_OSTreeSetup.parse_good (k : Info) (args : List Str) :
    M.Good ParseErr (F21_OSTreeSetup.parse k args) fun _ => True := by
  unfold F21_OSTreeSetup.parse
  repeat' (first | good_step | good_fact)

theorem FC3_Partition.parse_good (k : Info) (args : List Str) (h1 : k.op.OneFirst c!"mntpoint") :
    M.Good ParseErr (FC3_Partition.parse k args) fun _ => True := by
  unfold FC3_Partition.parse
  repeat' (first | good_step | good_fact)

theorem RHEL6_Partition.parse_good (k : Info) (args : List Str) (h1 : k.op.OneFirst c!"mntpoint") :
    M.Good ParseErr (RHEL6_Partition.parse k args) fun _ => True := by
  unfold RHEL6_Partition.parse
  repeat' (first | (with_reducible apply FC3_Partition.parse_good <;> assumption) | good_step | good_fact)

theorem F17_Partition.parse_good (k : Info) (args : List Str) (h1 : k.op.OneFirst c!"mntpoint") :
    M.Good ParseErr (F17_Partition.parse k args) fun _ => True := by
  unfold F17_Partition.parse
  repeat' (first | (with_reducible apply FC3_Partition.parse_good <;> assumption) | good_step | good_fact)

theorem F20_Partition.parse_good (k : Info) (args : List Str) (h1 : k.op.OneFirst c!"mntpoint") :
    M.Good ParseErr (F20_Partition.parse k args) fun _ => True := by
  unfold F20_Partition.parse
  repeat' (first | (with_reducible apply F17_Partition.parse_good <;> assumption) | good_step | good_fact)

theorem F23_Partition.parse_good (k : Info) (args : List Str) (h1 : k.op.OneFirst c!"mntpoint") :
    M.Good ParseErr (F23_Partition.parse k args) fun _ => True := by
  unfold F23_Partition.parse
  repeat' (first | (with_reducible apply F20_Partition.parse_good <;> assumption) | good_step | good_fact)

theorem F29_Partition.parse_good (k : Info) (args : List Str) (h1 : k.op.OneFirst c!"mntpoint") :
    M.Good ParseErr (F29_Partition.parse k args) fun _ => True := by
  unfold F29_Partition.parse
  repeat' (first | (with_reducible apply F23_Partition.parse_good <;> assumption) | good_step | good_fact)

theorem RHEL8_Partition.parse_good (k : Info) (args : List Str) (h1 : k.op.OneFirst c!"mntpoint") :
    M.Good ParseErr (RHEL8_Partition.parse k args) fun _ => True := by
  unfold RHEL8_Partition.parse
  repeat' (first | (with_reducible apply F29_Partition.parse_good <;> assumption) | good_step | good_fact)

theorem FC3_Raid.parse_good {E : Nat → Exc → Prop} [ErrSet E] (k : Info) (args : List Str) (h1 : k.op.OneFirst c!"mntpoint") (h2 : k.op.ReqStr c!"device") (h3 : ∀ s n e, k.getDevice (.str s) = .error e → E n e) :
    M.Good E (FC3_Raid.parse k args) fun _ => True := by
  unfold FC3_Raid.parse
  repeat' (first | (with_reducible apply good_liftE; (intro n e he; obtain ⟨s, hs⟩ := raid_device h2 (by assumption) _ _ _ _ _; rw [hs] at he; exact h3 s n e he)) | good_step | good_fact)
  all_goals
    have h := OptParser.OneFirst.get h1 (by assumption)
    first
    | (simp only [Ns.getD_set]; exact decide_eq_true h.len)
    | (simp only [Ns.getD_set]; exact h.index)

theorem RHEL6_Raid.parse_good {E : Nat → Exc → Prop} [ErrSet E] (k : Info) (args : List Str) (h1 : k.op.OneFirst c!"mntpoint") (h2 : k.op.ReqStr c!"device") (h3 : ∀ s n e, k.getDevice (.str s) = .error e → E n e) :
    M.Good E (RHEL6_Raid.parse k args) fun _ => True := by
  unfold RHEL6_Raid.parse
  repeat' (first | (with_reducible apply FC3_Raid.parse_good <;> assumption) | good_step | good_fact)

theorem F20_Raid.parse_good {E : Nat → Exc → Prop} [ErrSet E] (k : Info) (args : List Str) (h1 : k.op.OneFirst c!"mntpoint") (h2 : k.op.ReqStr c!"device") (h3 : ∀ s n e, k.getDevice (.str s) = .error e → E n e) :
    M.Good E (F20_Raid.parse k args) fun _ => True := by
  unfold F20_Raid.parse
  repeat' (first | (with_reducible apply FC3_Raid.parse_good <;> assumption) | good_step | good_fact)

theorem F23_Raid.parse_good {E : Nat → Exc → Prop} [ErrSet E] (k : Info) (args : List Str) (h1 : k.op.OneFirst c!"mntpoint") (h2 : k.op.ReqStr c!"device") (h3 : ∀ s n e, k.getDevice (.str s) = .error e → E n e) :
    M.Good E (F23_Raid.parse k args) fun _ => True := by
  unfold F23_Raid.parse
  repeat' (first | (with_reducible apply F20_Raid.parse_good <;> assumption) | good_step | good_fact)

theorem F29_Raid.parse_good {E : Nat → Exc → Prop} [ErrSet E] (k : Info) (args : List Str) (h1 : k.op.OneFirst c!"mntpoint") (h2 : k.op.ReqStr c!"device") (h3 : ∀ s n e, k.getDevice (.str s) = .error e → E n e) :
    M.Good E (F29_Raid.parse k args) fun _ => True := by
  unfold F29_Raid.parse
  repeat' (first | (with_reducible apply F23_Raid.parse_good <;> assumption) | good_step | good_fact)

theorem RHEL8_Raid.parse_good {E : Nat → Exc → Prop} [ErrSet E] (k : Info) (args : List Str) (h1 : k.op.OneFirst c!"mntpoint") (h2 : k.op.ReqStr c!"device") (h3 : ∀ s n e, k.getDevice (.str s) = .error e → E n e) :
    M.Good E (RHEL8_Raid.parse k args) fun _ => True := by
  unfold RHEL8_Raid.parse
  repeat' (first | (with_reducible apply F29_Raid.parse_good <;> assumption) | good_step | good_fact)

theorem FC3_Reboot.parse_good (_k : Info) (_args : List Str) :
    M.Good ParseErr (FC3_Reboot.parse _k _args) fun _ => True := by
  unfold FC3_Reboot.parse
  repeat' (first | good_step | good_fact)

theorem FC6_Reboot.parse_good (k : Info) (args : List Str) :
    M.Good ParseErr (FC6_Reboot.parse k args) fun _ => True := by
  unfold FC6_Reboot.parse
  repeat' (first | (with_reducible apply FC3_Reboot.parse_good <;> assumption) | good_step | good_fact)

theorem F18_Reboot.parse_good (k : Info) (args : List Str) :
    M.Good ParseErr (F18_Reboot.parse k args) fun _ => True := by
  unfold F18_Reboot.parse
  repeat' (first | (with_reducible apply FC6_Reboot.parse_good <;> assumption) | good_step | good_fact)

theorem FC6_Repo.parse_good (k : Info) (args : List Str) :
    M.Good ParseErr (FC6_Repo.parse k args) fun _ => True := by
  unfold FC6_Repo.parse
  repeat' (first | good_step | good_fact)

theorem F23_ReqPart.parse_good (k : Info) (args : List Str) :
    M.Good ParseErr (F23_ReqPart.parse k args) fun _ => True := by
  unfold F23_ReqPart.parse
  repeat' (first | good_step | good_fact)

theorem F10_Rescue.parse_good (k : Info) (args : List Str) :
    M.Good ParseErr (F10_Rescue.parse k args) fun _ => True := by
  unfold F10_Rescue.parse
  repeat' (first | good_step | good_fact)

theorem RHEL8_RHSM.parse_good (k : Info) (args : List Str) :
    M.Good ParseErr (RHEL8_RHSM.parse k args) fun _ => True := by
  unfold RHEL8_RHSM.parse
  repeat' (first | good_step | good_fact)

theorem FC3_RootPw.parse_good (k : Info) (args : List Str) :
    M.Good ParseErr (FC3_RootPw.parse k args) fun _ => True := by
  unfold FC3_RootPw.parse
  repeat' (first | good_step | good_fact)

theorem F18_RootPw.parse_good (k : Info) (args : List Str) :
    M.Good ParseErr (F18_RootPw.parse k args) fun _ => True := by
  unfold F18_RootPw.parse
  repeat' (first | good_step | good_fact)

theorem FC3_SELinux.parse_good (k : Info) (args : List Str) :
    M.Good ParseErr (FC3_SELinux.parse k args) fun _ => True := by
  unfold FC3_SELinux.parse
  repeat' (first | good_step | good_fact)

theorem FC6_Services.parse_good (k : Info) (args : List Str) :
    M.Good ParseErr (FC6_Services.parse k args) fun _ => True := by
  unfold FC6_Services.parse
  repeat' (first | good_step | good_fact)

theorem FC3_SkipX.parse_good (k : Info) (args : List Str) :
    M.Good ParseErr (FC3_SkipX.parse k args) fun _ => True := by
  unfold FC3_SkipX.parse
  repeat' (first | good_step | good_fact)

theorem F26_Snapshot.parse_good (k : Info) (args : List Str) :
    M.Good ParseErr (F26_Snapshot.parse k args) fun _ => True := by
  unfold F26_Snapshot.parse
  repeat' (first | good_step | good_fact)

theorem F22_SshKey.parse_good (k : Info) (args : List Str) (h1 : k.op.OneFirst c!"sshkey") :
    M.Good ParseErr (F22_SshKey.parse k args) fun _ => True := by
  unfold F22_SshKey.parse
  repeat' (first | good_step | good_fact)

theorem F13_SshPw.parse_good (k : Info) (args : List Str) :
    M.Good ParseErr (F13_SshPw.parse k args) fun _ => True := by
  unfold F13_SshPw.parse
  repeat' (first | good_step | good_fact)

theorem RHEL8_Syspurpose.parse_good (k : Info) (args : List Str) :
    M.Good ParseErr (RHEL8_Syspurpose.parse k args) fun _ => True := by
  unfold RHEL8_Syspurpose.parse
  repeat' (first | good_step | good_fact)

theorem F33_Timesource.parse_good (k : Info) (args : List Str) :
    M.Good ParseErr (F33_Timesource.parse k args) fun _ => True := by
  unfold F33_Timesource.parse
  repeat' (first | good_step | good_fact)

theorem FC3_Timezone.parse_good (k : Info) (args : List Str) (h1 : k.op.OneFirst c!"timezone") :
    M.Good ParseErr (FC3_Timezone.parse k args) fun _ => True := by
  unfold FC3_Timezone.parse
  repeat' (first | good_step | good_fact)

theorem F18_Timezone.parse_good (k : Info) (args : List Str) (h1 : k.op.OneFirst c!"timezone") :
    M.Good ParseErr (F18_Timezone.parse k args) fun _ => True := by
  unfold F18_Timezone.parse
  repeat' (first | (with_reducible apply FC3_Timezone.parse_good <;> assumption) | good_step | good_fact)

theorem F23_Timezone.parse_good (k : Info) (args : List Str) (h1 : k.op.OneFirst c!"timezone") :
    M.Good ParseErr (F23_Timezone.parse k args) fun _ => True := by
  unfold F23_Timezone.parse
  repeat' (first | (with_reducible apply FC3_Timezone.parse_good <;> assumption) | good_step | good_fact)

theorem RHEL7_Timezone.parse_good (k : Info) (args : List Str) (h1 : k.op.StarPos c!"timezone") :
    M.Good ParseErr (RHEL7_Timezone.parse k args) fun _ => True := by
  unfold RHEL7_Timezone.parse
  repeat' (first | good_step | good_fact)

theorem F25_Timezone.parse_good (k : Info) (args : List Str) (h1 : k.op.StarPos c!"timezone") :
    M.Good ParseErr (F25_Timezone.parse k args) fun _ => True := by
  unfold F25_Timezone.parse
  repeat' (first | good_step | good_fact)

theorem F32_Timezone.parse_good (k : Info) (args : List Str) (h1 : k.op.StarPos c!"timezone") :
    M.Good ParseErr (F32_Timezone.parse k args) fun _ => True := by
  unfold F32_Timezone.parse
  repeat' (first | (with_reducible apply F25_Timezone.parse_good <;> assumption) | good_step | good_fact)

theorem F33_Timezone.parse_good (k : Info) (args : List Str) (h1 : k.op.StarPos c!"timezone") :
    M.Good ParseErr (F33_Timezone.parse k args) fun _ => True := by
  unfold F33_Timezone.parse
  repeat' (first | (with_reducible apply F32_Timezone.parse_good <;> assumption) | good_step | good_fact)

theorem RHEL6_UnsupportedHardware.parse_good (k : Info) (args : List Str) :
    M.Good ParseErr (RHEL6_UnsupportedHardware.parse k args) fun _ => True := by
  unfold RHEL6_UnsupportedHardware.parse
  repeat' (first | good_step | good_fact)

theorem F7_Updates.parse_good (k : Info) (args : List Str) (h1 : k.op.StarPos c!"updates") :
    M.Good ParseErr (F7_Updates.parse k args) fun _ => True := by
  unfold F7_Updates.parse
  repeat' (first | good_step | good_fact)

theorem F34_Updates.parse_good (k : Info) (args : List Str) :
    M.Good ParseErr (F34_Updates.parse k args) fun _ => True := by
  unfold F34_Updates.parse
  repeat' (first | good_step | good_fact)

theorem FC3_Upgrade.parse_good (k : Info) (args : List Str) :
    M.Good ParseErr (FC3_Upgrade.parse k args) fun _ => True := by
  unfold FC3_Upgrade.parse
  repeat' (first | good_step | good_fact)

theorem FC3_Url.parse_good (k : Info) (args : List Str) :
    M.Good ParseErr (FC3_Url.parse k args) fun _ => True := by
  unfold FC3_Url.parse
  repeat' (first | good_step | good_fact)

theorem F18_Url.parse_good (k : Info) (args : List Str) :
    M.Good ParseErr (F18_Url.parse k args) fun _ => True := by
  unfold F18_Url.parse
  repeat' (first | (with_reducible apply FC3_Url.parse_good <;> assumption) | good_step | good_fact)

theorem FC6_User.parse_good (k : Info) (args : List Str) :
    M.Good ParseErr (FC6_User.parse k args) fun _ => True := by
  unfold FC6_User.parse
  repeat' (first | good_step | good_fact)

theorem FC3_Vnc.parse_good (k : Info) (args : List Str) :
    M.Good ParseErr (FC3_Vnc.parse k args) fun _ => True := by
  unfold FC3_Vnc.parse
  repeat' (first | good_step | good_fact)

theorem FC3_VolGroup.parse_good (k : Info) (args : List Str) (h1 : k.op.StarPos c!"name") :
    M.Good ParseErr (FC3_VolGroup.parse k args) fun _ => True := by
  unfold FC3_VolGroup.parse
  repeat' (first | (with_reducible apply good_liftT; exact index_of_truthy (vg_name _ _ _ _ _ _ _ _ (OptParser.StarPos.get h1 (by assumption))) (by assumption)) | good_step | good_fact)

theorem F16_VolGroup.parse_good (k : Info) (args : List Str) (h1 : k.op.StarPos c!"name") :
    M.Good ParseErr (F16_VolGroup.parse k args) fun _ => True := by
  unfold F16_VolGroup.parse
  repeat' (first | (with_reducible apply FC3_VolGroup.parse_good <;> assumption) | good_step | good_fact)

theorem FC3_XConfig.parse_good (k : Info) (args : List Str) :
    M.Good ParseErr (FC3_XConfig.parse k args) fun _ => True := by
  unfold FC3_XConfig.parse
  repeat' (first | good_step | good_fact)

theorem FC3_ZeroMbr.parse_good (k : Info) (args : List Str) :
    M.Good ParseErr (FC3_ZeroMbr.parse k args) fun _ => True := by
  unfold FC3_ZeroMbr.parse
  repeat' (first | good_step | good_fact)

theorem F9_ZeroMbr.parse_good (k : Info) (args : List Str) :
    M.Good ParseErr (F9_ZeroMbr.parse k args) fun _ => True := by
  unfold F9_ZeroMbr.parse
  repeat' (first | good_step | good_fact)

theorem FC3_ZFCP.parse_good (k : Info) (args : List Str) :
    M.Good ParseErr (FC3_ZFCP.parse k args) fun _ => True := by
  unfold FC3_ZFCP.parse
  repeat' (first | good_step | good_fact)

theorem F32_Zipl.parse_good (k : Info) (args : List Str) :
    M.Good ParseErr (F32_Zipl.parse k args) fun _ => True := by
  unfold F32_Zipl.parse
  repeat' (first | good_step | good_fact)

end Ks.Cmd
