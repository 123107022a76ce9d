import Verif.Commands.NearLogic
import Verif.Commands.Maps
/-!
# What the `parse` functions do with the line number

Written by `scripts/gen_near.py`.
-/
namespace Ks.Cmd

theorem FC6_MultiPath.findParent_rel (device mpdev : Val) (l l' : List Ns) (h : NearL l l') (x : Nat) (parent : Option Nat) :
    M.Rel Eq (FC6_MultiPath.findParent device mpdev l x parent) (FC6_MultiPath.findParent device mpdev l' x parent) := by
  induction l generalizing l' x parent with
  | nil =>
    cases l' with
    | nil => exact rel_pure rfl
    | cons _ _ => simp [NearL] at h
  | cons a t ih =>
    obtain ⟨a', t', rfl, ha, ht⟩ := nearL_cons h
    unfold FC6_MultiPath.findParent
    rw [ha.get (k := c!"paths") (by decide), ha.getD (k := c!"name") (by decide)]
    cases a'.get c!"paths" with
    | none => exact rel_bind_same same_throw fun _ => rel_bind (rel_failIf rfl) fun _ _ _ => ih _ ht _ _
    | some p => exact rel_bind_same same_pure fun _ => rel_bind (rel_failIf rfl) fun _ _ _ => ih _ ht _ _

theorem FC6_MultiPath.parse_rel (k : Info) (_hd : k.dc.Blind) (args : List Str) :
    M.Rel Near (FC6_MultiPath.parse k args) (FC6_MultiPath.parse k args) := by
  unfold FC6_MultiPath.parse
  refine rel_bind_same same_parseArgs fun ns => ?_
  extract_lets dd
  refine rel_bind_lineno fun n n' => ?_
  extract_lets d1 d1'
  have h1 : Near d1 d1' := near_set_lineno (Near.refl dd)
  refine rel_bind_lift (by rw [h1.getD (k := c!"name") (by decide)]) fun mpdev => ?_
  extract_lets d2 new d2' new'
  have h2 : Near d2 d2' := near_set h1 rfl
  refine rel_bind_dataList fun l l' hl => ?_
  rw [h2.getD (k := c!"device") (by decide)]
  refine rel_bind (FC6_MultiPath.findParent_rel _ _ _ _ hl _ _) fun parent _ e => ?_
  subst e
  have hn : new = new' := by
    show ((d2.getD c!"device").fmt, (d2.getD c!"rule").fmt) = _
    rw [h2.getD (k := c!"device") (by decide), h2.getD (k := c!"rule") (by decide)]
  rw [h2.getD (k := c!"name") (by decide), hn]
  cases parent.filter (· ≠ 0) with
  | none => exact rel_pure (Near.refl _)
  | some x =>
    refine rel_bind_unit (rel_setData (nearL_modify hl (fun d d' hd => near_set hd ?_) x)) (rel_pure h2)
    rw [hd.getD (k := c!"paths") (by decide)]

theorem FC3_Authconfig.parse_same (_k : Info) (_args : List Str) :
    M.Same (FC3_Authconfig.parse _k _args) := by
  unfold FC3_Authconfig.parse
  repeat' (first | same_step)

theorem F28_Authconfig.parse_same (k : Info) (args : List Str) :
    M.Same (F28_Authconfig.parse k args) := by
  unfold F28_Authconfig.parse
  repeat' (first | (with_reducible apply FC3_Authconfig.parse_same) | same_step)

theorem F28_Authselect.parse_same (_k : Info) (_args : List Str) :
    M.Same (F28_Authselect.parse _k _args) := by
  unfold F28_Authselect.parse
  repeat' (first | same_step)

theorem FC3_AutoPart.parse_same (_k : Info) (args : List Str) :
    M.Same (FC3_AutoPart.parse _k args) := by
  unfold FC3_AutoPart.parse
  repeat' (first | same_step)

theorem F9_AutoPart.parse_same (k : Info) (args : List Str) :
    M.Same (F9_AutoPart.parse k args) := by
  unfold F9_AutoPart.parse
  repeat' (first | same_step)

theorem RHEL6_AutoPart.parse_same (k : Info) (args : List Str) :
    M.Same (RHEL6_AutoPart.parse k args) := by
  unfold RHEL6_AutoPart.parse
  repeat' (first | (with_reducible apply F9_AutoPart.parse_same) | same_step)

theorem F17_AutoPart.parse_same (k : Info) (args : List Str) :
    M.Same (F17_AutoPart.parse k args) := by
  unfold F17_AutoPart.parse
  repeat' (first | (with_reducible apply F9_AutoPart.parse_same) | same_step)

theorem F20_AutoPart.parse_same (k : Info) (args : List Str) :
    M.Same (F20_AutoPart.parse k args) := by
  unfold F20_AutoPart.parse
  repeat' (first | (with_reducible apply F17_AutoPart.parse_same) | same_step)

theorem F21_AutoPart.parse_same (k : Info) (args : List Str) :
    M.Same (F21_AutoPart.parse k args) := by
  unfold F21_AutoPart.parse
  repeat' (first | (with_reducible apply F20_AutoPart.parse_same) | same_step)

theorem F23_AutoPart.parse_same (k : Info) (args : List Str) :
    M.Same (F23_AutoPart.parse k args) := by
  unfold F23_AutoPart.parse
  repeat' (first | (with_reducible apply F21_AutoPart.parse_same) | same_step)

theorem RHEL7_AutoPart.parse_same (k : Info) (args : List Str) :
    M.Same (RHEL7_AutoPart.parse k args) := by
  unfold RHEL7_AutoPart.parse
  repeat' (first | (with_reducible apply F21_AutoPart.parse_same) | same_step)

theorem F29_AutoPart.parse_same (k : Info) (args : List Str) :
    M.Same (F29_AutoPart.parse k args) := by
  unfold F29_AutoPart.parse
  repeat' (first | (with_reducible apply F23_AutoPart.parse_same) | same_step)

theorem RHEL8_AutoPart.parse_same (k : Info) (args : List Str) :
    M.Same (RHEL8_AutoPart.parse k args) := by
  unfold RHEL8_AutoPart.parse
  repeat' (first | (with_reducible apply F29_AutoPart.parse_same) | same_step)

theorem FC3_AutoStep.parse_same (k : Info) (args : List Str) :
    M.Same (FC3_AutoStep.parse k args) := by
  unfold FC3_AutoStep.parse
  repeat' (first | same_step)

theorem FC3_Bootloader.parse_same (k : Info) (args : List Str) :
    M.Same (FC3_Bootloader.parse k args) := by
  unfold FC3_Bootloader.parse
  repeat' (first | same_step)

theorem FC4_Bootloader.parse_same (k : Info) (args : List Str) :
    M.Same (FC4_Bootloader.parse k args) := by
  unfold FC4_Bootloader.parse
  repeat' (first | same_step)

theorem F15_Bootloader.parse_same (k : Info) (args : List Str) :
    M.Same (F15_Bootloader.parse k args) := by
  unfold F15_Bootloader.parse
  repeat' (first | same_step)

theorem F17_Bootloader.parse_same (k : Info) (args : List Str) :
    M.Same (F17_Bootloader.parse k args) := by
  unfold F17_Bootloader.parse
  repeat' (first | (with_reducible apply F15_Bootloader.parse_same) | same_step)

theorem RHEL6_Bootloader.parse_same (k : Info) (args : List Str) :
    M.Same (RHEL6_Bootloader.parse k args) := by
  unfold RHEL6_Bootloader.parse
  repeat' (first | same_step)

theorem F17_BTRFS.parse_rel (k : Info) (_hd : k.dc.Blind) (args : List Str) :
    M.Rel Near (F17_BTRFS.parse k args) (F17_BTRFS.parse k args) := by
  unfold F17_BTRFS.parse
  dsimp -failIfUnchanged only
  repeat' (first | rel_step)

theorem F23_BTRFS.parse_rel (k : Info) (_hd : k.dc.Blind) (args : List Str) :
    M.Rel Near (F23_BTRFS.parse k args) (F23_BTRFS.parse k args) := by
  unfold F23_BTRFS.parse
  dsimp -failIfUnchanged only
  repeat' (first | (with_reducible apply rel_bind_near (F17_BTRFS.parse_rel _ _hd _); intro _ _ _) | rel_step)

theorem FC3_Cdrom.parse_same (_k : Info) (args : List Str) :
    M.Same (FC3_Cdrom.parse _k args) := by
  unfold FC3_Cdrom.parse
  repeat' (first | same_step)

theorem FC3_ClearPart.parse_same (k : Info) (args : List Str) :
    M.Same (FC3_ClearPart.parse k args) := by
  unfold FC3_ClearPart.parse
  repeat' (first | same_step)

theorem F17_ClearPart.parse_same (k : Info) (args : List Str) :
    M.Same (F17_ClearPart.parse k args) := by
  unfold F17_ClearPart.parse
  repeat' (first | (with_reducible apply FC3_ClearPart.parse_same) | same_step)

theorem FC3_Device.parse_same (k : Info) (args : List Str) :
    M.Same (FC3_Device.parse k args) := by
  unfold FC3_Device.parse
  repeat' (first | same_step)

theorem F8_Device.parse_rel (k : Info) (_hd : k.dc.Blind) (args : List Str) :
    M.Rel Near (F8_Device.parse k args) (F8_Device.parse k args) := by
  unfold F8_Device.parse
  dsimp -failIfUnchanged only
  repeat' (first | rel_step)

theorem FC3_DeviceProbe.parse_same (_k : Info) (args : List Str) :
    M.Same (FC3_DeviceProbe.parse _k args) := by
  unfold FC3_DeviceProbe.parse
  repeat' (first | same_step)

theorem FC3_DisplayMode.parse_same (k : Info) (args : List Str) :
    M.Same (FC3_DisplayMode.parse k args) := by
  unfold FC3_DisplayMode.parse
  repeat' (first | same_step)

theorem F26_DisplayMode.parse_same (k : Info) (args : List Str) :
    M.Same (F26_DisplayMode.parse k args) := by
  unfold F26_DisplayMode.parse
  repeat' (first | (with_reducible apply FC3_DisplayMode.parse_same) | same_step)

theorem FC6_DmRaid.parse_rel (k : Info) (_hd : k.dc.Blind) (args : List Str) :
    M.Rel Near (FC6_DmRaid.parse k args) (FC6_DmRaid.parse k args) := by
  unfold FC6_DmRaid.parse
  dsimp -failIfUnchanged only
  repeat' (first | rel_step)

theorem FC3_DriverDisk.parse_rel (k : Info) (_hd : k.dc.Blind) (args : List Str) :
    M.Rel Near (FC3_DriverDisk.parse k args) (FC3_DriverDisk.parse k args) := by
  unfold FC3_DriverDisk.parse
  dsimp -failIfUnchanged only
  repeat' (first | rel_step)

theorem FC4_DriverDisk.parse_rel (k : Info) (_hd : k.dc.Blind) (args : List Str) :
    M.Rel Near (FC4_DriverDisk.parse k args) (FC4_DriverDisk.parse k args) := by
  unfold FC4_DriverDisk.parse
  dsimp -failIfUnchanged only
  repeat' (first | rel_step)

theorem F20_Eula.parse_same (k : Info) (args : List Str) :
    M.Same (F20_Eula.parse k args) := by
  unfold F20_Eula.parse
  repeat' (first | same_step)

theorem F12_Fcoe.parse_rel (k : Info) (_hd : k.dc.Blind) (args : List Str) :
    M.Rel Near (F12_Fcoe.parse k args) (F12_Fcoe.parse k args) := by
  unfold F12_Fcoe.parse
  dsimp -failIfUnchanged only
  repeat' (first | rel_step)

theorem FC3_Firewall.parse_same (k : Info) (args : List Str) :
    M.Same (FC3_Firewall.parse k args) := by
  unfold FC3_Firewall.parse
  repeat' (first | same_step)

theorem FC3_Firstboot.parse_same (k : Info) (args : List Str) :
    M.Same (FC3_Firstboot.parse k args) := by
  unfold FC3_Firstboot.parse
  repeat' (first | same_step)

theorem F12_Group.parse_rel (k : Info) (_hd : k.dc.Blind) (args : List Str) :
    M.Rel Near (F12_Group.parse k args) (F12_Group.parse k args) := by
  unfold F12_Group.parse
  dsimp -failIfUnchanged only
  repeat' (first | rel_step)

theorem FC3_HardDrive.parse_same (k : Info) (args : List Str) :
    M.Same (FC3_HardDrive.parse k args) := by
  unfold FC3_HardDrive.parse
  repeat' (first | same_step)

theorem F33_HardDrive.parse_same (k : Info) (args : List Str) :
    M.Same (F33_HardDrive.parse k args) := by
  unfold F33_HardDrive.parse
  repeat' (first | same_step)

theorem RHEL7_Hmc.parse_same (_k : Info) (args : List Str) :
    M.Same (RHEL7_Hmc.parse _k args) := by
  unfold RHEL7_Hmc.parse
  repeat' (first | same_step)

theorem FC3_IgnoreDisk.parse_same (k : Info) (args : List Str) :
    M.Same (FC3_IgnoreDisk.parse k args) := by
  unfold FC3_IgnoreDisk.parse
  repeat' (first | same_step)

theorem F8_IgnoreDisk.parse_same (k : Info) (args : List Str) :
    M.Same (F8_IgnoreDisk.parse k args) := by
  unfold F8_IgnoreDisk.parse
  repeat' (first | (with_reducible apply FC3_IgnoreDisk.parse_same) | same_step)

theorem RHEL6_IgnoreDisk.parse_same (k : Info) (args : List Str) :
    M.Same (RHEL6_IgnoreDisk.parse k args) := by
  unfold RHEL6_IgnoreDisk.parse
  repeat' (first | (with_reducible apply FC3_IgnoreDisk.parse_same) | same_step)

theorem F29_IgnoreDisk.parse_same (k : Info) (args : List Str) :
    M.Same (F29_IgnoreDisk.parse k args) := by
  unfold F29_IgnoreDisk.parse
  repeat' (first | (with_reducible apply F8_IgnoreDisk.parse_same) | same_step)

theorem F11_Upgrade.parse_same (k : Info) (args : List Str) :
    M.Same (F11_Upgrade.parse k args) := by
  unfold F11_Upgrade.parse
  repeat' (first | same_step)

theorem F20_Install.parse_same (k : Info) (args : List Str) :
    M.Same (F20_Install.parse k args) := by
  unfold F20_Install.parse
  repeat' (first | (with_reducible apply F11_Upgrade.parse_same) | same_step)

theorem FC3_Interactive.parse_same (k : Info) (args : List Str) :
    M.Same (FC3_Interactive.parse k args) := by
  unfold FC3_Interactive.parse
  repeat' (first | same_step)

theorem FC6_Iscsi.parse_rel (k : Info) (_hd : k.dc.Blind) (args : List Str) :
    M.Rel Near (FC6_Iscsi.parse k args) (FC6_Iscsi.parse k args) := by
  unfold FC6_Iscsi.parse
  dsimp -failIfUnchanged only
  repeat' (first | rel_step)

theorem FC6_IscsiName.parse_same (k : Info) (args : List Str) :
    M.Same (FC6_IscsiName.parse k args) := by
  unfold FC6_IscsiName.parse
  repeat' (first | same_step)

theorem RHEL5_Key.parse_same (k : Info) (args : List Str) :
    M.Same (RHEL5_Key.parse k args) := by
  unfold RHEL5_Key.parse
  repeat' (first | same_step)

theorem FC3_Keyboard.parse_same (k : Info) (args : List Str) :
    M.Same (FC3_Keyboard.parse k args) := by
  unfold FC3_Keyboard.parse
  repeat' (first | same_step)

theorem F18_Keyboard.parse_same (k : Info) (args : List Str) :
    M.Same (F18_Keyboard.parse k args) := by
  unfold F18_Keyboard.parse
  repeat' (first | same_step)

theorem FC3_Lang.parse_same (k : Info) (args : List Str) :
    M.Same (FC3_Lang.parse k args) := by
  unfold FC3_Lang.parse
  repeat' (first | same_step)

theorem FC3_LangSupport.parse_same (k : Info) (args : List Str) :
    M.Same (FC3_LangSupport.parse k args) := by
  unfold FC3_LangSupport.parse
  repeat' (first | same_step)

theorem FC3_LiloCheck.parse_same (k : Info) (args : List Str) :
    M.Same (FC3_LiloCheck.parse k args) := by
  unfold FC3_LiloCheck.parse
  repeat' (first | same_step)

theorem F19_Liveimg.parse_same (k : Info) (args : List Str) :
    M.Same (F19_Liveimg.parse k args) := by
  unfold F19_Liveimg.parse
  repeat' (first | same_step)

theorem FC6_Logging.parse_same (k : Info) (args : List Str) :
    M.Same (FC6_Logging.parse k args) := by
  unfold FC6_Logging.parse
  repeat' (first | same_step)

theorem FC3_LogVol.parse_rel (k : Info) (_hd : k.dc.Blind) (args : List Str) :
    M.Rel Near (FC3_LogVol.parse k args) (FC3_LogVol.parse k args) := by
  unfold FC3_LogVol.parse
  dsimp -failIfUnchanged only
  repeat' (first | rel_step)

theorem RHEL6_LogVol.parse_rel (k : Info) (_hd : k.dc.Blind) (args : List Str) :
    M.Rel Near (RHEL6_LogVol.parse k args) (RHEL6_LogVol.parse k args) := by
  unfold RHEL6_LogVol.parse
  dsimp -failIfUnchanged only
  repeat' (first | (with_reducible apply rel_bind_near (FC3_LogVol.parse_rel _ _hd _); intro _ _ _) | rel_step)

theorem F17_LogVol.parse_rel (k : Info) (_hd : k.dc.Blind) (args : List Str) :
    M.Rel Near (F17_LogVol.parse k args) (F17_LogVol.parse k args) := by
  unfold F17_LogVol.parse
  dsimp -failIfUnchanged only
  repeat' (first | (with_reducible apply rel_bind_near (FC3_LogVol.parse_rel _ _hd _); intro _ _ _) | rel_step)

theorem F20_LogVol.parse_rel (k : Info) (_hd : k.dc.Blind) (args : List Str) :
    M.Rel Near (F20_LogVol.parse k args) (F20_LogVol.parse k args) := by
  unfold F20_LogVol.parse
  dsimp -failIfUnchanged only
  repeat' (first | (with_reducible apply rel_bind_near (F17_LogVol.parse_rel _ _hd _); intro _ _ _) | rel_step)

theorem F21_LogVol.parse_rel (k : Info) (_hd : k.dc.Blind) (args : List Str) :
    M.Rel Near (F21_LogVol.parse k args) (F21_LogVol.parse k args) := by
  unfold F21_LogVol.parse
  dsimp -failIfUnchanged only
  repeat' (first | (with_reducible apply rel_bind_near (F20_LogVol.parse_rel _ _hd _); intro _ _ _) | rel_step)

theorem RHEL7_LogVol.parse_rel (k : Info) (_hd : k.dc.Blind) (args : List Str) :
    M.Rel Near (RHEL7_LogVol.parse k args) (RHEL7_LogVol.parse k args) := by
  unfold RHEL7_LogVol.parse
  dsimp -failIfUnchanged only
  repeat' (first | (with_reducible apply rel_bind_near (F21_LogVol.parse_rel _ _hd _); intro _ _ _) | rel_step)

theorem F23_LogVol.parse_rel (k : Info) (_hd : k.dc.Blind) (args : List Str) :
    M.Rel Near (F23_LogVol.parse k args) (F23_LogVol.parse k args) := by
  unfold F23_LogVol.parse
  dsimp -failIfUnchanged only
  repeat' (first | (with_reducible apply rel_bind_near (F21_LogVol.parse_rel _ _hd _); intro _ _ _) | rel_step)

theorem F29_LogVol.parse_rel (k : Info) (_hd : k.dc.Blind) (args : List Str) :
    M.Rel Near (F29_LogVol.parse k args) (F29_LogVol.parse k args) := by
  unfold F29_LogVol.parse
  dsimp -failIfUnchanged only
  repeat' (first | (with_reducible apply rel_bind_near (F23_LogVol.parse_rel _ _hd _); intro _ _ _) | rel_step)

theorem RHEL8_LogVol.parse_rel (k : Info) (_hd : k.dc.Blind) (args : List Str) :
    M.Rel Near (RHEL8_LogVol.parse k args) (RHEL8_LogVol.parse k args) := by
  unfold RHEL8_LogVol.parse
  dsimp -failIfUnchanged only
  repeat' (first | (with_reducible apply rel_bind_near (F29_LogVol.parse_rel _ _hd _); intro _ _ _) | rel_step)

theorem FC4_MediaCheck.parse_same (k : Info) (args : List Str) :
    M.Same (FC4_MediaCheck.parse k args) := by
  unfold FC4_MediaCheck.parse
  repeat' (first | same_step)

theorem F29_Module.parse_rel (k : Info) (_hd : k.dc.Blind) (args : List Str) :
    M.Rel Near (F29_Module.parse k args) (F29_Module.parse k args) := by
  unfold F29_Module.parse
  dsimp -failIfUnchanged only
  repeat' (first | rel_step)

theorem FC3_Monitor.parse_same (k : Info) (args : List Str) :
    M.Same (FC3_Monitor.parse k args) := by
  unfold FC3_Monitor.parse
  repeat' (first | same_step)

theorem F27_Mount.parse_rel (k : Info) (_hd : k.dc.Blind) (args : List Str) :
    M.Rel Near (F27_Mount.parse k args) (F27_Mount.parse k args) := by
  unfold F27_Mount.parse
  dsimp -failIfUnchanged only
  repeat' (first | rel_step)

theorem RHEL3_Mouse.parse_same (k : Info) (args : List Str) :
    M.Same (RHEL3_Mouse.parse k args) := by
  unfold RHEL3_Mouse.parse
  repeat' (first | same_step)

theorem FC3_Network.parse_rel (k : Info) (_hd : k.dc.Blind) (args : List Str) :
    M.Rel Near (FC3_Network.parse k args) (FC3_Network.parse k args) := by
  unfold FC3_Network.parse
  dsimp -failIfUnchanged only
  repeat' (first | rel_step)

theorem F22_Network.parse_rel (k : Info) (_hd : k.dc.Blind) (args : List Str) :
    M.Rel Near (F22_Network.parse k args) (F22_Network.parse k args) := by
  unfold F22_Network.parse
  dsimp -failIfUnchanged only
  repeat' (first | (with_reducible apply rel_bind_near (FC3_Network.parse_rel _ _hd _); intro _ _ _) | rel_step)

theorem F24_Network.parse_rel (k : Info) (_hd : k.dc.Blind) (args : List Str) :
    M.Rel Near (F24_Network.parse k args) (F24_Network.parse k args) := by
  unfold F24_Network.parse
  dsimp -failIfUnchanged only
  repeat' (first | (with_reducible apply rel_bind_near (F22_Network.parse_rel _ _hd _); intro _ _ _) | rel_step)

theorem F27_Network.parse_rel (k : Info) (_hd : k.dc.Blind) (args : List Str) :
    M.Rel Near (F27_Network.parse k args) (F27_Network.parse k args) := by
  unfold F27_Network.parse
  dsimp -failIfUnchanged only
  repeat' (first | (with_reducible apply rel_bind_near (F24_Network.parse_rel _ _hd _); intro _ _ _) | rel_step)

theorem RHEL7_Network.parse_rel (k : Info) (_hd : k.dc.Blind) (args : List Str) :
    M.Rel Near (RHEL7_Network.parse k args) (RHEL7_Network.parse k args) := by
  unfold RHEL7_Network.parse
  refine rel_bind_near (FC3_Network.parse_rel _ _hd _) fun d d' h => ?_
  rw [h.getD (k := c!"interfacename") (by decide)]
  cases validateInterfaceName (d'.getD c!"interfacename").fmt <;> dsimp only <;> repeat' rel_step

theorem FC3_NFS.parse_same (k : Info) (args : List Str) :
    M.Same (FC3_NFS.parse k args) := by
  unfold FC3_NFS.parse
  repeat' (first | same_step)

theorem F28_Nvdimm.parse_rel (k : Info) (_hd : k.dc.Blind) (args : List Str) :
    M.Rel Near (F28_Nvdimm.parse k args) (F28_Nvdimm.parse k args) := by
  unfold F28_Nvdimm.parse
  dsimp -failIfUnchanged only
  repeat' (first | rel_step)

theorem F21_OSTreeSetup.parse_same (k : Info) (args : List Str) :
    M.Same (F21_OSTreeSetup.parse k args) := by
  unfold F21_OSTreeSetup.parse
  repeat' (first | same_step)

theorem FC3_Partition.parse_rel (k : Info) (_hd : k.dc.Blind) (args : List Str) :
    M.Rel Near (FC3_Partition.parse k args) (FC3_Partition.parse k args) := by
  unfold FC3_Partition.parse
  dsimp -failIfUnchanged only
  repeat' (first | rel_step)

theorem RHEL6_Partition.parse_rel (k : Info) (_hd : k.dc.Blind) (args : List Str) :
    M.Rel Near (RHEL6_Partition.parse k args) (RHEL6_Partition.parse k args) := by
  unfold RHEL6_Partition.parse
  dsimp -failIfUnchanged only
  repeat' (first | (with_reducible apply rel_bind_near (FC3_Partition.parse_rel _ _hd _); intro _ _ _) | rel_step)

theorem F17_Partition.parse_rel (k : Info) (_hd : k.dc.Blind) (args : List Str) :
    M.Rel Near (F17_Partition.parse k args) (F17_Partition.parse k args) := by
  unfold F17_Partition.parse
  dsimp -failIfUnchanged only
  repeat' (first | (with_reducible apply rel_bind_near (FC3_Partition.parse_rel _ _hd _); intro _ _ _) | rel_step)

theorem F20_Partition.parse_rel (k : Info) (_hd : k.dc.Blind) (args : List Str) :
    M.Rel Near (F20_Partition.parse k args) (F20_Partition.parse k args) := by
  unfold F20_Partition.parse
  dsimp -failIfUnchanged only
  repeat' (first | (with_reducible apply rel_bind_near (F17_Partition.parse_rel _ _hd _); intro _ _ _) | rel_step)

theorem F23_Partition.parse_rel (k : Info) (_hd : k.dc.Blind) (args : List Str) :
    M.Rel Near (F23_Partition.parse k args) (F23_Partition.parse k args) := by
  unfold F23_Partition.parse
  dsimp -failIfUnchanged only
  repeat' (first | (with_reducible apply rel_bind_near (F20_Partition.parse_rel _ _hd _); intro _ _ _) | rel_step)

theorem F29_Partition.parse_rel (k : Info) (_hd : k.dc.Blind) (args : List Str) :
    M.Rel Near (F29_Partition.parse k args) (F29_Partition.parse k args) := by
  unfold F29_Partition.parse
  dsimp -failIfUnchanged only
  repeat' (first | (with_reducible apply rel_bind_near (F23_Partition.parse_rel _ _hd _); intro _ _ _) | rel_step)

theorem RHEL8_Partition.parse_rel (k : Info) (_hd : k.dc.Blind) (args : List Str) :
    M.Rel Near (RHEL8_Partition.parse k args) (RHEL8_Partition.parse k args) := by
  unfold RHEL8_Partition.parse
  dsimp -failIfUnchanged only
  repeat' (first | (with_reducible apply rel_bind_near (F29_Partition.parse_rel _ _hd _); intro _ _ _) | rel_step)

theorem FC3_Raid.parse_rel (k : Info) (_hd : k.dc.Blind) (args : List Str) :
    M.Rel Near (FC3_Raid.parse k args) (FC3_Raid.parse k args) := by
  unfold FC3_Raid.parse
  dsimp -failIfUnchanged only
  repeat' (first | rel_step)

theorem RHEL6_Raid.parse_rel (k : Info) (_hd : k.dc.Blind) (args : List Str) :
    M.Rel Near (RHEL6_Raid.parse k args) (RHEL6_Raid.parse k args) := by
  unfold RHEL6_Raid.parse
  dsimp -failIfUnchanged only
  repeat' (first | (with_reducible apply rel_bind_near (FC3_Raid.parse_rel _ _hd _); intro _ _ _) | rel_step)

theorem F20_Raid.parse_rel (k : Info) (_hd : k.dc.Blind) (args : List Str) :
    M.Rel Near (F20_Raid.parse k args) (F20_Raid.parse k args) := by
  unfold F20_Raid.parse
  dsimp -failIfUnchanged only
  repeat' (first | (with_reducible apply rel_bind_near (FC3_Raid.parse_rel _ _hd _); intro _ _ _) | rel_step)

theorem F23_Raid.parse_rel (k : Info) (_hd : k.dc.Blind) (args : List Str) :
    M.Rel Near (F23_Raid.parse k args) (F23_Raid.parse k args) := by
  unfold F23_Raid.parse
  dsimp -failIfUnchanged only
  repeat' (first | (with_reducible apply rel_bind_near (F20_Raid.parse_rel _ _hd _); intro _ _ _) | rel_step)

theorem F29_Raid.parse_rel (k : Info) (_hd : k.dc.Blind) (args : List Str) :
    M.Rel Near (F29_Raid.parse k args) (F29_Raid.parse k args) := by
  unfold F29_Raid.parse
  dsimp -failIfUnchanged only
  repeat' (first | (with_reducible apply rel_bind_near (F23_Raid.parse_rel _ _hd _); intro _ _ _) | rel_step)

theorem RHEL8_Raid.parse_rel (k : Info) (_hd : k.dc.Blind) (args : List Str) :
    M.Rel Near (RHEL8_Raid.parse k args) (RHEL8_Raid.parse k args) := by
  unfold RHEL8_Raid.parse
  dsimp -failIfUnchanged only
  repeat' (first | (with_reducible apply rel_bind_near (F29_Raid.parse_rel _ _hd _); intro _ _ _) | rel_step)

theorem F19_Realm.parse_same (_args : List Str) :
    M.Same (F19_Realm.parse _args) := by
  unfold F19_Realm.parse F19_Realm.parseArguments F19_Realm.parseJoin
  repeat' (first | same_step)

theorem FC3_Reboot.parse_same (_k : Info) (_args : List Str) :
    M.Same (FC3_Reboot.parse _k _args) := by
  unfold FC3_Reboot.parse
  repeat' (first | same_step)

theorem FC6_Reboot.parse_same (k : Info) (args : List Str) :
    M.Same (FC6_Reboot.parse k args) := by
  unfold FC6_Reboot.parse
  repeat' (first | (with_reducible apply FC3_Reboot.parse_same) | same_step)

theorem F18_Reboot.parse_same (k : Info) (args : List Str) :
    M.Same (F18_Reboot.parse k args) := by
  unfold F18_Reboot.parse
  repeat' (first | (with_reducible apply FC6_Reboot.parse_same) | same_step)

theorem FC6_Repo.parse_rel (k : Info) (_hd : k.dc.Blind) (args : List Str) :
    M.Rel Near (FC6_Repo.parse k args) (FC6_Repo.parse k args) := by
  unfold FC6_Repo.parse
  dsimp -failIfUnchanged only
  repeat' (first | rel_step)

theorem F23_ReqPart.parse_same (k : Info) (args : List Str) :
    M.Same (F23_ReqPart.parse k args) := by
  unfold F23_ReqPart.parse
  repeat' (first | same_step)

theorem F10_Rescue.parse_same (k : Info) (args : List Str) :
    M.Same (F10_Rescue.parse k args) := by
  unfold F10_Rescue.parse
  repeat' (first | same_step)

theorem RHEL8_RHSM.parse_same (k : Info) (args : List Str) :
    M.Same (RHEL8_RHSM.parse k args) := by
  unfold RHEL8_RHSM.parse
  repeat' (first | same_step)

theorem FC3_RootPw.parse_same (k : Info) (args : List Str) :
    M.Same (FC3_RootPw.parse k args) := by
  unfold FC3_RootPw.parse
  repeat' (first | same_step)

theorem F18_RootPw.parse_same (k : Info) (args : List Str) :
    M.Same (F18_RootPw.parse k args) := by
  unfold F18_RootPw.parse
  repeat' (first | same_step)

theorem FC3_SELinux.parse_same (k : Info) (args : List Str) :
    M.Same (FC3_SELinux.parse k args) := by
  unfold FC3_SELinux.parse
  repeat' (first | same_step)

theorem FC6_Services.parse_same (k : Info) (args : List Str) :
    M.Same (FC6_Services.parse k args) := by
  unfold FC6_Services.parse
  repeat' (first | same_step)

theorem FC3_SkipX.parse_same (k : Info) (args : List Str) :
    M.Same (FC3_SkipX.parse k args) := by
  unfold FC3_SkipX.parse
  repeat' (first | same_step)

theorem F26_Snapshot.parse_rel (k : Info) (_hd : k.dc.Blind) (args : List Str) :
    M.Rel Near (F26_Snapshot.parse k args) (F26_Snapshot.parse k args) := by
  unfold F26_Snapshot.parse
  dsimp -failIfUnchanged only
  repeat' (first | rel_step)

theorem F22_SshKey.parse_rel (k : Info) (_hd : k.dc.Blind) (args : List Str) :
    M.Rel Near (F22_SshKey.parse k args) (F22_SshKey.parse k args) := by
  unfold F22_SshKey.parse
  dsimp -failIfUnchanged only
  repeat' (first | rel_step)

theorem F13_SshPw.parse_rel (k : Info) (_hd : k.dc.Blind) (args : List Str) :
    M.Rel Near (F13_SshPw.parse k args) (F13_SshPw.parse k args) := by
  unfold F13_SshPw.parse
  dsimp -failIfUnchanged only
  repeat' (first | rel_step)

theorem RHEL8_Syspurpose.parse_same (k : Info) (args : List Str) :
    M.Same (RHEL8_Syspurpose.parse k args) := by
  unfold RHEL8_Syspurpose.parse
  repeat' (first | same_step)

theorem F33_Timesource.parse_rel (k : Info) (_hd : k.dc.Blind) (args : List Str) :
    M.Rel Near (F33_Timesource.parse k args) (F33_Timesource.parse k args) := by
  unfold F33_Timesource.parse
  dsimp -failIfUnchanged only
  repeat' (first | rel_step)

theorem FC3_Timezone.parse_same (k : Info) (args : List Str) :
    M.Same (FC3_Timezone.parse k args) := by
  unfold FC3_Timezone.parse
  repeat' (first | same_step)

theorem F18_Timezone.parse_same (k : Info) (args : List Str) :
    M.Same (F18_Timezone.parse k args) := by
  unfold F18_Timezone.parse
  repeat' (first | (with_reducible apply FC3_Timezone.parse_same) | same_step)

theorem F23_Timezone.parse_same (k : Info) (args : List Str) :
    M.Same (F23_Timezone.parse k args) := by
  unfold F23_Timezone.parse
  repeat' (first | (with_reducible apply FC3_Timezone.parse_same) | same_step)

theorem RHEL7_Timezone.parse_same (k : Info) (args : List Str) :
    M.Same (RHEL7_Timezone.parse k args) := by
  unfold RHEL7_Timezone.parse
  repeat' (first | same_step)

theorem F25_Timezone.parse_same (k : Info) (args : List Str) :
    M.Same (F25_Timezone.parse k args) := by
  unfold F25_Timezone.parse
  repeat' (first | same_step)

theorem F32_Timezone.parse_same (k : Info) (args : List Str) :
    M.Same (F32_Timezone.parse k args) := by
  unfold F32_Timezone.parse
  repeat' (first | (with_reducible apply F25_Timezone.parse_same) | same_step)

theorem F33_Timezone.parse_same (k : Info) (args : List Str) :
    M.Same (F33_Timezone.parse k args) := by
  unfold F33_Timezone.parse
  repeat' (first | (with_reducible apply F32_Timezone.parse_same) | same_step)

theorem RHEL6_UnsupportedHardware.parse_same (k : Info) (args : List Str) :
    M.Same (RHEL6_UnsupportedHardware.parse k args) := by
  unfold RHEL6_UnsupportedHardware.parse
  repeat' (first | same_step)

theorem F7_Updates.parse_same (k : Info) (args : List Str) :
    M.Same (F7_Updates.parse k args) := by
  unfold F7_Updates.parse
  repeat' (first | same_step)

theorem F34_Updates.parse_same (k : Info) (args : List Str) :
    M.Same (F34_Updates.parse k args) := by
  unfold F34_Updates.parse
  repeat' (first | same_step)

theorem FC3_Upgrade.parse_same (k : Info) (args : List Str) :
    M.Same (FC3_Upgrade.parse k args) := by
  unfold FC3_Upgrade.parse
  repeat' (first | same_step)

theorem FC3_Url.parse_same (k : Info) (args : List Str) :
    M.Same (FC3_Url.parse k args) := by
  unfold FC3_Url.parse
  repeat' (first | same_step)

theorem F18_Url.parse_same (k : Info) (args : List Str) :
    M.Same (F18_Url.parse k args) := by
  unfold F18_Url.parse
  repeat' (first | (with_reducible apply FC3_Url.parse_same) | same_step)

theorem FC6_User.parse_rel (k : Info) (_hd : k.dc.Blind) (args : List Str) :
    M.Rel Near (FC6_User.parse k args) (FC6_User.parse k args) := by
  unfold FC6_User.parse
  dsimp -failIfUnchanged only
  repeat' (first | rel_step)

theorem FC3_Vnc.parse_same (k : Info) (args : List Str) :
    M.Same (FC3_Vnc.parse k args) := by
  unfold FC3_Vnc.parse
  repeat' (first | same_step)

theorem FC6_Vnc.parse_same (k : Info) (args : List Str) :
    M.Same (FC6_Vnc.parse k args) := by
  unfold FC6_Vnc.parse
  repeat' (first | (with_reducible apply FC3_Vnc.parse_same) | same_step)

theorem FC3_VolGroup.parse_rel (k : Info) (_hd : k.dc.Blind) (args : List Str) :
    M.Rel Near (FC3_VolGroup.parse k args) (FC3_VolGroup.parse k args) := by
  unfold FC3_VolGroup.parse
  dsimp -failIfUnchanged only
  repeat' (first | rel_step)

theorem F16_VolGroup.parse_rel (k : Info) (_hd : k.dc.Blind) (args : List Str) :
    M.Rel Near (F16_VolGroup.parse k args) (F16_VolGroup.parse k args) := by
  unfold F16_VolGroup.parse
  dsimp -failIfUnchanged only
  repeat' (first | (with_reducible apply rel_bind_near (FC3_VolGroup.parse_rel _ _hd _); intro _ _ _) | rel_step)

theorem FC3_XConfig.parse_same (k : Info) (args : List Str) :
    M.Same (FC3_XConfig.parse k args) := by
  unfold FC3_XConfig.parse
  repeat' (first | same_step)

theorem FC3_ZeroMbr.parse_same (k : Info) (args : List Str) :
    M.Same (FC3_ZeroMbr.parse k args) := by
  unfold FC3_ZeroMbr.parse
  repeat' (first | same_step)

theorem F9_ZeroMbr.parse_same (k : Info) (args : List Str) :
    M.Same (F9_ZeroMbr.parse k args) := by
  unfold F9_ZeroMbr.parse
  repeat' (first | same_step)

theorem FC3_ZFCP.parse_rel (k : Info) (_hd : k.dc.Blind) (args : List Str) :
    M.Rel Near (FC3_ZFCP.parse k args) (FC3_ZFCP.parse k args) := by
  unfold FC3_ZFCP.parse
  dsimp -failIfUnchanged only
  repeat' (first | rel_step)

theorem F32_Zipl.parse_same (k : Info) (args : List Str) :
    M.Same (F32_Zipl.parse k args) := by
  unfold F32_Zipl.parse
  repeat' (first | same_step)

end Ks.Cmd
