import Verif.Commands.Near1
/-!
# What the command classes do with the line number

Written by `scripts/gen_near.py`.
-/
namespace Ks.Cmd

theorem blind_cons {α : Type} {p : α → Prop} {a : α} {l : List α} (h : p a) (ht : ∀ x ∈ l, p x) : ∀ x ∈ a :: l, p x :=
  List.forall_mem_cons.2 ⟨h, ht⟩

theorem FC6_MultiPathData.cls_blind : FC6_MultiPathData.cls.Blind where
  eq _ _ _ _ _ _ := rfl
  str a a' h := by
    show FC6_MultiPathData.strText a = FC6_MultiPathData.strText a'
    unfold FC6_MultiPathData.strText
    simp (decide := true) only [h.get, h.getD]
    rw [Out.render_near h (by decide)]

theorem F33_TimesourceData.eq_near (a a' b b' : Ns) (ha : Near a a') (hb : Near b b') : F33_TimesourceData.eq a b = F33_TimesourceData.eq a' b' := by
  unfold F33_TimesourceData.eq
  rw [ha.getD (k := c!"ntp_server") (by decide), ha.getD (k := c!"ntp_pool") (by decide), sameAttrs_near (by decide) a a' b b' ha hb,
    sameAttrs_near (by decide) a a' b b' ha hb]

theorem FC3_RaidData.strText_near {args : Out} (ho : args.blind = true) {a a' : Ns} (h : Near a a') :
    FC3_RaidData.strText args a = FC3_RaidData.strText args a' := by
  unfold FC3_RaidData.strText
  simp (decide := true) [h.getD, Cond.eval_near h, Frag.render_near h, Out.render_near h, ho]

theorem FC3_VolGroupData.strText_near {args : Out} (ho : args.blind = true) {a a' : Ns} (h : Near a a') :
    FC3_VolGroupData.strText args a = FC3_VolGroupData.strText args a' := by
  unfold FC3_VolGroupData.strText
  simp (decide := true) [h.getD, Cond.eval_near h, Frag.render_near h, Out.render_near h, ho]

theorem F28_NvdimmData.strText_near {args : Out} (ho : args.blind = true) {a a' : Ns} (h : Near a a') :
    F28_NvdimmData.strText args a = F28_NvdimmData.strText args a' := by
  unfold F28_NvdimmData.strText
  simp (decide := true) [h.getD, Cond.eval_near h, Frag.render_near h, Out.render_near h, ho]

theorem F26_SnapshotData.strText_near {args : Out} (ho : args.blind = true) {a a' : Ns} (h : Near a a') :
    F26_SnapshotData.strText args a = F26_SnapshotData.strText args a' := by
  unfold F26_SnapshotData.strText
  simp (decide := true) [h.getD, Cond.eval_near h, Frag.render_near h, Out.render_near h, ho]

theorem F8_DeviceData.cls_blind : F8_DeviceData.cls.Blind := ⟨sameAttrs_near (by decide), fun a a' h => Out.render_near h (by decide +kernel)⟩

theorem FC6_DmRaidData.cls_blind : FC6_DmRaidData.cls.Blind := ⟨sameAttrs_near (by decide), fun a a' h => Out.render_near h (by decide +kernel)⟩

theorem FC4_DriverDiskData.cls_blind : FC4_DriverDiskData.cls.Blind := ⟨fun _ _ _ _ _ _ => rfl, fun a a' h => Out.render_near h (by decide +kernel)⟩

theorem F10_IscsiData.cls_blind : F10_IscsiData.cls.Blind := ⟨fun _ _ _ _ _ _ => rfl, fun a a' h => Out.render_near h (by decide +kernel)⟩

theorem F9_LogVolData.cls_blind : F9_LogVolData.cls.Blind := ⟨sameAttrs_near (by decide), fun a a' h => Out.render_near h (by decide +kernel)⟩

theorem F8_NetworkData.cls_blind : F8_NetworkData.cls.Blind := ⟨sameAttrs_near (by decide), fun a a' h => Out.render_near h (by decide +kernel)⟩

theorem F9_PartData.cls_blind : F9_PartData.cls.Blind := ⟨sameAttrs_near (by decide), fun a a' h => Out.render_near h (by decide +kernel)⟩

theorem F9_RaidData.cls_blind : F9_RaidData.cls.Blind := ⟨sameAttrs_near (by decide), fun a a' h => FC3_RaidData.strText_near (by decide +kernel) h⟩

theorem F8_RepoData.cls_blind : F8_RepoData.cls.Blind := ⟨sameAttrs_near (by decide), fun a a' h => Out.render_near h (by decide +kernel)⟩

theorem F8_UserData.cls_blind : F8_UserData.cls.Blind := ⟨sameAttrs_near (by decide), fun a a' h => Out.render_near h (by decide +kernel)⟩

theorem FC3_VolGroupData.cls_blind : FC3_VolGroupData.cls.Blind := ⟨sameAttrs_near (by decide), fun a a' h => FC3_VolGroupData.strText_near (by decide +kernel) h⟩

theorem FC3_ZFCPData.cls_blind : FC3_ZFCPData.cls.Blind := ⟨sameAttrs_near (by decide), fun a a' h => Out.render_near h (by decide +kernel)⟩

theorem F11_PartData.cls_blind : F11_PartData.cls.Blind := ⟨sameAttrs_near (by decide), fun a a' h => Out.render_near h (by decide +kernel)⟩

theorem F11_RepoData.cls_blind : F11_RepoData.cls.Blind := ⟨sameAttrs_near (by decide), fun a a' h => Out.render_near h (by decide +kernel)⟩

theorem F12_DriverDiskData.cls_blind : F12_DriverDiskData.cls.Blind := ⟨fun _ _ _ _ _ _ => rfl, fun a a' h => Out.render_near h (by decide +kernel)⟩

theorem F12_FcoeData.cls_blind : F12_FcoeData.cls.Blind := ⟨sameAttrs_near (by decide), fun a a' h => Out.render_near h (by decide +kernel)⟩

theorem F12_GroupData.cls_blind : F12_GroupData.cls.Blind := ⟨sameAttrs_near (by decide), fun a a' h => Out.render_near h (by decide +kernel)⟩

theorem F12_LogVolData.cls_blind : F12_LogVolData.cls.Blind := ⟨sameAttrs_near (by decide), fun a a' h => Out.render_near h (by decide +kernel)⟩

theorem F12_PartData.cls_blind : F12_PartData.cls.Blind := ⟨sameAttrs_near (by decide), fun a a' h => Out.render_near h (by decide +kernel)⟩

theorem F12_RaidData.cls_blind : F12_RaidData.cls.Blind := ⟨sameAttrs_near (by decide), fun a a' h => FC3_RaidData.strText_near (by decide +kernel) h⟩

theorem F12_UserData.cls_blind : F12_UserData.cls.Blind := ⟨sameAttrs_near (by decide), fun a a' h => Out.render_near h (by decide +kernel)⟩

theorem F12_ZFCPData.cls_blind : F12_ZFCPData.cls.Blind := ⟨sameAttrs_near (by decide), fun a a' h => Out.render_near h (by decide +kernel)⟩

theorem F13_FcoeData.cls_blind : F13_FcoeData.cls.Blind := ⟨sameAttrs_near (by decide), fun a a' h => Out.render_near h (by decide +kernel)⟩

theorem F13_RaidData.cls_blind : F13_RaidData.cls.Blind := ⟨sameAttrs_near (by decide), fun a a' h => FC3_RaidData.strText_near (by decide +kernel) h⟩

theorem F13_RepoData.cls_blind : F13_RepoData.cls.Blind := ⟨sameAttrs_near (by decide), fun a a' h => Out.render_near h (by decide +kernel)⟩

theorem F13_SshPwData.cls_blind : F13_SshPwData.cls.Blind := ⟨sameAttrs_near (by decide), fun a a' h => Out.render_near h (by decide +kernel)⟩

theorem F14_DriverDiskData.cls_blind : F14_DriverDiskData.cls.Blind := ⟨fun _ _ _ _ _ _ => rfl, fun a a' h => Out.render_near h (by decide +kernel)⟩

theorem F14_LogVolData.cls_blind : F14_LogVolData.cls.Blind := ⟨sameAttrs_near (by decide), fun a a' h => Out.render_near h (by decide +kernel)⟩

theorem F14_PartData.cls_blind : F14_PartData.cls.Blind := ⟨sameAttrs_near (by decide), fun a a' h => Out.render_near h (by decide +kernel)⟩

theorem F14_RaidData.cls_blind : F14_RaidData.cls.Blind := ⟨sameAttrs_near (by decide), fun a a' h => FC3_RaidData.strText_near (by decide +kernel) h⟩

theorem F14_RepoData.cls_blind : F14_RepoData.cls.Blind := ⟨sameAttrs_near (by decide), fun a a' h => Out.render_near h (by decide +kernel)⟩

theorem F14_ZFCPData.cls_blind : F14_ZFCPData.cls.Blind := ⟨sameAttrs_near (by decide), fun a a' h => Out.render_near h (by decide +kernel)⟩

theorem F15_LogVolData.cls_blind : F15_LogVolData.cls.Blind := ⟨sameAttrs_near (by decide), fun a a' h => Out.render_near h (by decide +kernel)⟩

theorem F15_RaidData.cls_blind : F15_RaidData.cls.Blind := ⟨sameAttrs_near (by decide), fun a a' h => FC3_RaidData.strText_near (by decide +kernel) h⟩

theorem F15_RepoData.cls_blind : F15_RepoData.cls.Blind := ⟨sameAttrs_near (by decide), fun a a' h => Out.render_near h (by decide +kernel)⟩

theorem F17_LogVolData.cls_blind : F17_LogVolData.cls.Blind := ⟨sameAttrs_near (by decide), fun a a' h => Out.render_near h (by decide +kernel)⟩

theorem F16_NetworkData.cls_blind : F16_NetworkData.cls.Blind := ⟨sameAttrs_near (by decide), fun a a' h => Out.render_near h (by decide +kernel)⟩

theorem F17_PartData.cls_blind : F17_PartData.cls.Blind := ⟨sameAttrs_near (by decide), fun a a' h => Out.render_near h (by decide +kernel)⟩

theorem F16_VolGroupData.cls_blind : F16_VolGroupData.cls.Blind := ⟨sameAttrs_near (by decide), fun a a' h => FC3_VolGroupData.strText_near (by decide +kernel) h⟩

theorem F17_BTRFSData.cls_blind : F17_BTRFSData.cls.Blind := ⟨sameAttrs_near (by decide), fun a a' h => Out.render_near h (by decide +kernel)⟩

theorem F17_IscsiData.cls_blind : F17_IscsiData.cls.Blind := ⟨fun _ _ _ _ _ _ => rfl, fun a a' h => Out.render_near h (by decide +kernel)⟩

theorem RHEL7_FcoeData.cls_blind : RHEL7_FcoeData.cls.Blind := ⟨sameAttrs_near (by decide), fun a a' h => Out.render_near h (by decide +kernel)⟩

theorem F18_LogVolData.cls_blind : F18_LogVolData.cls.Blind := ⟨sameAttrs_near (by decide), fun a a' h => Out.render_near h (by decide +kernel)⟩

theorem F18_PartData.cls_blind : F18_PartData.cls.Blind := ⟨sameAttrs_near (by decide), fun a a' h => Out.render_near h (by decide +kernel)⟩

theorem F18_RaidData.cls_blind : F18_RaidData.cls.Blind := ⟨sameAttrs_near (by decide), fun a a' h => FC3_RaidData.strText_near (by decide +kernel) h⟩

theorem F20_LogVolData.cls_blind : F20_LogVolData.cls.Blind := ⟨sameAttrs_near (by decide), fun a a' h => Out.render_near h (by decide +kernel)⟩

theorem F19_NetworkData.cls_blind : F19_NetworkData.cls.Blind := ⟨sameAttrs_near (by decide), fun a a' h => Out.render_near h (by decide +kernel)⟩

theorem F19_UserData.cls_blind : F19_UserData.cls.Blind := ⟨sameAttrs_near (by decide), fun a a' h => Out.render_near h (by decide +kernel)⟩

theorem F20_NetworkData.cls_blind : F20_NetworkData.cls.Blind := ⟨sameAttrs_near (by decide), fun a a' h => Out.render_near h (by decide +kernel)⟩

theorem F21_LogVolData.cls_blind : F21_LogVolData.cls.Blind := ⟨sameAttrs_near (by decide), fun a a' h => Out.render_near h (by decide +kernel)⟩

theorem F21_NetworkData.cls_blind : F21_NetworkData.cls.Blind := ⟨sameAttrs_near (by decide), fun a a' h => Out.render_near h (by decide +kernel)⟩

theorem F21_RepoData.cls_blind : F21_RepoData.cls.Blind := ⟨sameAttrs_near (by decide), fun a a' h => Out.render_near h (by decide +kernel)⟩

theorem F21_VolGroupData.cls_blind : F21_VolGroupData.cls.Blind := ⟨sameAttrs_near (by decide), fun a a' h => FC3_VolGroupData.strText_near (by decide +kernel) h⟩

theorem F22_NetworkData.cls_blind : F22_NetworkData.cls.Blind := ⟨sameAttrs_near (by decide), fun a a' h => Out.render_near h (by decide +kernel)⟩

theorem F22_SshKeyData.cls_blind : F22_SshKeyData.cls.Blind := ⟨sameAttrs_near (by decide), fun a a' h => Out.render_near h (by decide +kernel)⟩

theorem F23_BTRFSData.cls_blind : F23_BTRFSData.cls.Blind := ⟨sameAttrs_near (by decide), fun a a' h => Out.render_near h (by decide +kernel)⟩

theorem F23_LogVolData.cls_blind : F23_LogVolData.cls.Blind := ⟨sameAttrs_near (by decide), fun a a' h => Out.render_near h (by decide +kernel)⟩

theorem F23_PartData.cls_blind : F23_PartData.cls.Blind := ⟨sameAttrs_near (by decide), fun a a' h => Out.render_near h (by decide +kernel)⟩

theorem F23_RaidData.cls_blind : F23_RaidData.cls.Blind := ⟨sameAttrs_near (by decide), fun a a' h => FC3_RaidData.strText_near (by decide +kernel) h⟩

theorem F24_SshPwData.cls_blind : F24_SshPwData.cls.Blind := ⟨sameAttrs_near (by decide), fun a a' h => Out.render_near h (by decide +kernel)⟩

theorem F25_NetworkData.cls_blind : F25_NetworkData.cls.Blind := ⟨sameAttrs_near (by decide), fun a a' h => Out.render_near h (by decide +kernel)⟩

theorem F25_RaidData.cls_blind : F25_RaidData.cls.Blind := ⟨sameAttrs_near (by decide), fun a a' h => FC3_RaidData.strText_near (by decide +kernel) h⟩

theorem F26_SnapshotData.cls_blind : F26_SnapshotData.cls.Blind := ⟨sameAttrs_near (by decide), fun a a' h => F26_SnapshotData.strText_near (by decide +kernel) h⟩

theorem F27_MountData.cls_blind : F27_MountData.cls.Blind := ⟨sameAttrs_near (by decide), fun a a' h => Out.render_near h (by decide +kernel)⟩

theorem F27_NetworkData.cls_blind : F27_NetworkData.cls.Blind := ⟨sameAttrs_near (by decide), fun a a' h => Out.render_near h (by decide +kernel)⟩

theorem F27_RepoData.cls_blind : F27_RepoData.cls.Blind := ⟨sameAttrs_near (by decide), fun a a' h => Out.render_near h (by decide +kernel)⟩

theorem F28_FcoeData.cls_blind : F28_FcoeData.cls.Blind := ⟨sameAttrs_near (by decide), fun a a' h => Out.render_near h (by decide +kernel)⟩

theorem F28_NvdimmData.cls_blind : F28_NvdimmData.cls.Blind := ⟨sameAttrs_near (by decide), fun a a' h => F28_NvdimmData.strText_near (by decide +kernel) h⟩

theorem F29_ModuleData.cls_blind : F29_ModuleData.cls.Blind := ⟨sameAttrs_near (by decide), fun a a' h => Out.render_near h (by decide +kernel)⟩

theorem F29_LogVolData.cls_blind : F29_LogVolData.cls.Blind := ⟨sameAttrs_near (by decide), fun a a' h => Out.render_near h (by decide +kernel)⟩

theorem F29_PartData.cls_blind : F29_PartData.cls.Blind := ⟨sameAttrs_near (by decide), fun a a' h => Out.render_near h (by decide +kernel)⟩

theorem F29_RaidData.cls_blind : F29_RaidData.cls.Blind := ⟨sameAttrs_near (by decide), fun a a' h => FC3_RaidData.strText_near (by decide +kernel) h⟩

theorem F30_RepoData.cls_blind : F30_RepoData.cls.Blind := ⟨sameAttrs_near (by decide), fun a a' h => Out.render_near h (by decide +kernel)⟩

theorem F31_ModuleData.cls_blind : F31_ModuleData.cls.Blind := ⟨sameAttrs_near (by decide), fun a a' h => Out.render_near h (by decide +kernel)⟩

theorem F33_TimesourceData.cls_blind : F33_TimesourceData.cls.Blind := ⟨F33_TimesourceData.eq_near, fun a a' h => Out.render_near h (by decide +kernel)⟩

theorem FC6_IscsiData.cls_blind : FC6_IscsiData.cls.Blind := ⟨fun _ _ _ _ _ _ => rfl, fun a a' h => Out.render_near h (by decide +kernel)⟩

theorem FC4_LogVolData.cls_blind : FC4_LogVolData.cls.Blind := ⟨sameAttrs_near (by decide), fun a a' h => Out.render_near h (by decide +kernel)⟩

theorem FC6_NetworkData.cls_blind : FC6_NetworkData.cls.Blind := ⟨sameAttrs_near (by decide), fun a a' h => Out.render_near h (by decide +kernel)⟩

theorem FC4_PartData.cls_blind : FC4_PartData.cls.Blind := ⟨sameAttrs_near (by decide), fun a a' h => Out.render_near h (by decide +kernel)⟩

theorem F7_RaidData.cls_blind : F7_RaidData.cls.Blind := ⟨sameAttrs_near (by decide), fun a a' h => FC3_RaidData.strText_near (by decide +kernel) h⟩

theorem FC6_RepoData.cls_blind : FC6_RepoData.cls.Blind := ⟨sameAttrs_near (by decide), fun a a' h => Out.render_near h (by decide +kernel)⟩

theorem FC6_UserData.cls_blind : FC6_UserData.cls.Blind := ⟨sameAttrs_near (by decide), fun a a' h => Out.render_near h (by decide +kernel)⟩

theorem FC3_DriverDiskData.cls_blind : FC3_DriverDiskData.cls.Blind := ⟨fun _ _ _ _ _ _ => rfl, fun a a' h => Out.render_near h (by decide +kernel)⟩

theorem FC3_LogVolData.cls_blind : FC3_LogVolData.cls.Blind := ⟨sameAttrs_near (by decide), fun a a' h => Out.render_near h (by decide +kernel)⟩

theorem FC3_NetworkData.cls_blind : FC3_NetworkData.cls.Blind := ⟨sameAttrs_near (by decide), fun a a' h => Out.render_near h (by decide +kernel)⟩

theorem FC3_PartData.cls_blind : FC3_PartData.cls.Blind := ⟨sameAttrs_near (by decide), fun a a' h => Out.render_near h (by decide +kernel)⟩

theorem FC3_RaidData.cls_blind : FC3_RaidData.cls.Blind := ⟨sameAttrs_near (by decide), fun a a' h => FC3_RaidData.strText_near (by decide +kernel) h⟩

theorem FC4_NetworkData.cls_blind : FC4_NetworkData.cls.Blind := ⟨sameAttrs_near (by decide), fun a a' h => Out.render_near h (by decide +kernel)⟩

theorem FC4_RaidData.cls_blind : FC4_RaidData.cls.Blind := ⟨sameAttrs_near (by decide), fun a a' h => FC3_RaidData.strText_near (by decide +kernel) h⟩

theorem FC5_RaidData.cls_blind : FC5_RaidData.cls.Blind := ⟨sameAttrs_near (by decide), fun a a' h => FC3_RaidData.strText_near (by decide +kernel) h⟩

theorem RHEL4_NetworkData.cls_blind : RHEL4_NetworkData.cls.Blind := ⟨sameAttrs_near (by decide), fun a a' h => Out.render_near h (by decide +kernel)⟩

theorem RHEL5_LogVolData.cls_blind : RHEL5_LogVolData.cls.Blind := ⟨sameAttrs_near (by decide), fun a a' h => Out.render_near h (by decide +kernel)⟩

theorem RHEL5_PartData.cls_blind : RHEL5_PartData.cls.Blind := ⟨sameAttrs_near (by decide), fun a a' h => Out.render_near h (by decide +kernel)⟩

theorem RHEL5_RaidData.cls_blind : RHEL5_RaidData.cls.Blind := ⟨sameAttrs_near (by decide), fun a a' h => FC3_RaidData.strText_near (by decide +kernel) h⟩

theorem RHEL6_IscsiData.cls_blind : RHEL6_IscsiData.cls.Blind := ⟨fun _ _ _ _ _ _ => rfl, fun a a' h => Out.render_near h (by decide +kernel)⟩

theorem RHEL6_LogVolData.cls_blind : RHEL6_LogVolData.cls.Blind := ⟨sameAttrs_near (by decide), fun a a' h => Out.render_near h (by decide +kernel)⟩

theorem RHEL6_NetworkData.cls_blind : RHEL6_NetworkData.cls.Blind := ⟨sameAttrs_near (by decide), fun a a' h => Out.render_near h (by decide +kernel)⟩

theorem RHEL6_PartData.cls_blind : RHEL6_PartData.cls.Blind := ⟨sameAttrs_near (by decide), fun a a' h => Out.render_near h (by decide +kernel)⟩

theorem RHEL6_RaidData.cls_blind : RHEL6_RaidData.cls.Blind := ⟨sameAttrs_near (by decide), fun a a' h => FC3_RaidData.strText_near (by decide +kernel) h⟩

theorem RHEL6_RepoData.cls_blind : RHEL6_RepoData.cls.Blind := ⟨sameAttrs_near (by decide), fun a a' h => Out.render_near h (by decide +kernel)⟩

theorem RHEL7_BTRFSData.cls_blind : RHEL7_BTRFSData.cls.Blind := ⟨sameAttrs_near (by decide), fun a a' h => Out.render_near h (by decide +kernel)⟩

theorem RHEL7_LogVolData.cls_blind : RHEL7_LogVolData.cls.Blind := ⟨sameAttrs_near (by decide), fun a a' h => Out.render_near h (by decide +kernel)⟩

theorem RHEL7_NetworkData.cls_blind : RHEL7_NetworkData.cls.Blind := ⟨sameAttrs_near (by decide), fun a a' h => Out.render_near h (by decide +kernel)⟩

theorem RHEL7_PartData.cls_blind : RHEL7_PartData.cls.Blind := ⟨sameAttrs_near (by decide), fun a a' h => Out.render_near h (by decide +kernel)⟩

theorem RHEL7_RaidData.cls_blind : RHEL7_RaidData.cls.Blind := ⟨sameAttrs_near (by decide), fun a a' h => FC3_RaidData.strText_near (by decide +kernel) h⟩

theorem RHEL7_RepoData.cls_blind : RHEL7_RepoData.cls.Blind := ⟨sameAttrs_near (by decide), fun a a' h => Out.render_near h (by decide +kernel)⟩

theorem RHEL7_VolGroupData.cls_blind : RHEL7_VolGroupData.cls.Blind := ⟨sameAttrs_near (by decide), fun a a' h => FC3_VolGroupData.strText_near (by decide +kernel) h⟩

theorem RHEL8_ModuleData.cls_blind : RHEL8_ModuleData.cls.Blind := ⟨sameAttrs_near (by decide), fun a a' h => Out.render_near h (by decide +kernel)⟩

theorem RHEL8_FcoeData.cls_blind : RHEL8_FcoeData.cls.Blind := ⟨sameAttrs_near (by decide), fun a a' h => Out.render_near h (by decide +kernel)⟩

theorem RHEL8_LogVolData.cls_blind : RHEL8_LogVolData.cls.Blind := ⟨sameAttrs_near (by decide), fun a a' h => Out.render_near h (by decide +kernel)⟩

theorem RHEL8_PartData.cls_blind : RHEL8_PartData.cls.Blind := ⟨sameAttrs_near (by decide), fun a a' h => Out.render_near h (by decide +kernel)⟩

theorem RHEL8_RaidData.cls_blind : RHEL8_RaidData.cls.Blind := ⟨sameAttrs_near (by decide), fun a a' h => FC3_RaidData.strText_near (by decide +kernel) h⟩

theorem RHEL8_RepoData.cls_blind : RHEL8_RepoData.cls.Blind := ⟨sameAttrs_near (by decide), fun a a' h => Out.render_near h (by decide +kernel)⟩

theorem RHEL8_VolGroupData.cls_blind : RHEL8_VolGroupData.cls.Blind := ⟨sameAttrs_near (by decide), fun a a' h => FC3_VolGroupData.strText_near (by decide +kernel) h⟩

theorem blind_FC3_Authconfig : Command.Blind (FC3_Authconfig.cls) :=
  plain_blind fun args => FC3_Authconfig.parse_same _ args

theorem blind_F9_AutoPart : Command.Blind (F9_AutoPart.cls) :=
  plain_blind fun args => F9_AutoPart.parse_same _ args

theorem blind_FC3_AutoStep : Command.Blind (FC3_AutoStep.cls) :=
  plain_blind fun args => FC3_AutoStep.parse_same _ args

theorem blind_F8_Bootloader : Command.Blind (F8_Bootloader.cls) :=
  plain_blind fun args => FC4_Bootloader.parse_same _ args

theorem blind_FC3_Cdrom : Command.Blind (FC3_Cdrom.cls) :=
  plain_blind fun args => FC3_Cdrom.parse_same _ args

theorem blind_FC3_ClearPart : Command.Blind (FC3_ClearPart.cls) :=
  plain_blind fun args => FC3_ClearPart.parse_same _ args

theorem blind_FC3_DisplayMode : Command.Blind (FC3_DisplayMode.cls) :=
  plain_blind fun args => FC3_DisplayMode.parse_same _ args

theorem blind_F8_Device_F8_DeviceData : Command.Blind (F8_Device.cls F8_DeviceData.cls) :=
  list_blind F8_DeviceData.cls_blind fun args => F8_Device.parse_rel _ F8_DeviceData.cls_blind args

theorem blind_FC3_DeviceProbe : Command.Blind (FC3_DeviceProbe.cls) :=
  plain_blind fun args => FC3_DeviceProbe.parse_same _ args

theorem blind_FC6_DmRaid_FC6_DmRaidData : Command.Blind (FC6_DmRaid.cls FC6_DmRaidData.cls) :=
  list_blind FC6_DmRaidData.cls_blind fun args => FC6_DmRaid.parse_rel _ FC6_DmRaidData.cls_blind args

theorem blind_FC4_DriverDisk_FC4_DriverDiskData : Command.Blind (FC4_DriverDisk.cls FC4_DriverDiskData.cls) :=
  list_blind FC4_DriverDiskData.cls_blind fun args => FC4_DriverDisk.parse_rel _ FC4_DriverDiskData.cls_blind args

theorem blind_F10_Firewall : Command.Blind (F10_Firewall.cls) :=
  plain_blind fun args => FC3_Firewall.parse_same _ args

theorem blind_FC3_Firstboot : Command.Blind (FC3_Firstboot.cls) :=
  plain_blind fun args => FC3_Firstboot.parse_same _ args

theorem blind_FC6_Reboot : Command.Blind (FC6_Reboot.cls) :=
  plain_blind fun args => FC6_Reboot.parse_same _ args

theorem blind_FC3_HardDrive : Command.Blind (FC3_HardDrive.cls) :=
  plain_blind fun args => FC3_HardDrive.parse_same _ args

theorem blind_F8_IgnoreDisk : Command.Blind (F8_IgnoreDisk.cls) :=
  plain_blind fun args => F8_IgnoreDisk.parse_same _ args

theorem blind_FC3_Upgrade : Command.Blind (FC3_Upgrade.cls) :=
  plain_blind fun args => FC3_Upgrade.parse_same _ args

theorem blind_FC3_Interactive : Command.Blind (FC3_Interactive.cls) :=
  plain_blind fun args => FC3_Interactive.parse_same _ args

theorem blind_F10_Iscsi_F10_IscsiData : Command.Blind (F10_Iscsi.cls F10_IscsiData.cls) :=
  list_blind F10_IscsiData.cls_blind fun args => FC6_Iscsi.parse_rel _ F10_IscsiData.cls_blind args

theorem blind_FC6_IscsiName : Command.Blind (FC6_IscsiName.cls) :=
  plain_blind fun args => FC6_IscsiName.parse_same _ args

theorem blind_FC3_Keyboard : Command.Blind (FC3_Keyboard.cls) :=
  plain_blind fun args => FC3_Keyboard.parse_same _ args

theorem blind_FC3_Lang : Command.Blind (FC3_Lang.cls) :=
  plain_blind fun args => FC3_Lang.parse_same _ args

theorem blind_FC6_Logging : Command.Blind (FC6_Logging.cls) :=
  plain_blind fun args => FC6_Logging.parse_same _ args

theorem blind_F9_LogVol_F9_LogVolData : Command.Blind (F9_LogVol.cls F9_LogVolData.cls) :=
  list_blind F9_LogVolData.cls_blind fun args => FC3_LogVol.parse_rel _ F9_LogVolData.cls_blind args

theorem blind_FC4_MediaCheck : Command.Blind (FC4_MediaCheck.cls) :=
  plain_blind fun args => FC4_MediaCheck.parse_same _ args

theorem blind_FC6_Method : Command.Blind (FC6_Method.cls) :=
  plain_blind fun _ => same_throw

theorem blind_F10_Monitor : Command.Blind (F10_Monitor.cls) :=
  deprecated_blind

theorem blind_FC6_MultiPath_FC6_MultiPathData : Command.Blind (FC6_MultiPath.cls FC6_MultiPathData.cls) :=
  list_blind FC6_MultiPathData.cls_blind fun args => FC6_MultiPath.parse_rel _ FC6_MultiPathData.cls_blind args

theorem blind_F9_Network_F8_NetworkData : Command.Blind (F9_Network.cls F8_NetworkData.cls) :=
  list_blind F8_NetworkData.cls_blind fun args => FC3_Network.parse_rel _ F8_NetworkData.cls_blind args

theorem blind_FC6_NFS : Command.Blind (FC6_NFS.cls) :=
  plain_blind fun args => FC3_NFS.parse_same _ args

theorem blind_F9_Partition_F9_PartData : Command.Blind (F9_Partition.cls F9_PartData.cls) :=
  list_blind F9_PartData.cls_blind fun args => FC3_Partition.parse_rel _ F9_PartData.cls_blind args

theorem blind_F9_Raid_F9_RaidData : Command.Blind (F9_Raid.cls F9_RaidData.cls) :=
  list_blind F9_RaidData.cls_blind fun args => FC3_Raid.parse_rel _ F9_RaidData.cls_blind args

theorem blind_F8_Repo_F8_RepoData : Command.Blind (F8_Repo.cls F8_RepoData.cls) :=
  list_blind F8_RepoData.cls_blind fun args => FC6_Repo.parse_rel _ F8_RepoData.cls_blind args

theorem blind_F10_Rescue : Command.Blind (F10_Rescue.cls) :=
  plain_blind fun args => F10_Rescue.parse_same _ args

theorem blind_F8_RootPw : Command.Blind (F8_RootPw.cls) :=
  plain_blind fun args => FC3_RootPw.parse_same _ args

theorem blind_FC3_SELinux : Command.Blind (FC3_SELinux.cls) :=
  plain_blind fun args => FC3_SELinux.parse_same _ args

theorem blind_FC6_Services : Command.Blind (FC6_Services.cls) :=
  plain_blind fun args => FC6_Services.parse_same _ args

theorem blind_FC3_SkipX : Command.Blind (FC3_SkipX.cls) :=
  plain_blind fun args => FC3_SkipX.parse_same _ args

theorem blind_FC6_Timezone : Command.Blind (FC6_Timezone.cls) :=
  plain_blind fun args => FC3_Timezone.parse_same _ args

theorem blind_F7_Updates : Command.Blind (F7_Updates.cls) :=
  plain_blind fun args => F7_Updates.parse_same _ args

theorem blind_FC3_Url : Command.Blind (FC3_Url.cls) :=
  plain_blind fun args => FC3_Url.parse_same _ args

theorem blind_F8_User_F8_UserData : Command.Blind (F8_User.cls F8_UserData.cls) :=
  list_blind F8_UserData.cls_blind fun args => FC6_User.parse_rel _ F8_UserData.cls_blind args

theorem blind_F9_Vnc : Command.Blind (F9_Vnc.cls) :=
  plain_blind fun args => FC6_Vnc.parse_same _ args

theorem blind_FC3_VolGroup_FC3_VolGroupData : Command.Blind (FC3_VolGroup.cls FC3_VolGroupData.cls) :=
  list_blind FC3_VolGroupData.cls_blind fun args => FC3_VolGroup.parse_rel _ FC3_VolGroupData.cls_blind args

theorem blind_F10_XConfig : Command.Blind (F10_XConfig.cls) :=
  plain_blind fun args => FC3_XConfig.parse_same _ args

theorem blind_F9_ZeroMbr : Command.Blind (F9_ZeroMbr.cls) :=
  plain_blind fun args => F9_ZeroMbr.parse_same _ args

theorem blind_FC3_ZFCP_FC3_ZFCPData : Command.Blind (FC3_ZFCP.cls FC3_ZFCPData.cls) :=
  list_blind FC3_ZFCPData.cls_blind fun args => FC3_ZFCP.parse_rel _ FC3_ZFCPData.cls_blind args

theorem blind_F11_Upgrade : Command.Blind (F11_Upgrade.cls) :=
  plain_blind fun args => F11_Upgrade.parse_same _ args

theorem blind_F11_Partition_F11_PartData : Command.Blind (F11_Partition.cls F11_PartData.cls) :=
  list_blind F11_PartData.cls_blind fun args => FC3_Partition.parse_rel _ F11_PartData.cls_blind args

theorem blind_F11_Repo_F11_RepoData : Command.Blind (F11_Repo.cls F11_RepoData.cls) :=
  list_blind F11_RepoData.cls_blind fun args => FC6_Repo.parse_rel _ F11_RepoData.cls_blind args

theorem blind_F12_AutoPart : Command.Blind (F12_AutoPart.cls) :=
  plain_blind fun args => F9_AutoPart.parse_same _ args

theorem blind_F12_Bootloader : Command.Blind (F12_Bootloader.cls) :=
  plain_blind fun args => FC4_Bootloader.parse_same _ args

theorem blind_F12_DriverDisk_F12_DriverDiskData : Command.Blind (F12_DriverDisk.cls F12_DriverDiskData.cls) :=
  list_blind F12_DriverDiskData.cls_blind fun args => FC4_DriverDisk.parse_rel _ F12_DriverDiskData.cls_blind args

theorem blind_F12_Fcoe_F12_FcoeData : Command.Blind (F12_Fcoe.cls F12_FcoeData.cls) :=
  list_blind F12_FcoeData.cls_blind fun args => F12_Fcoe.parse_rel _ F12_FcoeData.cls_blind args

theorem blind_F12_Group_F12_GroupData : Command.Blind (F12_Group.cls F12_GroupData.cls) :=
  list_blind F12_GroupData.cls_blind fun args => F12_Group.parse_rel _ F12_GroupData.cls_blind args

theorem blind_F12_LogVol_F12_LogVolData : Command.Blind (F12_LogVol.cls F12_LogVolData.cls) :=
  list_blind F12_LogVolData.cls_blind fun args => FC3_LogVol.parse_rel _ F12_LogVolData.cls_blind args

theorem blind_F12_Partition_F12_PartData : Command.Blind (F12_Partition.cls F12_PartData.cls) :=
  list_blind F12_PartData.cls_blind fun args => FC3_Partition.parse_rel _ F12_PartData.cls_blind args

theorem blind_F12_Raid_F12_RaidData : Command.Blind (F12_Raid.cls F12_RaidData.cls) :=
  list_blind F12_RaidData.cls_blind fun args => FC3_Raid.parse_rel _ F12_RaidData.cls_blind args

theorem blind_F12_User_F12_UserData : Command.Blind (F12_User.cls F12_UserData.cls) :=
  list_blind F12_UserData.cls_blind fun args => FC6_User.parse_rel _ F12_UserData.cls_blind args

theorem blind_F12_ZFCP_F12_ZFCPData : Command.Blind (F12_ZFCP.cls F12_ZFCPData.cls) :=
  list_blind F12_ZFCPData.cls_blind fun args => FC3_ZFCP.parse_rel _ F12_ZFCPData.cls_blind args

theorem blind_F13_Fcoe_F13_FcoeData : Command.Blind (F13_Fcoe.cls F13_FcoeData.cls) :=
  list_blind F13_FcoeData.cls_blind fun args => F12_Fcoe.parse_rel _ F13_FcoeData.cls_blind args

theorem blind_F13_Method : Command.Blind (F13_Method.cls) :=
  plain_blind fun _ => same_throw

theorem blind_F13_Raid_F13_RaidData : Command.Blind (F13_Raid.cls F13_RaidData.cls) :=
  list_blind F13_RaidData.cls_blind fun args => FC3_Raid.parse_rel _ F13_RaidData.cls_blind args

theorem blind_F13_Repo_F13_RepoData : Command.Blind (F13_Repo.cls F13_RepoData.cls) :=
  list_blind F13_RepoData.cls_blind fun args => FC6_Repo.parse_rel _ F13_RepoData.cls_blind args

theorem blind_F13_SshPw_F13_SshPwData : Command.Blind (F13_SshPw.cls F13_SshPwData.cls) :=
  list_blind F13_SshPwData.cls_blind fun args => F13_SshPw.parse_rel _ F13_SshPwData.cls_blind args

theorem blind_F13_Url : Command.Blind (F13_Url.cls) :=
  plain_blind fun args => FC3_Url.parse_same _ args

theorem blind_F14_Bootloader : Command.Blind (F14_Bootloader.cls) :=
  plain_blind fun args => FC4_Bootloader.parse_same _ args

theorem blind_F14_DriverDisk_F14_DriverDiskData : Command.Blind (F14_DriverDisk.cls F14_DriverDiskData.cls) :=
  list_blind F14_DriverDiskData.cls_blind fun args => FC4_DriverDisk.parse_rel _ F14_DriverDiskData.cls_blind args

theorem blind_F14_Firewall : Command.Blind (F14_Firewall.cls) :=
  plain_blind fun args => FC3_Firewall.parse_same _ args

theorem blind_F14_IgnoreDisk : Command.Blind (F14_IgnoreDisk.cls) :=
  plain_blind fun args => RHEL6_IgnoreDisk.parse_same _ args

theorem blind_F14_Interactive : Command.Blind (F14_Interactive.cls) :=
  deprecated_blind

theorem blind_F14_LogVol_F14_LogVolData : Command.Blind (F14_LogVol.cls F14_LogVolData.cls) :=
  list_blind F14_LogVolData.cls_blind fun args => FC3_LogVol.parse_rel _ F14_LogVolData.cls_blind args

theorem blind_F14_Method : Command.Blind (F14_Method.cls) :=
  plain_blind fun _ => same_throw

theorem blind_F14_Partition_F14_PartData : Command.Blind (F14_Partition.cls F14_PartData.cls) :=
  list_blind F14_PartData.cls_blind fun args => FC3_Partition.parse_rel _ F14_PartData.cls_blind args

theorem blind_F14_Raid_F14_RaidData : Command.Blind (F14_Raid.cls F14_RaidData.cls) :=
  list_blind F14_RaidData.cls_blind fun args => FC3_Raid.parse_rel _ F14_RaidData.cls_blind args

theorem blind_F14_Repo_F14_RepoData : Command.Blind (F14_Repo.cls F14_RepoData.cls) :=
  list_blind F14_RepoData.cls_blind fun args => FC6_Repo.parse_rel _ F14_RepoData.cls_blind args

theorem blind_F14_Url : Command.Blind (F14_Url.cls) :=
  plain_blind fun args => FC3_Url.parse_same _ args

theorem blind_F14_XConfig : Command.Blind (F14_XConfig.cls) :=
  plain_blind fun args => FC3_XConfig.parse_same _ args

theorem blind_F14_ZFCP_F14_ZFCPData : Command.Blind (F14_ZFCP.cls F14_ZFCPData.cls) :=
  list_blind F14_ZFCPData.cls_blind fun args => FC3_ZFCP.parse_rel _ F14_ZFCPData.cls_blind args

theorem blind_F15_Bootloader : Command.Blind (F15_Bootloader.cls) :=
  plain_blind fun args => F15_Bootloader.parse_same _ args

theorem blind_F15_Interactive : Command.Blind (F15_Interactive.cls) :=
  removed_blind

theorem blind_F15_LogVol_F15_LogVolData : Command.Blind (F15_LogVol.cls F15_LogVolData.cls) :=
  list_blind F15_LogVolData.cls_blind fun args => FC3_LogVol.parse_rel _ F15_LogVolData.cls_blind args

theorem blind_F15_Raid_F15_RaidData : Command.Blind (F15_Raid.cls F15_RaidData.cls) :=
  list_blind F15_RaidData.cls_blind fun args => FC3_Raid.parse_rel _ F15_RaidData.cls_blind args

theorem blind_F15_Repo_F15_RepoData : Command.Blind (F15_Repo.cls F15_RepoData.cls) :=
  list_blind F15_RepoData.cls_blind fun args => FC6_Repo.parse_rel _ F15_RepoData.cls_blind args

theorem blind_F16_AutoPart : Command.Blind (F16_AutoPart.cls) :=
  plain_blind fun args => F9_AutoPart.parse_same _ args

theorem blind_F15_LogVol_F17_LogVolData : Command.Blind (F15_LogVol.cls F17_LogVolData.cls) :=
  list_blind F17_LogVolData.cls_blind fun args => FC3_LogVol.parse_rel _ F17_LogVolData.cls_blind args

theorem blind_F16_Network_F16_NetworkData : Command.Blind (F16_Network.cls F16_NetworkData.cls) :=
  list_blind F16_NetworkData.cls_blind fun args => FC3_Network.parse_rel _ F16_NetworkData.cls_blind args

theorem blind_F14_Partition_F17_PartData : Command.Blind (F14_Partition.cls F17_PartData.cls) :=
  list_blind F17_PartData.cls_blind fun args => FC3_Partition.parse_rel _ F17_PartData.cls_blind args

theorem blind_F16_VolGroup_F16_VolGroupData : Command.Blind (F16_VolGroup.cls F16_VolGroupData.cls) :=
  list_blind F16_VolGroupData.cls_blind fun args => F16_VolGroup.parse_rel _ F16_VolGroupData.cls_blind args

theorem blind_F17_AutoPart : Command.Blind (F17_AutoPart.cls) :=
  plain_blind fun args => F17_AutoPart.parse_same _ args

theorem blind_F17_Bootloader : Command.Blind (F17_Bootloader.cls) :=
  plain_blind fun args => F17_Bootloader.parse_same _ args

theorem blind_F17_BTRFS_F17_BTRFSData : Command.Blind (F17_BTRFS.cls F17_BTRFSData.cls) :=
  list_blind F17_BTRFSData.cls_blind fun args => F17_BTRFS.parse_rel _ F17_BTRFSData.cls_blind args

theorem blind_F17_ClearPart : Command.Blind (F17_ClearPart.cls) :=
  plain_blind fun args => F17_ClearPart.parse_same _ args

theorem blind_F17_Iscsi_F17_IscsiData : Command.Blind (F17_Iscsi.cls F17_IscsiData.cls) :=
  list_blind F17_IscsiData.cls_blind fun args => FC6_Iscsi.parse_rel _ F17_IscsiData.cls_blind args

theorem blind_F17_LogVol_F17_LogVolData : Command.Blind (F17_LogVol.cls F17_LogVolData.cls) :=
  list_blind F17_LogVolData.cls_blind fun args => F17_LogVol.parse_rel _ F17_LogVolData.cls_blind args

theorem blind_F17_Partition_F17_PartData : Command.Blind (F17_Partition.cls F17_PartData.cls) :=
  list_blind F17_PartData.cls_blind fun args => F17_Partition.parse_rel _ F17_PartData.cls_blind args

theorem blind_F18_AutoPart : Command.Blind (F18_AutoPart.cls) :=
  plain_blind fun args => F17_AutoPart.parse_same _ args

theorem blind_F18_Bootloader : Command.Blind (F18_Bootloader.cls) :=
  plain_blind fun args => F17_Bootloader.parse_same _ args

theorem blind_F13_Fcoe_RHEL7_FcoeData : Command.Blind (F13_Fcoe.cls RHEL7_FcoeData.cls) :=
  list_blind RHEL7_FcoeData.cls_blind fun args => F12_Fcoe.parse_rel _ RHEL7_FcoeData.cls_blind args

theorem blind_F18_Reboot : Command.Blind (F18_Reboot.cls) :=
  plain_blind fun args => F18_Reboot.parse_same _ args

theorem blind_F18_Keyboard : Command.Blind (F18_Keyboard.cls) :=
  plain_blind fun args => F18_Keyboard.parse_same _ args

theorem blind_F18_LogVol_F18_LogVolData : Command.Blind (F18_LogVol.cls F18_LogVolData.cls) :=
  list_blind F18_LogVolData.cls_blind fun args => F17_LogVol.parse_rel _ F18_LogVolData.cls_blind args

theorem blind_F18_Method : Command.Blind (F18_Method.cls) :=
  plain_blind fun _ => same_throw

theorem blind_F18_Monitor : Command.Blind (F18_Monitor.cls) :=
  removed_blind

theorem blind_F18_Network_F16_NetworkData : Command.Blind (F18_Network.cls F16_NetworkData.cls) :=
  list_blind F16_NetworkData.cls_blind fun args => FC3_Network.parse_rel _ F16_NetworkData.cls_blind args

theorem blind_F18_Partition_F18_PartData : Command.Blind (F18_Partition.cls F18_PartData.cls) :=
  list_blind F18_PartData.cls_blind fun args => F17_Partition.parse_rel _ F18_PartData.cls_blind args

theorem blind_F18_Raid_F18_RaidData : Command.Blind (F18_Raid.cls F18_RaidData.cls) :=
  list_blind F18_RaidData.cls_blind fun args => FC3_Raid.parse_rel _ F18_RaidData.cls_blind args

theorem blind_F18_RootPw : Command.Blind (F18_RootPw.cls) :=
  plain_blind fun args => F18_RootPw.parse_same _ args

theorem blind_F18_Timezone : Command.Blind (F18_Timezone.cls) :=
  plain_blind fun args => F18_Timezone.parse_same _ args

theorem blind_F18_Url : Command.Blind (F18_Url.cls) :=
  plain_blind fun args => F18_Url.parse_same _ args

theorem blind_F19_Bootloader : Command.Blind (F19_Bootloader.cls) :=
  plain_blind fun args => F17_Bootloader.parse_same _ args

theorem blind_F19_Lang : Command.Blind (F19_Lang.cls) :=
  plain_blind fun args => FC3_Lang.parse_same _ args

theorem blind_F19_Liveimg : Command.Blind (F19_Liveimg.cls) :=
  plain_blind fun args => F19_Liveimg.parse_same _ args

theorem blind_F18_LogVol_F20_LogVolData : Command.Blind (F18_LogVol.cls F20_LogVolData.cls) :=
  list_blind F20_LogVolData.cls_blind fun args => F17_LogVol.parse_rel _ F20_LogVolData.cls_blind args

theorem blind_F19_Method : Command.Blind (F19_Method.cls) :=
  plain_blind fun _ => same_throw

theorem blind_F19_Network_F19_NetworkData : Command.Blind (F19_Network.cls F19_NetworkData.cls) :=
  list_blind F19_NetworkData.cls_blind fun args => FC3_Network.parse_rel _ F19_NetworkData.cls_blind args

theorem blind_F19_Raid_F18_RaidData : Command.Blind (F19_Raid.cls F18_RaidData.cls) :=
  list_blind F18_RaidData.cls_blind fun args => FC3_Raid.parse_rel _ F18_RaidData.cls_blind args

theorem blind_F19_Realm : Command.Blind (F19_Realm.cls) :=
  plain_blind fun args => F19_Realm.parse_same args

theorem blind_F19_User_F19_UserData : Command.Blind (F19_User.cls F19_UserData.cls) :=
  list_blind F19_UserData.cls_blind fun args => FC6_User.parse_rel _ F19_UserData.cls_blind args

theorem blind_F20_AutoPart : Command.Blind (F20_AutoPart.cls) :=
  plain_blind fun args => F20_AutoPart.parse_same _ args

theorem blind_F20_Eula : Command.Blind (F20_Eula.cls) :=
  plain_blind fun args => F20_Eula.parse_same _ args

theorem blind_F20_Firewall : Command.Blind (F20_Firewall.cls) :=
  plain_blind fun args => FC3_Firewall.parse_same _ args

theorem blind_F20_Install : Command.Blind (F20_Install.cls) :=
  plain_blind fun args => F20_Install.parse_same _ args

theorem blind_F20_LogVol_F20_LogVolData : Command.Blind (F20_LogVol.cls F20_LogVolData.cls) :=
  list_blind F20_LogVolData.cls_blind fun args => F20_LogVol.parse_rel _ F20_LogVolData.cls_blind args

theorem blind_F20_Network_F20_NetworkData : Command.Blind (F20_Network.cls F20_NetworkData.cls) :=
  list_blind F20_NetworkData.cls_blind fun args => FC3_Network.parse_rel _ F20_NetworkData.cls_blind args

theorem blind_F20_Partition_F18_PartData : Command.Blind (F20_Partition.cls F18_PartData.cls) :=
  list_blind F18_PartData.cls_blind fun args => F20_Partition.parse_rel _ F18_PartData.cls_blind args

theorem blind_F20_Raid_F18_RaidData : Command.Blind (F20_Raid.cls F18_RaidData.cls) :=
  list_blind F18_RaidData.cls_blind fun args => F20_Raid.parse_rel _ F18_RaidData.cls_blind args

theorem blind_F20_Upgrade : Command.Blind (F20_Upgrade.cls) :=
  deprecated_blind

theorem blind_F21_AutoPart : Command.Blind (F21_AutoPart.cls) :=
  plain_blind fun args => F21_AutoPart.parse_same _ args

theorem blind_F21_Bootloader : Command.Blind (F21_Bootloader.cls) :=
  plain_blind fun args => F17_Bootloader.parse_same _ args

theorem blind_F21_ClearPart : Command.Blind (F21_ClearPart.cls) :=
  plain_blind fun args => F17_ClearPart.parse_same _ args

theorem blind_F21_LogVol_F21_LogVolData : Command.Blind (F21_LogVol.cls F21_LogVolData.cls) :=
  list_blind F21_LogVolData.cls_blind fun args => F21_LogVol.parse_rel _ F21_LogVolData.cls_blind args

theorem blind_F21_Network_F21_NetworkData : Command.Blind (F21_Network.cls F21_NetworkData.cls) :=
  list_blind F21_NetworkData.cls_blind fun args => FC3_Network.parse_rel _ F21_NetworkData.cls_blind args

theorem blind_F21_OSTreeSetup : Command.Blind (F21_OSTreeSetup.cls) :=
  plain_blind fun args => F21_OSTreeSetup.parse_same _ args

theorem blind_F21_Repo_F21_RepoData : Command.Blind (F21_Repo.cls F21_RepoData.cls) :=
  list_blind F21_RepoData.cls_blind fun args => FC6_Repo.parse_rel _ F21_RepoData.cls_blind args

theorem blind_F21_VolGroup_F21_VolGroupData : Command.Blind (F21_VolGroup.cls F21_VolGroupData.cls) :=
  list_blind F21_VolGroupData.cls_blind fun args => F16_VolGroup.parse_rel _ F21_VolGroupData.cls_blind args

theorem blind_F22_Network_F22_NetworkData : Command.Blind (F22_Network.cls F22_NetworkData.cls) :=
  list_blind F22_NetworkData.cls_blind fun args => F22_Network.parse_rel _ F22_NetworkData.cls_blind args

theorem blind_F22_SshKey_F22_SshKeyData : Command.Blind (F22_SshKey.cls F22_SshKeyData.cls) :=
  list_blind F22_SshKeyData.cls_blind fun args => F22_SshKey.parse_rel _ F22_SshKeyData.cls_blind args

theorem blind_F23_AutoPart : Command.Blind (F23_AutoPart.cls) :=
  plain_blind fun args => F23_AutoPart.parse_same _ args

theorem blind_F23_BTRFS_F23_BTRFSData : Command.Blind (F23_BTRFS.cls F23_BTRFSData.cls) :=
  list_blind F23_BTRFSData.cls_blind fun args => F23_BTRFS.parse_rel _ F23_BTRFSData.cls_blind args

theorem blind_F23_Reboot : Command.Blind (F23_Reboot.cls) :=
  plain_blind fun args => F18_Reboot.parse_same _ args

theorem blind_F23_LogVol_F23_LogVolData : Command.Blind (F23_LogVol.cls F23_LogVolData.cls) :=
  list_blind F23_LogVolData.cls_blind fun args => F23_LogVol.parse_rel _ F23_LogVolData.cls_blind args

theorem blind_F23_Partition_F23_PartData : Command.Blind (F23_Partition.cls F23_PartData.cls) :=
  list_blind F23_PartData.cls_blind fun args => F23_Partition.parse_rel _ F23_PartData.cls_blind args

theorem blind_F23_Raid_F23_RaidData : Command.Blind (F23_Raid.cls F23_RaidData.cls) :=
  list_blind F23_RaidData.cls_blind fun args => F23_Raid.parse_rel _ F23_RaidData.cls_blind args

theorem blind_F23_ReqPart : Command.Blind (F23_ReqPart.cls) :=
  plain_blind fun args => F23_ReqPart.parse_same _ args

theorem blind_F23_Timezone : Command.Blind (F23_Timezone.cls) :=
  plain_blind fun args => F23_Timezone.parse_same _ args

theorem blind_F24_Device : Command.Blind (F24_Device.cls) :=
  deprecated_blind

theorem blind_F24_DmRaid : Command.Blind (F24_DmRaid.cls) :=
  deprecated_blind

theorem blind_F24_MultiPath : Command.Blind (F24_MultiPath.cls) :=
  deprecated_blind

theorem blind_F24_Network_F22_NetworkData : Command.Blind (F24_Network.cls F22_NetworkData.cls) :=
  list_blind F22_NetworkData.cls_blind fun args => F24_Network.parse_rel _ F22_NetworkData.cls_blind args

theorem blind_F24_SshPw_F24_SshPwData : Command.Blind (F24_SshPw.cls F24_SshPwData.cls) :=
  list_blind F24_SshPwData.cls_blind fun args => F13_SshPw.parse_rel _ F24_SshPwData.cls_blind args

theorem blind_F24_User_F19_UserData : Command.Blind (F24_User.cls F19_UserData.cls) :=
  list_blind F19_UserData.cls_blind fun args => FC6_User.parse_rel _ F19_UserData.cls_blind args

theorem blind_F25_Network_F25_NetworkData : Command.Blind (F25_Network.cls F25_NetworkData.cls) :=
  list_blind F25_NetworkData.cls_blind fun args => F24_Network.parse_rel _ F25_NetworkData.cls_blind args

theorem blind_F25_Raid_F25_RaidData : Command.Blind (F25_Raid.cls F25_RaidData.cls) :=
  list_blind F25_RaidData.cls_blind fun args => F23_Raid.parse_rel _ F25_RaidData.cls_blind args

theorem blind_F25_Timezone : Command.Blind (F25_Timezone.cls) :=
  plain_blind fun args => F25_Timezone.parse_same _ args

theorem blind_F26_AutoPart : Command.Blind (F26_AutoPart.cls) :=
  plain_blind fun args => F23_AutoPart.parse_same _ args

theorem blind_F26_DisplayMode : Command.Blind (F26_DisplayMode.cls) :=
  plain_blind fun args => F26_DisplayMode.parse_same _ args

theorem blind_F26_Snapshot_F26_SnapshotData : Command.Blind (F26_Snapshot.cls F26_SnapshotData.cls) :=
  list_blind F26_SnapshotData.cls_blind fun args => F26_Snapshot.parse_rel _ F26_SnapshotData.cls_blind args

theorem blind_F27_Mount_F27_MountData : Command.Blind (F27_Mount.cls F27_MountData.cls) :=
  list_blind F27_MountData.cls_blind fun args => F27_Mount.parse_rel _ F27_MountData.cls_blind args

theorem blind_F27_Network_F27_NetworkData : Command.Blind (F27_Network.cls F27_NetworkData.cls) :=
  list_blind F27_NetworkData.cls_blind fun args => F27_Network.parse_rel _ F27_NetworkData.cls_blind args

theorem blind_F27_Repo_F27_RepoData : Command.Blind (F27_Repo.cls F27_RepoData.cls) :=
  list_blind F27_RepoData.cls_blind fun args => FC6_Repo.parse_rel _ F27_RepoData.cls_blind args

theorem blind_F27_Url : Command.Blind (F27_Url.cls) :=
  plain_blind fun args => F18_Url.parse_same _ args

theorem blind_F28_Authconfig : Command.Blind (F28_Authconfig.cls) :=
  plain_blind fun args => F28_Authconfig.parse_same _ args

theorem blind_F28_Authselect : Command.Blind (F28_Authselect.cls) :=
  plain_blind fun args => F28_Authselect.parse_same _ args

theorem blind_F28_ClearPart : Command.Blind (F28_ClearPart.cls) :=
  plain_blind fun args => F17_ClearPart.parse_same _ args

theorem blind_F28_Fcoe_F28_FcoeData : Command.Blind (F28_Fcoe.cls F28_FcoeData.cls) :=
  list_blind F28_FcoeData.cls_blind fun args => F12_Fcoe.parse_rel _ F28_FcoeData.cls_blind args

theorem blind_F28_Firewall : Command.Blind (F28_Firewall.cls) :=
  plain_blind fun args => FC3_Firewall.parse_same _ args

theorem blind_F28_Hmc : Command.Blind (F28_Hmc.cls) :=
  plain_blind fun args => RHEL7_Hmc.parse_same _ args

theorem blind_F28_Method : Command.Blind (F28_Method.cls) :=
  plain_blind fun _ => same_throw

theorem blind_F28_Nvdimm_F28_NvdimmData : Command.Blind (F28_Nvdimm.cls F28_NvdimmData.cls) :=
  list_blind F28_NvdimmData.cls_blind fun args => F28_Nvdimm.parse_rel _ F28_NvdimmData.cls_blind args

theorem blind_F29_AutoPart : Command.Blind (F29_AutoPart.cls) :=
  plain_blind fun args => F29_AutoPart.parse_same _ args

theorem blind_F29_Bootloader : Command.Blind (F29_Bootloader.cls) :=
  plain_blind fun args => F17_Bootloader.parse_same _ args

theorem blind_F29_DeviceProbe : Command.Blind (F29_DeviceProbe.cls) :=
  deprecated_blind

theorem blind_F29_Module_F29_ModuleData : Command.Blind (F29_Module.cls F29_ModuleData.cls) :=
  list_blind F29_ModuleData.cls_blind fun args => F29_Module.parse_rel _ F29_ModuleData.cls_blind args

theorem blind_F29_IgnoreDisk : Command.Blind (F29_IgnoreDisk.cls) :=
  plain_blind fun args => F29_IgnoreDisk.parse_same _ args

theorem blind_F29_Install : Command.Blind (F29_Install.cls) :=
  deprecated_blind

theorem blind_F29_LogVol_F29_LogVolData : Command.Blind (F29_LogVol.cls F29_LogVolData.cls) :=
  list_blind F29_LogVolData.cls_blind fun args => F29_LogVol.parse_rel _ F29_LogVolData.cls_blind args

theorem blind_F29_Partition_F29_PartData : Command.Blind (F29_Partition.cls F29_PartData.cls) :=
  list_blind F29_PartData.cls_blind fun args => F29_Partition.parse_rel _ F29_PartData.cls_blind args

theorem blind_F29_Raid_F29_RaidData : Command.Blind (F29_Raid.cls F29_RaidData.cls) :=
  list_blind F29_RaidData.cls_blind fun args => F29_Raid.parse_rel _ F29_RaidData.cls_blind args

theorem blind_F29_Upgrade : Command.Blind (F29_Upgrade.cls) :=
  removed_blind

theorem blind_F30_Repo_F30_RepoData : Command.Blind (F30_Repo.cls F30_RepoData.cls) :=
  list_blind F30_RepoData.cls_blind fun args => FC6_Repo.parse_rel _ F30_RepoData.cls_blind args

theorem blind_F30_Url : Command.Blind (F30_Url.cls) :=
  plain_blind fun args => F18_Url.parse_same _ args

theorem blind_F31_Module_F31_ModuleData : Command.Blind (F31_Module.cls F31_ModuleData.cls) :=
  list_blind F31_ModuleData.cls_blind fun args => F29_Module.parse_rel _ F31_ModuleData.cls_blind args

theorem blind_F32_Timezone : Command.Blind (F32_Timezone.cls) :=
  plain_blind fun args => F32_Timezone.parse_same _ args

theorem blind_F32_Zipl : Command.Blind (F32_Zipl.cls) :=
  plain_blind fun args => F32_Zipl.parse_same _ args

theorem blind_F33_HardDrive : Command.Blind (F33_HardDrive.cls) :=
  plain_blind fun args => F33_HardDrive.parse_same _ args

theorem blind_F33_Timesource_F33_TimesourceData : Command.Blind (F33_Timesource.cls F33_TimesourceData.cls) :=
  list_blind F33_TimesourceData.cls_blind fun args => F33_Timesource.parse_rel _ F33_TimesourceData.cls_blind args

theorem blind_F33_Repo_F30_RepoData : Command.Blind (F33_Repo.cls F30_RepoData.cls) :=
  list_blind F30_RepoData.cls_blind fun args => FC6_Repo.parse_rel _ F30_RepoData.cls_blind args

theorem blind_F33_Timezone : Command.Blind (F33_Timezone.cls) :=
  plain_blind fun args => F33_Timezone.parse_same _ args

theorem blind_F34_AutoStep : Command.Blind (F34_AutoStep.cls) :=
  deprecated_blind

theorem blind_F34_Bootloader : Command.Blind (F34_Bootloader.cls) :=
  plain_blind fun args => F17_Bootloader.parse_same _ args

theorem blind_F34_Device : Command.Blind (F34_Device.cls) :=
  removed_blind

theorem blind_F34_DeviceProbe : Command.Blind (F34_DeviceProbe.cls) :=
  removed_blind

theorem blind_F34_DmRaid : Command.Blind (F34_DmRaid.cls) :=
  removed_blind

theorem blind_F34_IgnoreDisk : Command.Blind (F34_IgnoreDisk.cls) :=
  plain_blind fun args => F29_IgnoreDisk.parse_same _ args

theorem blind_F34_Install : Command.Blind (F34_Install.cls) :=
  removed_blind

theorem blind_F34_Logging : Command.Blind (F34_Logging.cls) :=
  plain_blind fun args => FC6_Logging.parse_same _ args

theorem blind_F34_Method : Command.Blind (F34_Method.cls) :=
  deprecated_blind

theorem blind_F34_MultiPath : Command.Blind (F34_MultiPath.cls) :=
  removed_blind

theorem blind_F34_Partition_F29_PartData : Command.Blind (F34_Partition.cls F29_PartData.cls) :=
  list_blind F29_PartData.cls_blind fun args => F29_Partition.parse_rel _ F29_PartData.cls_blind args

theorem blind_F34_Updates : Command.Blind (F34_Updates.cls) :=
  plain_blind fun args => F34_Updates.parse_same _ args

theorem blind_FC3_AutoPart : Command.Blind (FC3_AutoPart.cls) :=
  plain_blind fun args => FC3_AutoPart.parse_same _ args

theorem blind_FC4_Bootloader : Command.Blind (FC4_Bootloader.cls) :=
  plain_blind fun args => FC4_Bootloader.parse_same _ args

theorem blind_FC3_Device : Command.Blind (FC3_Device.cls) :=
  plain_blind fun args => FC3_Device.parse_same _ args

theorem blind_FC3_Firewall : Command.Blind (FC3_Firewall.cls) :=
  plain_blind fun args => FC3_Firewall.parse_same _ args

theorem blind_FC3_IgnoreDisk : Command.Blind (FC3_IgnoreDisk.cls) :=
  plain_blind fun args => FC3_IgnoreDisk.parse_same _ args

theorem blind_FC6_Iscsi_FC6_IscsiData : Command.Blind (FC6_Iscsi.cls FC6_IscsiData.cls) :=
  list_blind FC6_IscsiData.cls_blind fun args => FC6_Iscsi.parse_rel _ FC6_IscsiData.cls_blind args

theorem blind_F7_LangSupport : Command.Blind (F7_LangSupport.cls) :=
  removed_blind

theorem blind_FC4_LogVol_FC4_LogVolData : Command.Blind (FC4_LogVol.cls FC4_LogVolData.cls) :=
  list_blind FC4_LogVolData.cls_blind fun args => FC3_LogVol.parse_rel _ FC4_LogVolData.cls_blind args

theorem blind_FC6_Monitor : Command.Blind (FC6_Monitor.cls) :=
  plain_blind fun args => FC3_Monitor.parse_same _ args

theorem blind_F7_Mouse : Command.Blind (F7_Mouse.cls) :=
  removed_blind

theorem blind_FC6_Network_FC6_NetworkData : Command.Blind (FC6_Network.cls FC6_NetworkData.cls) :=
  list_blind FC6_NetworkData.cls_blind fun args => FC3_Network.parse_rel _ FC6_NetworkData.cls_blind args

theorem blind_FC4_Partition_FC4_PartData : Command.Blind (FC4_Partition.cls FC4_PartData.cls) :=
  list_blind FC4_PartData.cls_blind fun args => FC3_Partition.parse_rel _ FC4_PartData.cls_blind args

theorem blind_F7_Raid_F7_RaidData : Command.Blind (F7_Raid.cls F7_RaidData.cls) :=
  list_blind F7_RaidData.cls_blind fun args => FC3_Raid.parse_rel _ F7_RaidData.cls_blind args

theorem blind_FC6_Repo_FC6_RepoData : Command.Blind (FC6_Repo.cls FC6_RepoData.cls) :=
  list_blind FC6_RepoData.cls_blind fun args => FC6_Repo.parse_rel _ FC6_RepoData.cls_blind args

theorem blind_FC3_RootPw : Command.Blind (FC3_RootPw.cls) :=
  plain_blind fun args => FC3_RootPw.parse_same _ args

theorem blind_FC6_User_FC6_UserData : Command.Blind (FC6_User.cls FC6_UserData.cls) :=
  list_blind FC6_UserData.cls_blind fun args => FC6_User.parse_rel _ FC6_UserData.cls_blind args

theorem blind_FC6_Vnc : Command.Blind (FC6_Vnc.cls) :=
  plain_blind fun args => FC6_Vnc.parse_same _ args

theorem blind_FC6_XConfig : Command.Blind (FC6_XConfig.cls) :=
  plain_blind fun args => FC3_XConfig.parse_same _ args

theorem blind_FC3_ZeroMbr : Command.Blind (FC3_ZeroMbr.cls) :=
  plain_blind fun args => FC3_ZeroMbr.parse_same _ args

theorem blind_F8_Network_F8_NetworkData : Command.Blind (F8_Network.cls F8_NetworkData.cls) :=
  list_blind F8_NetworkData.cls_blind fun args => FC3_Network.parse_rel _ F8_NetworkData.cls_blind args

theorem blind_F9_Firewall : Command.Blind (F9_Firewall.cls) :=
  plain_blind fun args => FC3_Firewall.parse_same _ args

theorem blind_F9_XConfig : Command.Blind (F9_XConfig.cls) :=
  plain_blind fun args => FC3_XConfig.parse_same _ args

theorem blind_FC3_Bootloader : Command.Blind (FC3_Bootloader.cls) :=
  plain_blind fun args => FC3_Bootloader.parse_same _ args

theorem blind_FC3_DriverDisk_FC3_DriverDiskData : Command.Blind (FC3_DriverDisk.cls FC3_DriverDiskData.cls) :=
  list_blind FC3_DriverDiskData.cls_blind fun args => FC3_DriverDisk.parse_rel _ FC3_DriverDiskData.cls_blind args

theorem blind_FC3_Reboot : Command.Blind (FC3_Reboot.cls) :=
  plain_blind fun args => FC3_Reboot.parse_same _ args

theorem blind_FC3_LangSupport : Command.Blind (FC3_LangSupport.cls) :=
  plain_blind fun args => FC3_LangSupport.parse_same _ args

theorem blind_FC3_Lilo : Command.Blind (FC3_Lilo.cls) :=
  plain_blind fun args => FC3_Bootloader.parse_same _ args

theorem blind_FC3_LiloCheck : Command.Blind (FC3_LiloCheck.cls) :=
  plain_blind fun args => FC3_LiloCheck.parse_same _ args

theorem blind_FC3_LogVol_FC3_LogVolData : Command.Blind (FC3_LogVol.cls FC3_LogVolData.cls) :=
  list_blind FC3_LogVolData.cls_blind fun args => FC3_LogVol.parse_rel _ FC3_LogVolData.cls_blind args

theorem blind_FC3_Method : Command.Blind (FC3_Method.cls) :=
  plain_blind fun _ => same_throw

theorem blind_FC3_Monitor : Command.Blind (FC3_Monitor.cls) :=
  plain_blind fun args => FC3_Monitor.parse_same _ args

theorem blind_FC3_Mouse : Command.Blind (FC3_Mouse.cls) :=
  deprecated_blind

theorem blind_FC3_Network_FC3_NetworkData : Command.Blind (FC3_Network.cls FC3_NetworkData.cls) :=
  list_blind FC3_NetworkData.cls_blind fun args => FC3_Network.parse_rel _ FC3_NetworkData.cls_blind args

theorem blind_FC3_NFS : Command.Blind (FC3_NFS.cls) :=
  plain_blind fun args => FC3_NFS.parse_same _ args

theorem blind_FC3_Partition_FC3_PartData : Command.Blind (FC3_Partition.cls FC3_PartData.cls) :=
  list_blind FC3_PartData.cls_blind fun args => FC3_Partition.parse_rel _ FC3_PartData.cls_blind args

theorem blind_FC3_Raid_FC3_RaidData : Command.Blind (FC3_Raid.cls FC3_RaidData.cls) :=
  list_blind FC3_RaidData.cls_blind fun args => FC3_Raid.parse_rel _ FC3_RaidData.cls_blind args

theorem blind_FC3_Timezone : Command.Blind (FC3_Timezone.cls) :=
  plain_blind fun args => FC3_Timezone.parse_same _ args

theorem blind_FC3_Vnc : Command.Blind (FC3_Vnc.cls) :=
  plain_blind fun args => FC3_Vnc.parse_same _ args

theorem blind_FC3_XConfig : Command.Blind (FC3_XConfig.cls) :=
  plain_blind fun args => FC3_XConfig.parse_same _ args

theorem blind_FC4_Lilo : Command.Blind (FC4_Lilo.cls) :=
  removed_blind

theorem blind_FC4_LiloCheck : Command.Blind (FC4_LiloCheck.cls) :=
  removed_blind

theorem blind_FC4_Network_FC4_NetworkData : Command.Blind (FC4_Network.cls FC4_NetworkData.cls) :=
  list_blind FC4_NetworkData.cls_blind fun args => FC3_Network.parse_rel _ FC4_NetworkData.cls_blind args

theorem blind_FC4_Raid_FC4_RaidData : Command.Blind (FC4_Raid.cls FC4_RaidData.cls) :=
  list_blind FC4_RaidData.cls_blind fun args => FC3_Raid.parse_rel _ FC4_RaidData.cls_blind args

theorem blind_FC5_LangSupport : Command.Blind (FC5_LangSupport.cls) :=
  deprecated_blind

theorem blind_FC5_Raid_FC5_RaidData : Command.Blind (FC5_Raid.cls FC5_RaidData.cls) :=
  list_blind FC5_RaidData.cls_blind fun args => FC3_Raid.parse_rel _ FC5_RaidData.cls_blind args

theorem blind_RHEL3_Mouse : Command.Blind (RHEL3_Mouse.cls) :=
  plain_blind fun args => RHEL3_Mouse.parse_same _ args

theorem blind_FC3_Network_RHEL4_NetworkData : Command.Blind (FC3_Network.cls RHEL4_NetworkData.cls) :=
  list_blind RHEL4_NetworkData.cls_blind fun args => FC3_Network.parse_rel _ RHEL4_NetworkData.cls_blind args

theorem blind_RHEL4_Network_RHEL4_NetworkData : Command.Blind (RHEL4_Network.cls RHEL4_NetworkData.cls) :=
  list_blind RHEL4_NetworkData.cls_blind fun args => FC3_Network.parse_rel _ RHEL4_NetworkData.cls_blind args

theorem blind_RHEL5_Bootloader : Command.Blind (RHEL5_Bootloader.cls) :=
  plain_blind fun args => FC4_Bootloader.parse_same _ args

theorem blind_RHEL5_Key : Command.Blind (RHEL5_Key.cls) :=
  plain_blind fun args => RHEL5_Key.parse_same _ args

theorem blind_RHEL5_LogVol_RHEL5_LogVolData : Command.Blind (RHEL5_LogVol.cls RHEL5_LogVolData.cls) :=
  list_blind RHEL5_LogVolData.cls_blind fun args => FC3_LogVol.parse_rel _ RHEL5_LogVolData.cls_blind args

theorem blind_RHEL5_Network_FC6_NetworkData : Command.Blind (RHEL5_Network.cls FC6_NetworkData.cls) :=
  list_blind FC6_NetworkData.cls_blind fun args => FC3_Network.parse_rel _ FC6_NetworkData.cls_blind args

theorem blind_RHEL5_Partition_RHEL5_PartData : Command.Blind (RHEL5_Partition.cls RHEL5_PartData.cls) :=
  list_blind RHEL5_PartData.cls_blind fun args => FC3_Partition.parse_rel _ RHEL5_PartData.cls_blind args

theorem blind_RHEL5_Raid_RHEL5_RaidData : Command.Blind (RHEL5_Raid.cls RHEL5_RaidData.cls) :=
  list_blind RHEL5_RaidData.cls_blind fun args => FC3_Raid.parse_rel _ RHEL5_RaidData.cls_blind args

theorem blind_RHEL6_AutoPart : Command.Blind (RHEL6_AutoPart.cls) :=
  plain_blind fun args => RHEL6_AutoPart.parse_same _ args

theorem blind_RHEL6_Bootloader : Command.Blind (RHEL6_Bootloader.cls) :=
  plain_blind fun args => RHEL6_Bootloader.parse_same _ args

theorem blind_RHEL6_IgnoreDisk : Command.Blind (RHEL6_IgnoreDisk.cls) :=
  plain_blind fun args => RHEL6_IgnoreDisk.parse_same _ args

theorem blind_RHEL6_Iscsi_RHEL6_IscsiData : Command.Blind (RHEL6_Iscsi.cls RHEL6_IscsiData.cls) :=
  list_blind RHEL6_IscsiData.cls_blind fun args => FC6_Iscsi.parse_rel _ RHEL6_IscsiData.cls_blind args

theorem blind_RHEL6_LogVol_RHEL6_LogVolData : Command.Blind (RHEL6_LogVol.cls RHEL6_LogVolData.cls) :=
  list_blind RHEL6_LogVolData.cls_blind fun args => RHEL6_LogVol.parse_rel _ RHEL6_LogVolData.cls_blind args

theorem blind_RHEL6_Method : Command.Blind (RHEL6_Method.cls) :=
  plain_blind fun _ => same_throw

theorem blind_RHEL6_Network_RHEL6_NetworkData : Command.Blind (RHEL6_Network.cls RHEL6_NetworkData.cls) :=
  list_blind RHEL6_NetworkData.cls_blind fun args => FC3_Network.parse_rel _ RHEL6_NetworkData.cls_blind args

theorem blind_RHEL6_Partition_RHEL6_PartData : Command.Blind (RHEL6_Partition.cls RHEL6_PartData.cls) :=
  list_blind RHEL6_PartData.cls_blind fun args => RHEL6_Partition.parse_rel _ RHEL6_PartData.cls_blind args

theorem blind_RHEL6_Raid_RHEL6_RaidData : Command.Blind (RHEL6_Raid.cls RHEL6_RaidData.cls) :=
  list_blind RHEL6_RaidData.cls_blind fun args => RHEL6_Raid.parse_rel _ RHEL6_RaidData.cls_blind args

theorem blind_RHEL6_Repo_RHEL6_RepoData : Command.Blind (RHEL6_Repo.cls RHEL6_RepoData.cls) :=
  list_blind RHEL6_RepoData.cls_blind fun args => FC6_Repo.parse_rel _ RHEL6_RepoData.cls_blind args

theorem blind_RHEL6_UnsupportedHardware : Command.Blind (RHEL6_UnsupportedHardware.cls) :=
  plain_blind fun args => RHEL6_UnsupportedHardware.parse_same _ args

theorem blind_RHEL6_Url : Command.Blind (RHEL6_Url.cls) :=
  plain_blind fun args => FC3_Url.parse_same _ args

theorem blind_RHEL7_AutoPart : Command.Blind (RHEL7_AutoPart.cls) :=
  plain_blind fun args => RHEL7_AutoPart.parse_same _ args

theorem blind_RHEL7_Bootloader : Command.Blind (RHEL7_Bootloader.cls) :=
  plain_blind fun args => F17_Bootloader.parse_same _ args

theorem blind_RHEL7_BTRFS_RHEL7_BTRFSData : Command.Blind (RHEL7_BTRFS.cls RHEL7_BTRFSData.cls) :=
  list_blind RHEL7_BTRFSData.cls_blind fun args => F23_BTRFS.parse_rel _ RHEL7_BTRFSData.cls_blind args

theorem blind_RHEL7_ClearPart : Command.Blind (RHEL7_ClearPart.cls) :=
  plain_blind fun args => F17_ClearPart.parse_same _ args

theorem blind_RHEL7_Fcoe_RHEL7_FcoeData : Command.Blind (RHEL7_Fcoe.cls RHEL7_FcoeData.cls) :=
  list_blind RHEL7_FcoeData.cls_blind fun args => F12_Fcoe.parse_rel _ RHEL7_FcoeData.cls_blind args

theorem blind_RHEL7_Hmc : Command.Blind (RHEL7_Hmc.cls) :=
  plain_blind fun args => RHEL7_Hmc.parse_same _ args

theorem blind_RHEL7_LogVol_RHEL7_LogVolData : Command.Blind (RHEL7_LogVol.cls RHEL7_LogVolData.cls) :=
  list_blind RHEL7_LogVolData.cls_blind fun args => RHEL7_LogVol.parse_rel _ RHEL7_LogVolData.cls_blind args

theorem blind_RHEL7_Method : Command.Blind (RHEL7_Method.cls) :=
  plain_blind fun _ => same_throw

theorem blind_RHEL7_Network_RHEL7_NetworkData : Command.Blind (RHEL7_Network.cls RHEL7_NetworkData.cls) :=
  list_blind RHEL7_NetworkData.cls_blind fun args => RHEL7_Network.parse_rel _ RHEL7_NetworkData.cls_blind args

theorem blind_RHEL7_OSTreeSetup : Command.Blind (RHEL7_OSTreeSetup.cls) :=
  plain_blind fun args => F21_OSTreeSetup.parse_same _ args

theorem blind_RHEL7_Partition_RHEL7_PartData : Command.Blind (RHEL7_Partition.cls RHEL7_PartData.cls) :=
  list_blind RHEL7_PartData.cls_blind fun args => F23_Partition.parse_rel _ RHEL7_PartData.cls_blind args

theorem blind_RHEL7_Raid_RHEL7_RaidData : Command.Blind (RHEL7_Raid.cls RHEL7_RaidData.cls) :=
  list_blind RHEL7_RaidData.cls_blind fun args => F23_Raid.parse_rel _ RHEL7_RaidData.cls_blind args

theorem blind_RHEL7_Repo_RHEL7_RepoData : Command.Blind (RHEL7_Repo.cls RHEL7_RepoData.cls) :=
  list_blind RHEL7_RepoData.cls_blind fun args => FC6_Repo.parse_rel _ RHEL7_RepoData.cls_blind args

theorem blind_RHEL7_ReqPart : Command.Blind (RHEL7_ReqPart.cls) :=
  plain_blind fun args => F23_ReqPart.parse_same _ args

theorem blind_RHEL7_Timezone : Command.Blind (RHEL7_Timezone.cls) :=
  plain_blind fun args => RHEL7_Timezone.parse_same _ args

theorem blind_RHEL7_VolGroup_RHEL7_VolGroupData : Command.Blind (RHEL7_VolGroup.cls RHEL7_VolGroupData.cls) :=
  list_blind RHEL7_VolGroupData.cls_blind fun args => F16_VolGroup.parse_rel _ RHEL7_VolGroupData.cls_blind args

theorem blind_RHEL8_AutoPart : Command.Blind (RHEL8_AutoPart.cls) :=
  plain_blind fun args => RHEL8_AutoPart.parse_same _ args

theorem blind_RHEL8_Bootloader : Command.Blind (RHEL8_Bootloader.cls) :=
  plain_blind fun args => F17_Bootloader.parse_same _ args

theorem blind_RHEL8_BTRFS : Command.Blind (RHEL8_BTRFS.cls) :=
  deprecated_blind

theorem blind_RHEL8_Module_RHEL8_ModuleData : Command.Blind (RHEL8_Module.cls RHEL8_ModuleData.cls) :=
  list_blind RHEL8_ModuleData.cls_blind fun args => F29_Module.parse_rel _ RHEL8_ModuleData.cls_blind args

theorem blind_RHEL8_Fcoe_RHEL8_FcoeData : Command.Blind (RHEL8_Fcoe.cls RHEL8_FcoeData.cls) :=
  list_blind RHEL8_FcoeData.cls_blind fun args => F12_Fcoe.parse_rel _ RHEL8_FcoeData.cls_blind args

theorem blind_RHEL8_LogVol_RHEL8_LogVolData : Command.Blind (RHEL8_LogVol.cls RHEL8_LogVolData.cls) :=
  list_blind RHEL8_LogVolData.cls_blind fun args => RHEL8_LogVol.parse_rel _ RHEL8_LogVolData.cls_blind args

theorem blind_RHEL8_OSTreeSetup : Command.Blind (RHEL8_OSTreeSetup.cls) :=
  plain_blind fun args => F21_OSTreeSetup.parse_same _ args

theorem blind_RHEL8_Partition_RHEL8_PartData : Command.Blind (RHEL8_Partition.cls RHEL8_PartData.cls) :=
  list_blind RHEL8_PartData.cls_blind fun args => RHEL8_Partition.parse_rel _ RHEL8_PartData.cls_blind args

theorem blind_RHEL8_Raid_RHEL8_RaidData : Command.Blind (RHEL8_Raid.cls RHEL8_RaidData.cls) :=
  list_blind RHEL8_RaidData.cls_blind fun args => RHEL8_Raid.parse_rel _ RHEL8_RaidData.cls_blind args

theorem blind_RHEL8_Repo_RHEL8_RepoData : Command.Blind (RHEL8_Repo.cls RHEL8_RepoData.cls) :=
  list_blind RHEL8_RepoData.cls_blind fun args => FC6_Repo.parse_rel _ RHEL8_RepoData.cls_blind args

theorem blind_RHEL8_RHSM : Command.Blind (RHEL8_RHSM.cls) :=
  plain_blind fun args => RHEL8_RHSM.parse_same _ args

theorem blind_RHEL8_Syspurpose : Command.Blind (RHEL8_Syspurpose.cls) :=
  plain_blind fun args => RHEL8_Syspurpose.parse_same _ args

theorem blind_RHEL8_Url : Command.Blind (RHEL8_Url.cls) :=
  plain_blind fun args => F18_Url.parse_same _ args

theorem blind_RHEL8_VolGroup_RHEL8_VolGroupData : Command.Blind (RHEL8_VolGroup.cls RHEL8_VolGroupData.cls) :=
  list_blind RHEL8_VolGroupData.cls_blind fun args => F16_VolGroup.parse_rel _ RHEL8_VolGroupData.cls_blind args

theorem blind_RHEL8_Zipl : Command.Blind (RHEL8_Zipl.cls) :=
  plain_blind fun args => F32_Zipl.parse_same _ args

theorem commandMapF10_blind : ∀ x ∈ commandMapF10, Command.Blind x.2 := by
  unfold commandMapF10
  exact (blind_cons blind_FC3_Authconfig
    (blind_cons blind_FC3_Authconfig
    (blind_cons blind_F9_AutoPart
    (blind_cons blind_FC3_AutoStep
    (blind_cons blind_F8_Bootloader
    (blind_cons blind_FC3_Cdrom
    (blind_cons blind_FC3_ClearPart
    (blind_cons blind_FC3_DisplayMode
    (blind_cons blind_F8_Device_F8_DeviceData
    (blind_cons blind_FC3_DeviceProbe
    (blind_cons blind_FC6_DmRaid_FC6_DmRaidData
    (blind_cons blind_FC4_DriverDisk_FC4_DriverDiskData
    (blind_cons blind_F10_Firewall
    (blind_cons blind_FC3_Firstboot
    (blind_cons blind_FC3_DisplayMode
    (blind_cons blind_FC6_Reboot
    (blind_cons blind_FC3_HardDrive
    (blind_cons blind_F8_IgnoreDisk
    (blind_cons blind_FC3_Upgrade
    (blind_cons blind_FC3_Interactive
    (blind_cons blind_F10_Iscsi_F10_IscsiData
    (blind_cons blind_FC6_IscsiName
    (blind_cons blind_FC3_Keyboard
    (blind_cons blind_FC3_Lang
    (blind_cons blind_FC6_Logging
    (blind_cons blind_F9_LogVol_F9_LogVolData
    (blind_cons blind_FC4_MediaCheck
    (blind_cons blind_FC6_Method
    (blind_cons blind_F10_Monitor
    (blind_cons blind_FC6_MultiPath_FC6_MultiPathData
    (blind_cons blind_F9_Network_F8_NetworkData
    (blind_cons blind_FC6_NFS
    (blind_cons blind_F9_Partition_F9_PartData
    (blind_cons blind_F9_Partition_F9_PartData
    (blind_cons blind_FC6_Reboot
    (blind_cons blind_F9_Raid_F9_RaidData
    (blind_cons blind_FC6_Reboot
    (blind_cons blind_F8_Repo_F8_RepoData
    (blind_cons blind_F10_Rescue
    (blind_cons blind_F8_RootPw
    (blind_cons blind_FC3_SELinux
    (blind_cons blind_FC6_Services
    (blind_cons blind_FC6_Reboot
    (blind_cons blind_FC3_SkipX
    (blind_cons blind_FC3_DisplayMode
    (blind_cons blind_FC6_Timezone
    (blind_cons blind_F7_Updates
    (blind_cons blind_FC3_Upgrade
    (blind_cons blind_FC3_Url
    (blind_cons blind_F8_User_F8_UserData
    (blind_cons blind_F9_Vnc
    (blind_cons blind_FC3_VolGroup_FC3_VolGroupData
    (blind_cons blind_F10_XConfig
    (blind_cons blind_F9_ZeroMbr
    (blind_cons blind_FC3_ZFCP_FC3_ZFCPData (List.forall_mem_nil _))))))))))))))))))))))))))))))))))))))))))))))))))))))))

theorem commandMapF11_blind : ∀ x ∈ commandMapF11, Command.Blind x.2 := by
  unfold commandMapF11
  exact (blind_cons blind_FC3_Authconfig
    (blind_cons blind_FC3_Authconfig
    (blind_cons blind_F9_AutoPart
    (blind_cons blind_FC3_AutoStep
    (blind_cons blind_F8_Bootloader
    (blind_cons blind_FC3_Cdrom
    (blind_cons blind_FC3_ClearPart
    (blind_cons blind_FC3_DisplayMode
    (blind_cons blind_F8_Device_F8_DeviceData
    (blind_cons blind_FC3_DeviceProbe
    (blind_cons blind_FC6_DmRaid_FC6_DmRaidData
    (blind_cons blind_FC4_DriverDisk_FC4_DriverDiskData
    (blind_cons blind_F10_Firewall
    (blind_cons blind_FC3_Firstboot
    (blind_cons blind_FC3_DisplayMode
    (blind_cons blind_FC6_Reboot
    (blind_cons blind_FC3_HardDrive
    (blind_cons blind_F8_IgnoreDisk
    (blind_cons blind_F11_Upgrade
    (blind_cons blind_FC3_Interactive
    (blind_cons blind_F10_Iscsi_F10_IscsiData
    (blind_cons blind_FC6_IscsiName
    (blind_cons blind_FC3_Keyboard
    (blind_cons blind_FC3_Lang
    (blind_cons blind_FC6_Logging
    (blind_cons blind_F9_LogVol_F9_LogVolData
    (blind_cons blind_FC4_MediaCheck
    (blind_cons blind_FC6_Method
    (blind_cons blind_F10_Monitor
    (blind_cons blind_FC6_MultiPath_FC6_MultiPathData
    (blind_cons blind_F9_Network_F8_NetworkData
    (blind_cons blind_FC6_NFS
    (blind_cons blind_F11_Partition_F11_PartData
    (blind_cons blind_F11_Partition_F11_PartData
    (blind_cons blind_FC6_Reboot
    (blind_cons blind_F9_Raid_F9_RaidData
    (blind_cons blind_FC6_Reboot
    (blind_cons blind_F11_Repo_F11_RepoData
    (blind_cons blind_F10_Rescue
    (blind_cons blind_F8_RootPw
    (blind_cons blind_FC3_SELinux
    (blind_cons blind_FC6_Services
    (blind_cons blind_FC6_Reboot
    (blind_cons blind_FC3_SkipX
    (blind_cons blind_FC3_DisplayMode
    (blind_cons blind_FC6_Timezone
    (blind_cons blind_F7_Updates
    (blind_cons blind_F11_Upgrade
    (blind_cons blind_FC3_Url
    (blind_cons blind_F8_User_F8_UserData
    (blind_cons blind_F9_Vnc
    (blind_cons blind_FC3_VolGroup_FC3_VolGroupData
    (blind_cons blind_F10_XConfig
    (blind_cons blind_F9_ZeroMbr
    (blind_cons blind_FC3_ZFCP_FC3_ZFCPData (List.forall_mem_nil _))))))))))))))))))))))))))))))))))))))))))))))))))))))))

theorem commandMapF12_blind : ∀ x ∈ commandMapF12, Command.Blind x.2 := by
  unfold commandMapF12
  exact (blind_cons blind_FC3_Authconfig
    (blind_cons blind_FC3_Authconfig
    (blind_cons blind_F12_AutoPart
    (blind_cons blind_FC3_AutoStep
    (blind_cons blind_F12_Bootloader
    (blind_cons blind_FC3_Cdrom
    (blind_cons blind_FC3_ClearPart
    (blind_cons blind_FC3_DisplayMode
    (blind_cons blind_F8_Device_F8_DeviceData
    (blind_cons blind_FC3_DeviceProbe
    (blind_cons blind_FC6_DmRaid_FC6_DmRaidData
    (blind_cons blind_F12_DriverDisk_F12_DriverDiskData
    (blind_cons blind_F12_Fcoe_F12_FcoeData
    (blind_cons blind_F10_Firewall
    (blind_cons blind_FC3_Firstboot
    (blind_cons blind_FC3_DisplayMode
    (blind_cons blind_F12_Group_F12_GroupData
    (blind_cons blind_FC6_Reboot
    (blind_cons blind_FC3_HardDrive
    (blind_cons blind_F8_IgnoreDisk
    (blind_cons blind_F11_Upgrade
    (blind_cons blind_FC3_Interactive
    (blind_cons blind_F10_Iscsi_F10_IscsiData
    (blind_cons blind_FC6_IscsiName
    (blind_cons blind_FC3_Keyboard
    (blind_cons blind_FC3_Lang
    (blind_cons blind_FC6_Logging
    (blind_cons blind_F12_LogVol_F12_LogVolData
    (blind_cons blind_FC4_MediaCheck
    (blind_cons blind_FC6_Method
    (blind_cons blind_F10_Monitor
    (blind_cons blind_FC6_MultiPath_FC6_MultiPathData
    (blind_cons blind_F9_Network_F8_NetworkData
    (blind_cons blind_FC6_NFS
    (blind_cons blind_F12_Partition_F12_PartData
    (blind_cons blind_F12_Partition_F12_PartData
    (blind_cons blind_FC6_Reboot
    (blind_cons blind_F12_Raid_F12_RaidData
    (blind_cons blind_FC6_Reboot
    (blind_cons blind_F11_Repo_F11_RepoData
    (blind_cons blind_F10_Rescue
    (blind_cons blind_F8_RootPw
    (blind_cons blind_FC3_SELinux
    (blind_cons blind_FC6_Services
    (blind_cons blind_FC6_Reboot
    (blind_cons blind_FC3_SkipX
    (blind_cons blind_FC3_DisplayMode
    (blind_cons blind_FC6_Timezone
    (blind_cons blind_F7_Updates
    (blind_cons blind_F11_Upgrade
    (blind_cons blind_FC3_Url
    (blind_cons blind_F12_User_F12_UserData
    (blind_cons blind_F9_Vnc
    (blind_cons blind_FC3_VolGroup_FC3_VolGroupData
    (blind_cons blind_F10_XConfig
    (blind_cons blind_F9_ZeroMbr
    (blind_cons blind_F12_ZFCP_F12_ZFCPData (List.forall_mem_nil _))))))))))))))))))))))))))))))))))))))))))))))))))))))))))

theorem commandMapF13_blind : ∀ x ∈ commandMapF13, Command.Blind x.2 := by
  unfold commandMapF13
  exact (blind_cons blind_FC3_Authconfig
    (blind_cons blind_FC3_Authconfig
    (blind_cons blind_F12_AutoPart
    (blind_cons blind_FC3_AutoStep
    (blind_cons blind_F12_Bootloader
    (blind_cons blind_FC3_Cdrom
    (blind_cons blind_FC3_ClearPart
    (blind_cons blind_FC3_DisplayMode
    (blind_cons blind_F8_Device_F8_DeviceData
    (blind_cons blind_FC3_DeviceProbe
    (blind_cons blind_FC6_DmRaid_FC6_DmRaidData
    (blind_cons blind_F12_DriverDisk_F12_DriverDiskData
    (blind_cons blind_F13_Fcoe_F13_FcoeData
    (blind_cons blind_F10_Firewall
    (blind_cons blind_FC3_Firstboot
    (blind_cons blind_FC3_DisplayMode
    (blind_cons blind_F12_Group_F12_GroupData
    (blind_cons blind_FC6_Reboot
    (blind_cons blind_FC3_HardDrive
    (blind_cons blind_F8_IgnoreDisk
    (blind_cons blind_F11_Upgrade
    (blind_cons blind_FC3_Interactive
    (blind_cons blind_F10_Iscsi_F10_IscsiData
    (blind_cons blind_FC6_IscsiName
    (blind_cons blind_FC3_Keyboard
    (blind_cons blind_FC3_Lang
    (blind_cons blind_FC6_Logging
    (blind_cons blind_F12_LogVol_F12_LogVolData
    (blind_cons blind_FC4_MediaCheck
    (blind_cons blind_F13_Method
    (blind_cons blind_F10_Monitor
    (blind_cons blind_FC6_MultiPath_FC6_MultiPathData
    (blind_cons blind_F9_Network_F8_NetworkData
    (blind_cons blind_FC6_NFS
    (blind_cons blind_F12_Partition_F12_PartData
    (blind_cons blind_F12_Partition_F12_PartData
    (blind_cons blind_FC6_Reboot
    (blind_cons blind_F13_Raid_F13_RaidData
    (blind_cons blind_FC6_Reboot
    (blind_cons blind_F13_Repo_F13_RepoData
    (blind_cons blind_F10_Rescue
    (blind_cons blind_F8_RootPw
    (blind_cons blind_FC3_SELinux
    (blind_cons blind_FC6_Services
    (blind_cons blind_FC6_Reboot
    (blind_cons blind_FC3_SkipX
    (blind_cons blind_F13_SshPw_F13_SshPwData
    (blind_cons blind_FC3_DisplayMode
    (blind_cons blind_FC6_Timezone
    (blind_cons blind_F7_Updates
    (blind_cons blind_F11_Upgrade
    (blind_cons blind_F13_Url
    (blind_cons blind_F12_User_F12_UserData
    (blind_cons blind_F9_Vnc
    (blind_cons blind_FC3_VolGroup_FC3_VolGroupData
    (blind_cons blind_F10_XConfig
    (blind_cons blind_F9_ZeroMbr
    (blind_cons blind_F12_ZFCP_F12_ZFCPData (List.forall_mem_nil _)))))))))))))))))))))))))))))))))))))))))))))))))))))))))))

theorem commandMapF14_blind : ∀ x ∈ commandMapF14, Command.Blind x.2 := by
  unfold commandMapF14
  exact (blind_cons blind_FC3_Authconfig
    (blind_cons blind_FC3_Authconfig
    (blind_cons blind_F12_AutoPart
    (blind_cons blind_FC3_AutoStep
    (blind_cons blind_F14_Bootloader
    (blind_cons blind_FC3_Cdrom
    (blind_cons blind_FC3_ClearPart
    (blind_cons blind_FC3_DisplayMode
    (blind_cons blind_F8_Device_F8_DeviceData
    (blind_cons blind_FC3_DeviceProbe
    (blind_cons blind_FC6_DmRaid_FC6_DmRaidData
    (blind_cons blind_F14_DriverDisk_F14_DriverDiskData
    (blind_cons blind_F13_Fcoe_F13_FcoeData
    (blind_cons blind_F14_Firewall
    (blind_cons blind_FC3_Firstboot
    (blind_cons blind_FC3_DisplayMode
    (blind_cons blind_F12_Group_F12_GroupData
    (blind_cons blind_FC6_Reboot
    (blind_cons blind_FC3_HardDrive
    (blind_cons blind_F14_IgnoreDisk
    (blind_cons blind_F11_Upgrade
    (blind_cons blind_F14_Interactive
    (blind_cons blind_F10_Iscsi_F10_IscsiData
    (blind_cons blind_FC6_IscsiName
    (blind_cons blind_FC3_Keyboard
    (blind_cons blind_FC3_Lang
    (blind_cons blind_FC6_Logging
    (blind_cons blind_F14_LogVol_F14_LogVolData
    (blind_cons blind_FC4_MediaCheck
    (blind_cons blind_F14_Method
    (blind_cons blind_F10_Monitor
    (blind_cons blind_FC6_MultiPath_FC6_MultiPathData
    (blind_cons blind_F9_Network_F8_NetworkData
    (blind_cons blind_FC6_NFS
    (blind_cons blind_F14_Partition_F14_PartData
    (blind_cons blind_F14_Partition_F14_PartData
    (blind_cons blind_FC6_Reboot
    (blind_cons blind_F14_Raid_F14_RaidData
    (blind_cons blind_FC6_Reboot
    (blind_cons blind_F14_Repo_F14_RepoData
    (blind_cons blind_F10_Rescue
    (blind_cons blind_F8_RootPw
    (blind_cons blind_FC3_SELinux
    (blind_cons blind_FC6_Services
    (blind_cons blind_FC6_Reboot
    (blind_cons blind_FC3_SkipX
    (blind_cons blind_F13_SshPw_F13_SshPwData
    (blind_cons blind_FC3_DisplayMode
    (blind_cons blind_FC6_Timezone
    (blind_cons blind_F7_Updates
    (blind_cons blind_F11_Upgrade
    (blind_cons blind_F14_Url
    (blind_cons blind_F12_User_F12_UserData
    (blind_cons blind_F9_Vnc
    (blind_cons blind_FC3_VolGroup_FC3_VolGroupData
    (blind_cons blind_F14_XConfig
    (blind_cons blind_F9_ZeroMbr
    (blind_cons blind_F14_ZFCP_F14_ZFCPData (List.forall_mem_nil _)))))))))))))))))))))))))))))))))))))))))))))))))))))))))))

theorem commandMapF15_blind : ∀ x ∈ commandMapF15, Command.Blind x.2 := by
  unfold commandMapF15
  exact (blind_cons blind_FC3_Authconfig
    (blind_cons blind_FC3_Authconfig
    (blind_cons blind_F12_AutoPart
    (blind_cons blind_FC3_AutoStep
    (blind_cons blind_F15_Bootloader
    (blind_cons blind_FC3_Cdrom
    (blind_cons blind_FC3_ClearPart
    (blind_cons blind_FC3_DisplayMode
    (blind_cons blind_F8_Device_F8_DeviceData
    (blind_cons blind_FC3_DeviceProbe
    (blind_cons blind_FC6_DmRaid_FC6_DmRaidData
    (blind_cons blind_F14_DriverDisk_F14_DriverDiskData
    (blind_cons blind_F13_Fcoe_F13_FcoeData
    (blind_cons blind_F14_Firewall
    (blind_cons blind_FC3_Firstboot
    (blind_cons blind_FC3_DisplayMode
    (blind_cons blind_F12_Group_F12_GroupData
    (blind_cons blind_FC6_Reboot
    (blind_cons blind_FC3_HardDrive
    (blind_cons blind_F14_IgnoreDisk
    (blind_cons blind_F11_Upgrade
    (blind_cons blind_F15_Interactive
    (blind_cons blind_F10_Iscsi_F10_IscsiData
    (blind_cons blind_FC6_IscsiName
    (blind_cons blind_FC3_Keyboard
    (blind_cons blind_FC3_Lang
    (blind_cons blind_FC6_Logging
    (blind_cons blind_F15_LogVol_F15_LogVolData
    (blind_cons blind_FC4_MediaCheck
    (blind_cons blind_F14_Method
    (blind_cons blind_F10_Monitor
    (blind_cons blind_FC6_MultiPath_FC6_MultiPathData
    (blind_cons blind_F9_Network_F8_NetworkData
    (blind_cons blind_FC6_NFS
    (blind_cons blind_F14_Partition_F14_PartData
    (blind_cons blind_F14_Partition_F14_PartData
    (blind_cons blind_FC6_Reboot
    (blind_cons blind_F15_Raid_F15_RaidData
    (blind_cons blind_FC6_Reboot
    (blind_cons blind_F15_Repo_F15_RepoData
    (blind_cons blind_F10_Rescue
    (blind_cons blind_F8_RootPw
    (blind_cons blind_FC3_SELinux
    (blind_cons blind_FC6_Services
    (blind_cons blind_FC6_Reboot
    (blind_cons blind_FC3_SkipX
    (blind_cons blind_F13_SshPw_F13_SshPwData
    (blind_cons blind_FC3_DisplayMode
    (blind_cons blind_FC6_Timezone
    (blind_cons blind_F7_Updates
    (blind_cons blind_F11_Upgrade
    (blind_cons blind_F14_Url
    (blind_cons blind_F12_User_F12_UserData
    (blind_cons blind_F9_Vnc
    (blind_cons blind_FC3_VolGroup_FC3_VolGroupData
    (blind_cons blind_F14_XConfig
    (blind_cons blind_F9_ZeroMbr
    (blind_cons blind_F14_ZFCP_F14_ZFCPData (List.forall_mem_nil _)))))))))))))))))))))))))))))))))))))))))))))))))))))))))))

theorem commandMapF16_blind : ∀ x ∈ commandMapF16, Command.Blind x.2 := by
  unfold commandMapF16
  exact (blind_cons blind_FC3_Authconfig
    (blind_cons blind_FC3_Authconfig
    (blind_cons blind_F16_AutoPart
    (blind_cons blind_FC3_AutoStep
    (blind_cons blind_F15_Bootloader
    (blind_cons blind_FC3_Cdrom
    (blind_cons blind_FC3_ClearPart
    (blind_cons blind_FC3_DisplayMode
    (blind_cons blind_F8_Device_F8_DeviceData
    (blind_cons blind_FC3_DeviceProbe
    (blind_cons blind_FC6_DmRaid_FC6_DmRaidData
    (blind_cons blind_F14_DriverDisk_F14_DriverDiskData
    (blind_cons blind_F13_Fcoe_F13_FcoeData
    (blind_cons blind_F14_Firewall
    (blind_cons blind_FC3_Firstboot
    (blind_cons blind_FC3_DisplayMode
    (blind_cons blind_F12_Group_F12_GroupData
    (blind_cons blind_FC6_Reboot
    (blind_cons blind_FC3_HardDrive
    (blind_cons blind_F14_IgnoreDisk
    (blind_cons blind_F11_Upgrade
    (blind_cons blind_F10_Iscsi_F10_IscsiData
    (blind_cons blind_FC6_IscsiName
    (blind_cons blind_FC3_Keyboard
    (blind_cons blind_FC3_Lang
    (blind_cons blind_FC6_Logging
    (blind_cons blind_F15_LogVol_F17_LogVolData
    (blind_cons blind_FC4_MediaCheck
    (blind_cons blind_F14_Method
    (blind_cons blind_F10_Monitor
    (blind_cons blind_FC6_MultiPath_FC6_MultiPathData
    (blind_cons blind_F16_Network_F16_NetworkData
    (blind_cons blind_FC6_NFS
    (blind_cons blind_F14_Partition_F17_PartData
    (blind_cons blind_F14_Partition_F17_PartData
    (blind_cons blind_FC6_Reboot
    (blind_cons blind_F15_Raid_F15_RaidData
    (blind_cons blind_FC6_Reboot
    (blind_cons blind_F15_Repo_F15_RepoData
    (blind_cons blind_F10_Rescue
    (blind_cons blind_F8_RootPw
    (blind_cons blind_FC3_SELinux
    (blind_cons blind_FC6_Services
    (blind_cons blind_FC6_Reboot
    (blind_cons blind_FC3_SkipX
    (blind_cons blind_F13_SshPw_F13_SshPwData
    (blind_cons blind_FC3_DisplayMode
    (blind_cons blind_FC6_Timezone
    (blind_cons blind_F7_Updates
    (blind_cons blind_F11_Upgrade
    (blind_cons blind_F14_Url
    (blind_cons blind_F12_User_F12_UserData
    (blind_cons blind_F9_Vnc
    (blind_cons blind_F16_VolGroup_F16_VolGroupData
    (blind_cons blind_F14_XConfig
    (blind_cons blind_F9_ZeroMbr
    (blind_cons blind_F14_ZFCP_F14_ZFCPData (List.forall_mem_nil _))))))))))))))))))))))))))))))))))))))))))))))))))))))))))

theorem commandMapF17_blind : ∀ x ∈ commandMapF17, Command.Blind x.2 := by
  unfold commandMapF17
  exact (blind_cons blind_FC3_Authconfig
    (blind_cons blind_FC3_Authconfig
    (blind_cons blind_F17_AutoPart
    (blind_cons blind_FC3_AutoStep
    (blind_cons blind_F17_Bootloader
    (blind_cons blind_F17_BTRFS_F17_BTRFSData
    (blind_cons blind_FC3_Cdrom
    (blind_cons blind_F17_ClearPart
    (blind_cons blind_FC3_DisplayMode
    (blind_cons blind_F8_Device_F8_DeviceData
    (blind_cons blind_FC3_DeviceProbe
    (blind_cons blind_FC6_DmRaid_FC6_DmRaidData
    (blind_cons blind_F14_DriverDisk_F14_DriverDiskData
    (blind_cons blind_F13_Fcoe_F13_FcoeData
    (blind_cons blind_F14_Firewall
    (blind_cons blind_FC3_Firstboot
    (blind_cons blind_FC3_DisplayMode
    (blind_cons blind_F12_Group_F12_GroupData
    (blind_cons blind_FC6_Reboot
    (blind_cons blind_FC3_HardDrive
    (blind_cons blind_F14_IgnoreDisk
    (blind_cons blind_F11_Upgrade
    (blind_cons blind_F17_Iscsi_F17_IscsiData
    (blind_cons blind_FC6_IscsiName
    (blind_cons blind_FC3_Keyboard
    (blind_cons blind_FC3_Lang
    (blind_cons blind_FC6_Logging
    (blind_cons blind_F17_LogVol_F17_LogVolData
    (blind_cons blind_FC4_MediaCheck
    (blind_cons blind_F14_Method
    (blind_cons blind_F10_Monitor
    (blind_cons blind_FC6_MultiPath_FC6_MultiPathData
    (blind_cons blind_F16_Network_F16_NetworkData
    (blind_cons blind_FC6_NFS
    (blind_cons blind_F17_Partition_F17_PartData
    (blind_cons blind_F17_Partition_F17_PartData
    (blind_cons blind_FC6_Reboot
    (blind_cons blind_F15_Raid_F15_RaidData
    (blind_cons blind_FC6_Reboot
    (blind_cons blind_F15_Repo_F15_RepoData
    (blind_cons blind_F10_Rescue
    (blind_cons blind_F8_RootPw
    (blind_cons blind_FC3_SELinux
    (blind_cons blind_FC6_Services
    (blind_cons blind_FC6_Reboot
    (blind_cons blind_FC3_SkipX
    (blind_cons blind_F13_SshPw_F13_SshPwData
    (blind_cons blind_FC3_DisplayMode
    (blind_cons blind_FC6_Timezone
    (blind_cons blind_F7_Updates
    (blind_cons blind_F11_Upgrade
    (blind_cons blind_F14_Url
    (blind_cons blind_F12_User_F12_UserData
    (blind_cons blind_F9_Vnc
    (blind_cons blind_F16_VolGroup_F16_VolGroupData
    (blind_cons blind_F14_XConfig
    (blind_cons blind_F9_ZeroMbr
    (blind_cons blind_F14_ZFCP_F14_ZFCPData (List.forall_mem_nil _)))))))))))))))))))))))))))))))))))))))))))))))))))))))))))

theorem commandMapF18_blind : ∀ x ∈ commandMapF18, Command.Blind x.2 := by
  unfold commandMapF18
  exact (blind_cons blind_FC3_Authconfig
    (blind_cons blind_FC3_Authconfig
    (blind_cons blind_F18_AutoPart
    (blind_cons blind_FC3_AutoStep
    (blind_cons blind_F18_Bootloader
    (blind_cons blind_F17_BTRFS_F17_BTRFSData
    (blind_cons blind_FC3_Cdrom
    (blind_cons blind_F17_ClearPart
    (blind_cons blind_FC3_DisplayMode
    (blind_cons blind_F8_Device_F8_DeviceData
    (blind_cons blind_FC3_DeviceProbe
    (blind_cons blind_FC6_DmRaid_FC6_DmRaidData
    (blind_cons blind_F14_DriverDisk_F14_DriverDiskData
    (blind_cons blind_F13_Fcoe_RHEL7_FcoeData
    (blind_cons blind_F14_Firewall
    (blind_cons blind_FC3_Firstboot
    (blind_cons blind_FC3_DisplayMode
    (blind_cons blind_F12_Group_F12_GroupData
    (blind_cons blind_F18_Reboot
    (blind_cons blind_FC3_HardDrive
    (blind_cons blind_F14_IgnoreDisk
    (blind_cons blind_F11_Upgrade
    (blind_cons blind_F17_Iscsi_F17_IscsiData
    (blind_cons blind_FC6_IscsiName
    (blind_cons blind_F18_Keyboard
    (blind_cons blind_FC3_Lang
    (blind_cons blind_FC6_Logging
    (blind_cons blind_F18_LogVol_F18_LogVolData
    (blind_cons blind_FC4_MediaCheck
    (blind_cons blind_F18_Method
    (blind_cons blind_F18_Monitor
    (blind_cons blind_FC6_MultiPath_FC6_MultiPathData
    (blind_cons blind_F18_Network_F16_NetworkData
    (blind_cons blind_FC6_NFS
    (blind_cons blind_F18_Partition_F18_PartData
    (blind_cons blind_F18_Partition_F18_PartData
    (blind_cons blind_F18_Reboot
    (blind_cons blind_F18_Raid_F18_RaidData
    (blind_cons blind_F18_Reboot
    (blind_cons blind_F15_Repo_F15_RepoData
    (blind_cons blind_F10_Rescue
    (blind_cons blind_F18_RootPw
    (blind_cons blind_FC3_SELinux
    (blind_cons blind_FC6_Services
    (blind_cons blind_F18_Reboot
    (blind_cons blind_FC3_SkipX
    (blind_cons blind_F13_SshPw_F13_SshPwData
    (blind_cons blind_FC3_DisplayMode
    (blind_cons blind_F18_Timezone
    (blind_cons blind_F7_Updates
    (blind_cons blind_F11_Upgrade
    (blind_cons blind_F18_Url
    (blind_cons blind_F12_User_F12_UserData
    (blind_cons blind_F9_Vnc
    (blind_cons blind_F16_VolGroup_F16_VolGroupData
    (blind_cons blind_F14_XConfig
    (blind_cons blind_F9_ZeroMbr
    (blind_cons blind_F14_ZFCP_F14_ZFCPData (List.forall_mem_nil _)))))))))))))))))))))))))))))))))))))))))))))))))))))))))))

theorem commandMapF19_blind : ∀ x ∈ commandMapF19, Command.Blind x.2 := by
  unfold commandMapF19
  exact (blind_cons blind_FC3_Authconfig
    (blind_cons blind_FC3_Authconfig
    (blind_cons blind_F18_AutoPart
    (blind_cons blind_FC3_AutoStep
    (blind_cons blind_F19_Bootloader
    (blind_cons blind_F17_BTRFS_F17_BTRFSData
    (blind_cons blind_FC3_Cdrom
    (blind_cons blind_F17_ClearPart
    (blind_cons blind_FC3_DisplayMode
    (blind_cons blind_F8_Device_F8_DeviceData
    (blind_cons blind_FC3_DeviceProbe
    (blind_cons blind_FC6_DmRaid_FC6_DmRaidData
    (blind_cons blind_F14_DriverDisk_F14_DriverDiskData
    (blind_cons blind_F13_Fcoe_F13_FcoeData
    (blind_cons blind_F14_Firewall
    (blind_cons blind_FC3_Firstboot
    (blind_cons blind_FC3_DisplayMode
    (blind_cons blind_F12_Group_F12_GroupData
    (blind_cons blind_F18_Reboot
    (blind_cons blind_FC3_HardDrive
    (blind_cons blind_F14_IgnoreDisk
    (blind_cons blind_F11_Upgrade
    (blind_cons blind_F17_Iscsi_F17_IscsiData
    (blind_cons blind_FC6_IscsiName
    (blind_cons blind_F18_Keyboard
    (blind_cons blind_F19_Lang
    (blind_cons blind_F19_Liveimg
    (blind_cons blind_FC6_Logging
    (blind_cons blind_F18_LogVol_F20_LogVolData
    (blind_cons blind_FC4_MediaCheck
    (blind_cons blind_F19_Method
    (blind_cons blind_FC6_MultiPath_FC6_MultiPathData
    (blind_cons blind_F19_Network_F19_NetworkData
    (blind_cons blind_FC6_NFS
    (blind_cons blind_F18_Partition_F18_PartData
    (blind_cons blind_F18_Partition_F18_PartData
    (blind_cons blind_F18_Reboot
    (blind_cons blind_F19_Raid_F18_RaidData
    (blind_cons blind_F19_Realm
    (blind_cons blind_F18_Reboot
    (blind_cons blind_F15_Repo_F15_RepoData
    (blind_cons blind_F10_Rescue
    (blind_cons blind_F18_RootPw
    (blind_cons blind_FC3_SELinux
    (blind_cons blind_FC6_Services
    (blind_cons blind_F18_Reboot
    (blind_cons blind_FC3_SkipX
    (blind_cons blind_F13_SshPw_F13_SshPwData
    (blind_cons blind_FC3_DisplayMode
    (blind_cons blind_F18_Timezone
    (blind_cons blind_F7_Updates
    (blind_cons blind_F11_Upgrade
    (blind_cons blind_F18_Url
    (blind_cons blind_F19_User_F19_UserData
    (blind_cons blind_F9_Vnc
    (blind_cons blind_F16_VolGroup_F16_VolGroupData
    (blind_cons blind_F14_XConfig
    (blind_cons blind_F9_ZeroMbr
    (blind_cons blind_F14_ZFCP_F14_ZFCPData (List.forall_mem_nil _))))))))))))))))))))))))))))))))))))))))))))))))))))))))))))

theorem commandMapF20_blind : ∀ x ∈ commandMapF20, Command.Blind x.2 := by
  unfold commandMapF20
  exact (blind_cons blind_FC3_Authconfig
    (blind_cons blind_FC3_Authconfig
    (blind_cons blind_F20_AutoPart
    (blind_cons blind_FC3_AutoStep
    (blind_cons blind_F19_Bootloader
    (blind_cons blind_F17_BTRFS_F17_BTRFSData
    (blind_cons blind_FC3_Cdrom
    (blind_cons blind_F17_ClearPart
    (blind_cons blind_FC3_DisplayMode
    (blind_cons blind_F8_Device_F8_DeviceData
    (blind_cons blind_FC3_DeviceProbe
    (blind_cons blind_FC6_DmRaid_FC6_DmRaidData
    (blind_cons blind_F14_DriverDisk_F14_DriverDiskData
    (blind_cons blind_F20_Eula
    (blind_cons blind_F13_Fcoe_F13_FcoeData
    (blind_cons blind_F20_Firewall
    (blind_cons blind_FC3_Firstboot
    (blind_cons blind_FC3_DisplayMode
    (blind_cons blind_F12_Group_F12_GroupData
    (blind_cons blind_F18_Reboot
    (blind_cons blind_FC3_HardDrive
    (blind_cons blind_F14_IgnoreDisk
    (blind_cons blind_F20_Install
    (blind_cons blind_F17_Iscsi_F17_IscsiData
    (blind_cons blind_FC6_IscsiName
    (blind_cons blind_F18_Keyboard
    (blind_cons blind_F19_Lang
    (blind_cons blind_F19_Liveimg
    (blind_cons blind_FC6_Logging
    (blind_cons blind_F20_LogVol_F20_LogVolData
    (blind_cons blind_FC4_MediaCheck
    (blind_cons blind_F19_Method
    (blind_cons blind_FC6_MultiPath_FC6_MultiPathData
    (blind_cons blind_F20_Network_F20_NetworkData
    (blind_cons blind_FC6_NFS
    (blind_cons blind_F20_Partition_F18_PartData
    (blind_cons blind_F20_Partition_F18_PartData
    (blind_cons blind_F18_Reboot
    (blind_cons blind_F20_Raid_F18_RaidData
    (blind_cons blind_F19_Realm
    (blind_cons blind_F18_Reboot
    (blind_cons blind_F15_Repo_F15_RepoData
    (blind_cons blind_F10_Rescue
    (blind_cons blind_F18_RootPw
    (blind_cons blind_FC3_SELinux
    (blind_cons blind_FC6_Services
    (blind_cons blind_F18_Reboot
    (blind_cons blind_FC3_SkipX
    (blind_cons blind_F13_SshPw_F13_SshPwData
    (blind_cons blind_FC3_DisplayMode
    (blind_cons blind_F18_Timezone
    (blind_cons blind_F7_Updates
    (blind_cons blind_F20_Upgrade
    (blind_cons blind_F18_Url
    (blind_cons blind_F19_User_F19_UserData
    (blind_cons blind_F9_Vnc
    (blind_cons blind_F16_VolGroup_F16_VolGroupData
    (blind_cons blind_F14_XConfig
    (blind_cons blind_F9_ZeroMbr
    (blind_cons blind_F14_ZFCP_F14_ZFCPData (List.forall_mem_nil _)))))))))))))))))))))))))))))))))))))))))))))))))))))))))))))

theorem commandMapF21_blind : ∀ x ∈ commandMapF21, Command.Blind x.2 := by
  unfold commandMapF21
  exact (blind_cons blind_FC3_Authconfig
    (blind_cons blind_FC3_Authconfig
    (blind_cons blind_F21_AutoPart
    (blind_cons blind_FC3_AutoStep
    (blind_cons blind_F21_Bootloader
    (blind_cons blind_F17_BTRFS_F17_BTRFSData
    (blind_cons blind_FC3_Cdrom
    (blind_cons blind_F21_ClearPart
    (blind_cons blind_FC3_DisplayMode
    (blind_cons blind_F8_Device_F8_DeviceData
    (blind_cons blind_FC3_DeviceProbe
    (blind_cons blind_FC6_DmRaid_FC6_DmRaidData
    (blind_cons blind_F14_DriverDisk_F14_DriverDiskData
    (blind_cons blind_F20_Eula
    (blind_cons blind_F13_Fcoe_F13_FcoeData
    (blind_cons blind_F20_Firewall
    (blind_cons blind_FC3_Firstboot
    (blind_cons blind_FC3_DisplayMode
    (blind_cons blind_F12_Group_F12_GroupData
    (blind_cons blind_F18_Reboot
    (blind_cons blind_FC3_HardDrive
    (blind_cons blind_F14_IgnoreDisk
    (blind_cons blind_F20_Install
    (blind_cons blind_F17_Iscsi_F17_IscsiData
    (blind_cons blind_FC6_IscsiName
    (blind_cons blind_F18_Keyboard
    (blind_cons blind_F19_Lang
    (blind_cons blind_F19_Liveimg
    (blind_cons blind_FC6_Logging
    (blind_cons blind_F21_LogVol_F21_LogVolData
    (blind_cons blind_FC4_MediaCheck
    (blind_cons blind_F19_Method
    (blind_cons blind_FC6_MultiPath_FC6_MultiPathData
    (blind_cons blind_F21_Network_F21_NetworkData
    (blind_cons blind_FC6_NFS
    (blind_cons blind_F21_OSTreeSetup
    (blind_cons blind_F20_Partition_F18_PartData
    (blind_cons blind_F20_Partition_F18_PartData
    (blind_cons blind_F18_Reboot
    (blind_cons blind_F20_Raid_F18_RaidData
    (blind_cons blind_F19_Realm
    (blind_cons blind_F18_Reboot
    (blind_cons blind_F21_Repo_F21_RepoData
    (blind_cons blind_F10_Rescue
    (blind_cons blind_F18_RootPw
    (blind_cons blind_FC3_SELinux
    (blind_cons blind_FC6_Services
    (blind_cons blind_F18_Reboot
    (blind_cons blind_FC3_SkipX
    (blind_cons blind_F13_SshPw_F13_SshPwData
    (blind_cons blind_FC3_DisplayMode
    (blind_cons blind_F18_Timezone
    (blind_cons blind_F7_Updates
    (blind_cons blind_F20_Upgrade
    (blind_cons blind_F18_Url
    (blind_cons blind_F19_User_F19_UserData
    (blind_cons blind_F9_Vnc
    (blind_cons blind_F21_VolGroup_F21_VolGroupData
    (blind_cons blind_F14_XConfig
    (blind_cons blind_F9_ZeroMbr
    (blind_cons blind_F14_ZFCP_F14_ZFCPData (List.forall_mem_nil _))))))))))))))))))))))))))))))))))))))))))))))))))))))))))))))

theorem commandMapF22_blind : ∀ x ∈ commandMapF22, Command.Blind x.2 := by
  unfold commandMapF22
  exact (blind_cons blind_FC3_Authconfig
    (blind_cons blind_FC3_Authconfig
    (blind_cons blind_F21_AutoPart
    (blind_cons blind_FC3_AutoStep
    (blind_cons blind_F21_Bootloader
    (blind_cons blind_F17_BTRFS_F17_BTRFSData
    (blind_cons blind_FC3_Cdrom
    (blind_cons blind_F21_ClearPart
    (blind_cons blind_FC3_DisplayMode
    (blind_cons blind_F8_Device_F8_DeviceData
    (blind_cons blind_FC3_DeviceProbe
    (blind_cons blind_FC6_DmRaid_FC6_DmRaidData
    (blind_cons blind_F14_DriverDisk_F14_DriverDiskData
    (blind_cons blind_F20_Eula
    (blind_cons blind_F13_Fcoe_F13_FcoeData
    (blind_cons blind_F20_Firewall
    (blind_cons blind_FC3_Firstboot
    (blind_cons blind_FC3_DisplayMode
    (blind_cons blind_F12_Group_F12_GroupData
    (blind_cons blind_F18_Reboot
    (blind_cons blind_FC3_HardDrive
    (blind_cons blind_F14_IgnoreDisk
    (blind_cons blind_F20_Install
    (blind_cons blind_F17_Iscsi_F17_IscsiData
    (blind_cons blind_FC6_IscsiName
    (blind_cons blind_F18_Keyboard
    (blind_cons blind_F19_Lang
    (blind_cons blind_F19_Liveimg
    (blind_cons blind_FC6_Logging
    (blind_cons blind_F21_LogVol_F21_LogVolData
    (blind_cons blind_FC4_MediaCheck
    (blind_cons blind_F19_Method
    (blind_cons blind_FC6_MultiPath_FC6_MultiPathData
    (blind_cons blind_F22_Network_F22_NetworkData
    (blind_cons blind_FC6_NFS
    (blind_cons blind_F21_OSTreeSetup
    (blind_cons blind_F20_Partition_F18_PartData
    (blind_cons blind_F20_Partition_F18_PartData
    (blind_cons blind_F18_Reboot
    (blind_cons blind_F20_Raid_F18_RaidData
    (blind_cons blind_F19_Realm
    (blind_cons blind_F18_Reboot
    (blind_cons blind_F21_Repo_F21_RepoData
    (blind_cons blind_F10_Rescue
    (blind_cons blind_F18_RootPw
    (blind_cons blind_FC3_SELinux
    (blind_cons blind_FC6_Services
    (blind_cons blind_F18_Reboot
    (blind_cons blind_FC3_SkipX
    (blind_cons blind_F13_SshPw_F13_SshPwData
    (blind_cons blind_F22_SshKey_F22_SshKeyData
    (blind_cons blind_FC3_DisplayMode
    (blind_cons blind_F18_Timezone
    (blind_cons blind_F7_Updates
    (blind_cons blind_F20_Upgrade
    (blind_cons blind_F18_Url
    (blind_cons blind_F19_User_F19_UserData
    (blind_cons blind_F9_Vnc
    (blind_cons blind_F21_VolGroup_F21_VolGroupData
    (blind_cons blind_F14_XConfig
    (blind_cons blind_F9_ZeroMbr
    (blind_cons blind_F14_ZFCP_F14_ZFCPData (List.forall_mem_nil _)))))))))))))))))))))))))))))))))))))))))))))))))))))))))))))))

theorem commandMapF23_blind : ∀ x ∈ commandMapF23, Command.Blind x.2 := by
  unfold commandMapF23
  exact (blind_cons blind_FC3_Authconfig
    (blind_cons blind_FC3_Authconfig
    (blind_cons blind_F23_AutoPart
    (blind_cons blind_FC3_AutoStep
    (blind_cons blind_F21_Bootloader
    (blind_cons blind_F23_BTRFS_F23_BTRFSData
    (blind_cons blind_FC3_Cdrom
    (blind_cons blind_F21_ClearPart
    (blind_cons blind_FC3_DisplayMode
    (blind_cons blind_F8_Device_F8_DeviceData
    (blind_cons blind_FC3_DeviceProbe
    (blind_cons blind_FC6_DmRaid_FC6_DmRaidData
    (blind_cons blind_F14_DriverDisk_F14_DriverDiskData
    (blind_cons blind_F20_Eula
    (blind_cons blind_F13_Fcoe_F13_FcoeData
    (blind_cons blind_F20_Firewall
    (blind_cons blind_FC3_Firstboot
    (blind_cons blind_FC3_DisplayMode
    (blind_cons blind_F12_Group_F12_GroupData
    (blind_cons blind_F23_Reboot
    (blind_cons blind_FC3_HardDrive
    (blind_cons blind_F14_IgnoreDisk
    (blind_cons blind_F20_Install
    (blind_cons blind_F17_Iscsi_F17_IscsiData
    (blind_cons blind_FC6_IscsiName
    (blind_cons blind_F18_Keyboard
    (blind_cons blind_F19_Lang
    (blind_cons blind_F19_Liveimg
    (blind_cons blind_FC6_Logging
    (blind_cons blind_F23_LogVol_F23_LogVolData
    (blind_cons blind_FC4_MediaCheck
    (blind_cons blind_F19_Method
    (blind_cons blind_FC6_MultiPath_FC6_MultiPathData
    (blind_cons blind_F22_Network_F22_NetworkData
    (blind_cons blind_FC6_NFS
    (blind_cons blind_F21_OSTreeSetup
    (blind_cons blind_F23_Partition_F23_PartData
    (blind_cons blind_F23_Partition_F23_PartData
    (blind_cons blind_F23_Reboot
    (blind_cons blind_F23_Raid_F23_RaidData
    (blind_cons blind_F19_Realm
    (blind_cons blind_F23_Reboot
    (blind_cons blind_F21_Repo_F21_RepoData
    (blind_cons blind_F23_ReqPart
    (blind_cons blind_F10_Rescue
    (blind_cons blind_F18_RootPw
    (blind_cons blind_FC3_SELinux
    (blind_cons blind_FC6_Services
    (blind_cons blind_F23_Reboot
    (blind_cons blind_FC3_SkipX
    (blind_cons blind_F13_SshPw_F13_SshPwData
    (blind_cons blind_F22_SshKey_F22_SshKeyData
    (blind_cons blind_FC3_DisplayMode
    (blind_cons blind_F23_Timezone
    (blind_cons blind_F7_Updates
    (blind_cons blind_F20_Upgrade
    (blind_cons blind_F18_Url
    (blind_cons blind_F19_User_F19_UserData
    (blind_cons blind_F9_Vnc
    (blind_cons blind_F21_VolGroup_F21_VolGroupData
    (blind_cons blind_F14_XConfig
    (blind_cons blind_F9_ZeroMbr
    (blind_cons blind_F14_ZFCP_F14_ZFCPData (List.forall_mem_nil _))))))))))))))))))))))))))))))))))))))))))))))))))))))))))))))))

theorem commandMapF24_blind : ∀ x ∈ commandMapF24, Command.Blind x.2 := by
  unfold commandMapF24
  exact (blind_cons blind_FC3_Authconfig
    (blind_cons blind_FC3_Authconfig
    (blind_cons blind_F23_AutoPart
    (blind_cons blind_FC3_AutoStep
    (blind_cons blind_F21_Bootloader
    (blind_cons blind_F23_BTRFS_F23_BTRFSData
    (blind_cons blind_FC3_Cdrom
    (blind_cons blind_F21_ClearPart
    (blind_cons blind_FC3_DisplayMode
    (blind_cons blind_F24_Device
    (blind_cons blind_FC3_DeviceProbe
    (blind_cons blind_F24_DmRaid
    (blind_cons blind_F14_DriverDisk_F14_DriverDiskData
    (blind_cons blind_F20_Eula
    (blind_cons blind_F13_Fcoe_F13_FcoeData
    (blind_cons blind_F20_Firewall
    (blind_cons blind_FC3_Firstboot
    (blind_cons blind_FC3_DisplayMode
    (blind_cons blind_F12_Group_F12_GroupData
    (blind_cons blind_F23_Reboot
    (blind_cons blind_FC3_HardDrive
    (blind_cons blind_F14_IgnoreDisk
    (blind_cons blind_F20_Install
    (blind_cons blind_F17_Iscsi_F17_IscsiData
    (blind_cons blind_FC6_IscsiName
    (blind_cons blind_F18_Keyboard
    (blind_cons blind_F19_Lang
    (blind_cons blind_F19_Liveimg
    (blind_cons blind_FC6_Logging
    (blind_cons blind_F23_LogVol_F23_LogVolData
    (blind_cons blind_FC4_MediaCheck
    (blind_cons blind_F19_Method
    (blind_cons blind_F24_MultiPath
    (blind_cons blind_F24_Network_F22_NetworkData
    (blind_cons blind_FC6_NFS
    (blind_cons blind_F21_OSTreeSetup
    (blind_cons blind_F23_Partition_F23_PartData
    (blind_cons blind_F23_Partition_F23_PartData
    (blind_cons blind_F23_Reboot
    (blind_cons blind_F23_Raid_F23_RaidData
    (blind_cons blind_F19_Realm
    (blind_cons blind_F23_Reboot
    (blind_cons blind_F21_Repo_F21_RepoData
    (blind_cons blind_F23_ReqPart
    (blind_cons blind_F10_Rescue
    (blind_cons blind_F18_RootPw
    (blind_cons blind_FC3_SELinux
    (blind_cons blind_FC6_Services
    (blind_cons blind_F23_Reboot
    (blind_cons blind_FC3_SkipX
    (blind_cons blind_F24_SshPw_F24_SshPwData
    (blind_cons blind_F22_SshKey_F22_SshKeyData
    (blind_cons blind_FC3_DisplayMode
    (blind_cons blind_F23_Timezone
    (blind_cons blind_F7_Updates
    (blind_cons blind_F20_Upgrade
    (blind_cons blind_F18_Url
    (blind_cons blind_F24_User_F19_UserData
    (blind_cons blind_F9_Vnc
    (blind_cons blind_F21_VolGroup_F21_VolGroupData
    (blind_cons blind_F14_XConfig
    (blind_cons blind_F9_ZeroMbr
    (blind_cons blind_F14_ZFCP_F14_ZFCPData (List.forall_mem_nil _))))))))))))))))))))))))))))))))))))))))))))))))))))))))))))))))

theorem commandMapF25_blind : ∀ x ∈ commandMapF25, Command.Blind x.2 := by
  unfold commandMapF25
  exact (blind_cons blind_FC3_Authconfig
    (blind_cons blind_FC3_Authconfig
    (blind_cons blind_F23_AutoPart
    (blind_cons blind_FC3_AutoStep
    (blind_cons blind_F21_Bootloader
    (blind_cons blind_F23_BTRFS_F23_BTRFSData
    (blind_cons blind_FC3_Cdrom
    (blind_cons blind_F21_ClearPart
    (blind_cons blind_FC3_DisplayMode
    (blind_cons blind_F24_Device
    (blind_cons blind_FC3_DeviceProbe
    (blind_cons blind_F24_DmRaid
    (blind_cons blind_F14_DriverDisk_F14_DriverDiskData
    (blind_cons blind_F20_Eula
    (blind_cons blind_F13_Fcoe_F13_FcoeData
    (blind_cons blind_F20_Firewall
    (blind_cons blind_FC3_Firstboot
    (blind_cons blind_FC3_DisplayMode
    (blind_cons blind_F12_Group_F12_GroupData
    (blind_cons blind_F23_Reboot
    (blind_cons blind_FC3_HardDrive
    (blind_cons blind_F14_IgnoreDisk
    (blind_cons blind_F20_Install
    (blind_cons blind_F17_Iscsi_F17_IscsiData
    (blind_cons blind_FC6_IscsiName
    (blind_cons blind_F18_Keyboard
    (blind_cons blind_F19_Lang
    (blind_cons blind_F19_Liveimg
    (blind_cons blind_FC6_Logging
    (blind_cons blind_F23_LogVol_F23_LogVolData
    (blind_cons blind_FC4_MediaCheck
    (blind_cons blind_F19_Method
    (blind_cons blind_F24_MultiPath
    (blind_cons blind_F25_Network_F25_NetworkData
    (blind_cons blind_FC6_NFS
    (blind_cons blind_F21_OSTreeSetup
    (blind_cons blind_F23_Partition_F23_PartData
    (blind_cons blind_F23_Partition_F23_PartData
    (blind_cons blind_F23_Reboot
    (blind_cons blind_F25_Raid_F25_RaidData
    (blind_cons blind_F19_Realm
    (blind_cons blind_F23_Reboot
    (blind_cons blind_F21_Repo_F21_RepoData
    (blind_cons blind_F23_ReqPart
    (blind_cons blind_F10_Rescue
    (blind_cons blind_F18_RootPw
    (blind_cons blind_FC3_SELinux
    (blind_cons blind_FC6_Services
    (blind_cons blind_F23_Reboot
    (blind_cons blind_FC3_SkipX
    (blind_cons blind_F24_SshPw_F24_SshPwData
    (blind_cons blind_F22_SshKey_F22_SshKeyData
    (blind_cons blind_FC3_DisplayMode
    (blind_cons blind_F25_Timezone
    (blind_cons blind_F7_Updates
    (blind_cons blind_F20_Upgrade
    (blind_cons blind_F18_Url
    (blind_cons blind_F24_User_F19_UserData
    (blind_cons blind_F9_Vnc
    (blind_cons blind_F21_VolGroup_F21_VolGroupData
    (blind_cons blind_F14_XConfig
    (blind_cons blind_F9_ZeroMbr
    (blind_cons blind_F14_ZFCP_F14_ZFCPData (List.forall_mem_nil _))))))))))))))))))))))))))))))))))))))))))))))))))))))))))))))))

theorem commandMapF26_blind : ∀ x ∈ commandMapF26, Command.Blind x.2 := by
  unfold commandMapF26
  exact (blind_cons blind_FC3_Authconfig
    (blind_cons blind_FC3_Authconfig
    (blind_cons blind_F26_AutoPart
    (blind_cons blind_FC3_AutoStep
    (blind_cons blind_F21_Bootloader
    (blind_cons blind_F23_BTRFS_F23_BTRFSData
    (blind_cons blind_FC3_Cdrom
    (blind_cons blind_F21_ClearPart
    (blind_cons blind_F26_DisplayMode
    (blind_cons blind_F24_Device
    (blind_cons blind_FC3_DeviceProbe
    (blind_cons blind_F24_DmRaid
    (blind_cons blind_F14_DriverDisk_F14_DriverDiskData
    (blind_cons blind_F20_Eula
    (blind_cons blind_F13_Fcoe_F13_FcoeData
    (blind_cons blind_F20_Firewall
    (blind_cons blind_FC3_Firstboot
    (blind_cons blind_F26_DisplayMode
    (blind_cons blind_F12_Group_F12_GroupData
    (blind_cons blind_F23_Reboot
    (blind_cons blind_FC3_HardDrive
    (blind_cons blind_F14_IgnoreDisk
    (blind_cons blind_F20_Install
    (blind_cons blind_F17_Iscsi_F17_IscsiData
    (blind_cons blind_FC6_IscsiName
    (blind_cons blind_F18_Keyboard
    (blind_cons blind_F19_Lang
    (blind_cons blind_F19_Liveimg
    (blind_cons blind_FC6_Logging
    (blind_cons blind_F23_LogVol_F23_LogVolData
    (blind_cons blind_FC4_MediaCheck
    (blind_cons blind_F19_Method
    (blind_cons blind_F24_MultiPath
    (blind_cons blind_F25_Network_F25_NetworkData
    (blind_cons blind_FC6_NFS
    (blind_cons blind_F21_OSTreeSetup
    (blind_cons blind_F23_Partition_F23_PartData
    (blind_cons blind_F23_Partition_F23_PartData
    (blind_cons blind_F23_Reboot
    (blind_cons blind_F25_Raid_F25_RaidData
    (blind_cons blind_F19_Realm
    (blind_cons blind_F23_Reboot
    (blind_cons blind_F21_Repo_F21_RepoData
    (blind_cons blind_F23_ReqPart
    (blind_cons blind_F10_Rescue
    (blind_cons blind_F18_RootPw
    (blind_cons blind_FC3_SELinux
    (blind_cons blind_FC6_Services
    (blind_cons blind_F23_Reboot
    (blind_cons blind_FC3_SkipX
    (blind_cons blind_F26_Snapshot_F26_SnapshotData
    (blind_cons blind_F24_SshPw_F24_SshPwData
    (blind_cons blind_F22_SshKey_F22_SshKeyData
    (blind_cons blind_F26_DisplayMode
    (blind_cons blind_F25_Timezone
    (blind_cons blind_F7_Updates
    (blind_cons blind_F20_Upgrade
    (blind_cons blind_F18_Url
    (blind_cons blind_F24_User_F19_UserData
    (blind_cons blind_F9_Vnc
    (blind_cons blind_F21_VolGroup_F21_VolGroupData
    (blind_cons blind_F14_XConfig
    (blind_cons blind_F9_ZeroMbr
    (blind_cons blind_F14_ZFCP_F14_ZFCPData (List.forall_mem_nil _)))))))))))))))))))))))))))))))))))))))))))))))))))))))))))))))))

theorem commandMapF27_blind : ∀ x ∈ commandMapF27, Command.Blind x.2 := by
  unfold commandMapF27
  exact (blind_cons blind_FC3_Authconfig
    (blind_cons blind_FC3_Authconfig
    (blind_cons blind_F26_AutoPart
    (blind_cons blind_FC3_AutoStep
    (blind_cons blind_F21_Bootloader
    (blind_cons blind_F23_BTRFS_F23_BTRFSData
    (blind_cons blind_FC3_Cdrom
    (blind_cons blind_F21_ClearPart
    (blind_cons blind_F26_DisplayMode
    (blind_cons blind_F24_Device
    (blind_cons blind_FC3_DeviceProbe
    (blind_cons blind_F24_DmRaid
    (blind_cons blind_F14_DriverDisk_F14_DriverDiskData
    (blind_cons blind_F20_Eula
    (blind_cons blind_F13_Fcoe_F13_FcoeData
    (blind_cons blind_F20_Firewall
    (blind_cons blind_FC3_Firstboot
    (blind_cons blind_F26_DisplayMode
    (blind_cons blind_F12_Group_F12_GroupData
    (blind_cons blind_F23_Reboot
    (blind_cons blind_FC3_HardDrive
    (blind_cons blind_F14_IgnoreDisk
    (blind_cons blind_F20_Install
    (blind_cons blind_F17_Iscsi_F17_IscsiData
    (blind_cons blind_FC6_IscsiName
    (blind_cons blind_F18_Keyboard
    (blind_cons blind_F19_Lang
    (blind_cons blind_F19_Liveimg
    (blind_cons blind_FC6_Logging
    (blind_cons blind_F23_LogVol_F23_LogVolData
    (blind_cons blind_FC4_MediaCheck
    (blind_cons blind_F19_Method
    (blind_cons blind_F27_Mount_F27_MountData
    (blind_cons blind_F24_MultiPath
    (blind_cons blind_F27_Network_F27_NetworkData
    (blind_cons blind_FC6_NFS
    (blind_cons blind_F21_OSTreeSetup
    (blind_cons blind_F23_Partition_F23_PartData
    (blind_cons blind_F23_Partition_F23_PartData
    (blind_cons blind_F23_Reboot
    (blind_cons blind_F25_Raid_F25_RaidData
    (blind_cons blind_F19_Realm
    (blind_cons blind_F23_Reboot
    (blind_cons blind_F27_Repo_F27_RepoData
    (blind_cons blind_F23_ReqPart
    (blind_cons blind_F10_Rescue
    (blind_cons blind_F18_RootPw
    (blind_cons blind_FC3_SELinux
    (blind_cons blind_FC6_Services
    (blind_cons blind_F23_Reboot
    (blind_cons blind_FC3_SkipX
    (blind_cons blind_F26_Snapshot_F26_SnapshotData
    (blind_cons blind_F24_SshPw_F24_SshPwData
    (blind_cons blind_F22_SshKey_F22_SshKeyData
    (blind_cons blind_F26_DisplayMode
    (blind_cons blind_F25_Timezone
    (blind_cons blind_F7_Updates
    (blind_cons blind_F20_Upgrade
    (blind_cons blind_F27_Url
    (blind_cons blind_F24_User_F19_UserData
    (blind_cons blind_F9_Vnc
    (blind_cons blind_F21_VolGroup_F21_VolGroupData
    (blind_cons blind_F14_XConfig
    (blind_cons blind_F9_ZeroMbr
    (blind_cons blind_F14_ZFCP_F14_ZFCPData (List.forall_mem_nil _))))))))))))))))))))))))))))))))))))))))))))))))))))))))))))))))))

theorem commandMapF28_blind : ∀ x ∈ commandMapF28, Command.Blind x.2 := by
  unfold commandMapF28
  exact (blind_cons blind_F28_Authconfig
    (blind_cons blind_F28_Authconfig
    (blind_cons blind_F28_Authselect
    (blind_cons blind_F26_AutoPart
    (blind_cons blind_FC3_AutoStep
    (blind_cons blind_F21_Bootloader
    (blind_cons blind_F23_BTRFS_F23_BTRFSData
    (blind_cons blind_FC3_Cdrom
    (blind_cons blind_F28_ClearPart
    (blind_cons blind_F26_DisplayMode
    (blind_cons blind_F24_Device
    (blind_cons blind_FC3_DeviceProbe
    (blind_cons blind_F24_DmRaid
    (blind_cons blind_F14_DriverDisk_F14_DriverDiskData
    (blind_cons blind_F20_Eula
    (blind_cons blind_F28_Fcoe_F28_FcoeData
    (blind_cons blind_F28_Firewall
    (blind_cons blind_FC3_Firstboot
    (blind_cons blind_F26_DisplayMode
    (blind_cons blind_F12_Group_F12_GroupData
    (blind_cons blind_F23_Reboot
    (blind_cons blind_FC3_HardDrive
    (blind_cons blind_F28_Hmc
    (blind_cons blind_F14_IgnoreDisk
    (blind_cons blind_F20_Install
    (blind_cons blind_F17_Iscsi_F17_IscsiData
    (blind_cons blind_FC6_IscsiName
    (blind_cons blind_F18_Keyboard
    (blind_cons blind_F19_Lang
    (blind_cons blind_F19_Liveimg
    (blind_cons blind_FC6_Logging
    (blind_cons blind_F23_LogVol_F23_LogVolData
    (blind_cons blind_FC4_MediaCheck
    (blind_cons blind_F28_Method
    (blind_cons blind_F27_Mount_F27_MountData
    (blind_cons blind_F24_MultiPath
    (blind_cons blind_F27_Network_F27_NetworkData
    (blind_cons blind_FC6_NFS
    (blind_cons blind_F28_Nvdimm_F28_NvdimmData
    (blind_cons blind_F21_OSTreeSetup
    (blind_cons blind_F23_Partition_F23_PartData
    (blind_cons blind_F23_Partition_F23_PartData
    (blind_cons blind_F23_Reboot
    (blind_cons blind_F25_Raid_F25_RaidData
    (blind_cons blind_F19_Realm
    (blind_cons blind_F23_Reboot
    (blind_cons blind_F27_Repo_F27_RepoData
    (blind_cons blind_F23_ReqPart
    (blind_cons blind_F10_Rescue
    (blind_cons blind_F18_RootPw
    (blind_cons blind_FC3_SELinux
    (blind_cons blind_FC6_Services
    (blind_cons blind_F23_Reboot
    (blind_cons blind_FC3_SkipX
    (blind_cons blind_F26_Snapshot_F26_SnapshotData
    (blind_cons blind_F24_SshPw_F24_SshPwData
    (blind_cons blind_F22_SshKey_F22_SshKeyData
    (blind_cons blind_F26_DisplayMode
    (blind_cons blind_F25_Timezone
    (blind_cons blind_F7_Updates
    (blind_cons blind_F20_Upgrade
    (blind_cons blind_F27_Url
    (blind_cons blind_F24_User_F19_UserData
    (blind_cons blind_F9_Vnc
    (blind_cons blind_F21_VolGroup_F21_VolGroupData
    (blind_cons blind_F14_XConfig
    (blind_cons blind_F9_ZeroMbr
    (blind_cons blind_F14_ZFCP_F14_ZFCPData (List.forall_mem_nil _)))))))))))))))))))))))))))))))))))))))))))))))))))))))))))))))))))))

theorem commandMapF29_blind : ∀ x ∈ commandMapF29, Command.Blind x.2 := by
  unfold commandMapF29
  exact (blind_cons blind_F28_Authconfig
    (blind_cons blind_F28_Authconfig
    (blind_cons blind_F28_Authselect
    (blind_cons blind_F29_AutoPart
    (blind_cons blind_FC3_AutoStep
    (blind_cons blind_F29_Bootloader
    (blind_cons blind_F23_BTRFS_F23_BTRFSData
    (blind_cons blind_FC3_Cdrom
    (blind_cons blind_F28_ClearPart
    (blind_cons blind_F26_DisplayMode
    (blind_cons blind_F24_Device
    (blind_cons blind_F29_DeviceProbe
    (blind_cons blind_F24_DmRaid
    (blind_cons blind_F14_DriverDisk_F14_DriverDiskData
    (blind_cons blind_F29_Module_F29_ModuleData
    (blind_cons blind_F20_Eula
    (blind_cons blind_F28_Fcoe_F28_FcoeData
    (blind_cons blind_F28_Firewall
    (blind_cons blind_FC3_Firstboot
    (blind_cons blind_F26_DisplayMode
    (blind_cons blind_F12_Group_F12_GroupData
    (blind_cons blind_F23_Reboot
    (blind_cons blind_FC3_HardDrive
    (blind_cons blind_F28_Hmc
    (blind_cons blind_F29_IgnoreDisk
    (blind_cons blind_F29_Install
    (blind_cons blind_F17_Iscsi_F17_IscsiData
    (blind_cons blind_FC6_IscsiName
    (blind_cons blind_F18_Keyboard
    (blind_cons blind_F19_Lang
    (blind_cons blind_F19_Liveimg
    (blind_cons blind_FC6_Logging
    (blind_cons blind_F29_LogVol_F29_LogVolData
    (blind_cons blind_FC4_MediaCheck
    (blind_cons blind_F28_Method
    (blind_cons blind_F27_Mount_F27_MountData
    (blind_cons blind_F24_MultiPath
    (blind_cons blind_F27_Network_F27_NetworkData
    (blind_cons blind_FC6_NFS
    (blind_cons blind_F28_Nvdimm_F28_NvdimmData
    (blind_cons blind_F21_OSTreeSetup
    (blind_cons blind_F29_Partition_F29_PartData
    (blind_cons blind_F29_Partition_F29_PartData
    (blind_cons blind_F23_Reboot
    (blind_cons blind_F29_Raid_F29_RaidData
    (blind_cons blind_F19_Realm
    (blind_cons blind_F23_Reboot
    (blind_cons blind_F27_Repo_F27_RepoData
    (blind_cons blind_F23_ReqPart
    (blind_cons blind_F10_Rescue
    (blind_cons blind_F18_RootPw
    (blind_cons blind_FC3_SELinux
    (blind_cons blind_FC6_Services
    (blind_cons blind_F23_Reboot
    (blind_cons blind_FC3_SkipX
    (blind_cons blind_F26_Snapshot_F26_SnapshotData
    (blind_cons blind_F24_SshPw_F24_SshPwData
    (blind_cons blind_F22_SshKey_F22_SshKeyData
    (blind_cons blind_F26_DisplayMode
    (blind_cons blind_F25_Timezone
    (blind_cons blind_F7_Updates
    (blind_cons blind_F29_Upgrade
    (blind_cons blind_F27_Url
    (blind_cons blind_F24_User_F19_UserData
    (blind_cons blind_F9_Vnc
    (blind_cons blind_F21_VolGroup_F21_VolGroupData
    (blind_cons blind_F14_XConfig
    (blind_cons blind_F9_ZeroMbr
    (blind_cons blind_F14_ZFCP_F14_ZFCPData (List.forall_mem_nil _))))))))))))))))))))))))))))))))))))))))))))))))))))))))))))))))))))))

theorem commandMapF30_blind : ∀ x ∈ commandMapF30, Command.Blind x.2 := by
  unfold commandMapF30
  exact (blind_cons blind_F28_Authconfig
    (blind_cons blind_F28_Authconfig
    (blind_cons blind_F28_Authselect
    (blind_cons blind_F29_AutoPart
    (blind_cons blind_FC3_AutoStep
    (blind_cons blind_F29_Bootloader
    (blind_cons blind_F23_BTRFS_F23_BTRFSData
    (blind_cons blind_FC3_Cdrom
    (blind_cons blind_F28_ClearPart
    (blind_cons blind_F26_DisplayMode
    (blind_cons blind_F24_Device
    (blind_cons blind_F29_DeviceProbe
    (blind_cons blind_F24_DmRaid
    (blind_cons blind_F14_DriverDisk_F14_DriverDiskData
    (blind_cons blind_F29_Module_F29_ModuleData
    (blind_cons blind_F20_Eula
    (blind_cons blind_F28_Fcoe_F28_FcoeData
    (blind_cons blind_F28_Firewall
    (blind_cons blind_FC3_Firstboot
    (blind_cons blind_F26_DisplayMode
    (blind_cons blind_F12_Group_F12_GroupData
    (blind_cons blind_F23_Reboot
    (blind_cons blind_FC3_HardDrive
    (blind_cons blind_F28_Hmc
    (blind_cons blind_F29_IgnoreDisk
    (blind_cons blind_F29_Install
    (blind_cons blind_F17_Iscsi_F17_IscsiData
    (blind_cons blind_FC6_IscsiName
    (blind_cons blind_F18_Keyboard
    (blind_cons blind_F19_Lang
    (blind_cons blind_F19_Liveimg
    (blind_cons blind_FC6_Logging
    (blind_cons blind_F29_LogVol_F29_LogVolData
    (blind_cons blind_FC4_MediaCheck
    (blind_cons blind_F28_Method
    (blind_cons blind_F27_Mount_F27_MountData
    (blind_cons blind_F24_MultiPath
    (blind_cons blind_F27_Network_F27_NetworkData
    (blind_cons blind_FC6_NFS
    (blind_cons blind_F28_Nvdimm_F28_NvdimmData
    (blind_cons blind_F21_OSTreeSetup
    (blind_cons blind_F29_Partition_F29_PartData
    (blind_cons blind_F29_Partition_F29_PartData
    (blind_cons blind_F23_Reboot
    (blind_cons blind_F29_Raid_F29_RaidData
    (blind_cons blind_F19_Realm
    (blind_cons blind_F23_Reboot
    (blind_cons blind_F30_Repo_F30_RepoData
    (blind_cons blind_F23_ReqPart
    (blind_cons blind_F10_Rescue
    (blind_cons blind_F18_RootPw
    (blind_cons blind_FC3_SELinux
    (blind_cons blind_FC6_Services
    (blind_cons blind_F23_Reboot
    (blind_cons blind_FC3_SkipX
    (blind_cons blind_F26_Snapshot_F26_SnapshotData
    (blind_cons blind_F24_SshPw_F24_SshPwData
    (blind_cons blind_F22_SshKey_F22_SshKeyData
    (blind_cons blind_F26_DisplayMode
    (blind_cons blind_F25_Timezone
    (blind_cons blind_F7_Updates
    (blind_cons blind_F30_Url
    (blind_cons blind_F24_User_F19_UserData
    (blind_cons blind_F9_Vnc
    (blind_cons blind_F21_VolGroup_F21_VolGroupData
    (blind_cons blind_F14_XConfig
    (blind_cons blind_F9_ZeroMbr
    (blind_cons blind_F14_ZFCP_F14_ZFCPData (List.forall_mem_nil _)))))))))))))))))))))))))))))))))))))))))))))))))))))))))))))))))))))

theorem commandMapF31_blind : ∀ x ∈ commandMapF31, Command.Blind x.2 := by
  unfold commandMapF31
  exact (blind_cons blind_F28_Authconfig
    (blind_cons blind_F28_Authconfig
    (blind_cons blind_F28_Authselect
    (blind_cons blind_F29_AutoPart
    (blind_cons blind_FC3_AutoStep
    (blind_cons blind_F29_Bootloader
    (blind_cons blind_F23_BTRFS_F23_BTRFSData
    (blind_cons blind_FC3_Cdrom
    (blind_cons blind_F28_ClearPart
    (blind_cons blind_F26_DisplayMode
    (blind_cons blind_F24_Device
    (blind_cons blind_F29_DeviceProbe
    (blind_cons blind_F24_DmRaid
    (blind_cons blind_F14_DriverDisk_F14_DriverDiskData
    (blind_cons blind_F31_Module_F31_ModuleData
    (blind_cons blind_F20_Eula
    (blind_cons blind_F28_Fcoe_F28_FcoeData
    (blind_cons blind_F28_Firewall
    (blind_cons blind_FC3_Firstboot
    (blind_cons blind_F26_DisplayMode
    (blind_cons blind_F12_Group_F12_GroupData
    (blind_cons blind_F23_Reboot
    (blind_cons blind_FC3_HardDrive
    (blind_cons blind_F28_Hmc
    (blind_cons blind_F29_IgnoreDisk
    (blind_cons blind_F29_Install
    (blind_cons blind_F17_Iscsi_F17_IscsiData
    (blind_cons blind_FC6_IscsiName
    (blind_cons blind_F18_Keyboard
    (blind_cons blind_F19_Lang
    (blind_cons blind_F19_Liveimg
    (blind_cons blind_FC6_Logging
    (blind_cons blind_F29_LogVol_F29_LogVolData
    (blind_cons blind_FC4_MediaCheck
    (blind_cons blind_F28_Method
    (blind_cons blind_F27_Mount_F27_MountData
    (blind_cons blind_F24_MultiPath
    (blind_cons blind_F27_Network_F27_NetworkData
    (blind_cons blind_FC6_NFS
    (blind_cons blind_F28_Nvdimm_F28_NvdimmData
    (blind_cons blind_F21_OSTreeSetup
    (blind_cons blind_F29_Partition_F29_PartData
    (blind_cons blind_F29_Partition_F29_PartData
    (blind_cons blind_F23_Reboot
    (blind_cons blind_F29_Raid_F29_RaidData
    (blind_cons blind_F19_Realm
    (blind_cons blind_F23_Reboot
    (blind_cons blind_F30_Repo_F30_RepoData
    (blind_cons blind_F23_ReqPart
    (blind_cons blind_F10_Rescue
    (blind_cons blind_F18_RootPw
    (blind_cons blind_FC3_SELinux
    (blind_cons blind_FC6_Services
    (blind_cons blind_F23_Reboot
    (blind_cons blind_FC3_SkipX
    (blind_cons blind_F26_Snapshot_F26_SnapshotData
    (blind_cons blind_F24_SshPw_F24_SshPwData
    (blind_cons blind_F22_SshKey_F22_SshKeyData
    (blind_cons blind_F26_DisplayMode
    (blind_cons blind_F25_Timezone
    (blind_cons blind_F7_Updates
    (blind_cons blind_F30_Url
    (blind_cons blind_F24_User_F19_UserData
    (blind_cons blind_F9_Vnc
    (blind_cons blind_F21_VolGroup_F21_VolGroupData
    (blind_cons blind_F14_XConfig
    (blind_cons blind_F9_ZeroMbr
    (blind_cons blind_F14_ZFCP_F14_ZFCPData (List.forall_mem_nil _)))))))))))))))))))))))))))))))))))))))))))))))))))))))))))))))))))))

theorem commandMapF32_blind : ∀ x ∈ commandMapF32, Command.Blind x.2 := by
  unfold commandMapF32
  exact (blind_cons blind_F28_Authconfig
    (blind_cons blind_F28_Authconfig
    (blind_cons blind_F28_Authselect
    (blind_cons blind_F29_AutoPart
    (blind_cons blind_FC3_AutoStep
    (blind_cons blind_F29_Bootloader
    (blind_cons blind_F23_BTRFS_F23_BTRFSData
    (blind_cons blind_FC3_Cdrom
    (blind_cons blind_F28_ClearPart
    (blind_cons blind_F26_DisplayMode
    (blind_cons blind_F24_Device
    (blind_cons blind_F29_DeviceProbe
    (blind_cons blind_F24_DmRaid
    (blind_cons blind_F14_DriverDisk_F14_DriverDiskData
    (blind_cons blind_F31_Module_F31_ModuleData
    (blind_cons blind_F20_Eula
    (blind_cons blind_F28_Fcoe_F28_FcoeData
    (blind_cons blind_F28_Firewall
    (blind_cons blind_FC3_Firstboot
    (blind_cons blind_F26_DisplayMode
    (blind_cons blind_F12_Group_F12_GroupData
    (blind_cons blind_F23_Reboot
    (blind_cons blind_FC3_HardDrive
    (blind_cons blind_F28_Hmc
    (blind_cons blind_F29_IgnoreDisk
    (blind_cons blind_F29_Install
    (blind_cons blind_F17_Iscsi_F17_IscsiData
    (blind_cons blind_FC6_IscsiName
    (blind_cons blind_F18_Keyboard
    (blind_cons blind_F19_Lang
    (blind_cons blind_F19_Liveimg
    (blind_cons blind_FC6_Logging
    (blind_cons blind_F29_LogVol_F29_LogVolData
    (blind_cons blind_FC4_MediaCheck
    (blind_cons blind_F28_Method
    (blind_cons blind_F27_Mount_F27_MountData
    (blind_cons blind_F24_MultiPath
    (blind_cons blind_F27_Network_F27_NetworkData
    (blind_cons blind_FC6_NFS
    (blind_cons blind_F28_Nvdimm_F28_NvdimmData
    (blind_cons blind_F21_OSTreeSetup
    (blind_cons blind_F29_Partition_F29_PartData
    (blind_cons blind_F29_Partition_F29_PartData
    (blind_cons blind_F23_Reboot
    (blind_cons blind_F29_Raid_F29_RaidData
    (blind_cons blind_F19_Realm
    (blind_cons blind_F23_Reboot
    (blind_cons blind_F30_Repo_F30_RepoData
    (blind_cons blind_F23_ReqPart
    (blind_cons blind_F10_Rescue
    (blind_cons blind_F18_RootPw
    (blind_cons blind_FC3_SELinux
    (blind_cons blind_FC6_Services
    (blind_cons blind_F23_Reboot
    (blind_cons blind_FC3_SkipX
    (blind_cons blind_F26_Snapshot_F26_SnapshotData
    (blind_cons blind_F24_SshPw_F24_SshPwData
    (blind_cons blind_F22_SshKey_F22_SshKeyData
    (blind_cons blind_F26_DisplayMode
    (blind_cons blind_F32_Timezone
    (blind_cons blind_F7_Updates
    (blind_cons blind_F30_Url
    (blind_cons blind_F24_User_F19_UserData
    (blind_cons blind_F9_Vnc
    (blind_cons blind_F21_VolGroup_F21_VolGroupData
    (blind_cons blind_F14_XConfig
    (blind_cons blind_F9_ZeroMbr
    (blind_cons blind_F14_ZFCP_F14_ZFCPData
    (blind_cons blind_F32_Zipl (List.forall_mem_nil _))))))))))))))))))))))))))))))))))))))))))))))))))))))))))))))))))))))

theorem commandMapF33_blind : ∀ x ∈ commandMapF33, Command.Blind x.2 := by
  unfold commandMapF33
  exact (blind_cons blind_F28_Authconfig
    (blind_cons blind_F28_Authconfig
    (blind_cons blind_F28_Authselect
    (blind_cons blind_F29_AutoPart
    (blind_cons blind_FC3_AutoStep
    (blind_cons blind_F29_Bootloader
    (blind_cons blind_F23_BTRFS_F23_BTRFSData
    (blind_cons blind_FC3_Cdrom
    (blind_cons blind_F28_ClearPart
    (blind_cons blind_F26_DisplayMode
    (blind_cons blind_F24_Device
    (blind_cons blind_F29_DeviceProbe
    (blind_cons blind_F24_DmRaid
    (blind_cons blind_F14_DriverDisk_F14_DriverDiskData
    (blind_cons blind_F31_Module_F31_ModuleData
    (blind_cons blind_F20_Eula
    (blind_cons blind_F28_Fcoe_F28_FcoeData
    (blind_cons blind_F28_Firewall
    (blind_cons blind_FC3_Firstboot
    (blind_cons blind_F26_DisplayMode
    (blind_cons blind_F12_Group_F12_GroupData
    (blind_cons blind_F23_Reboot
    (blind_cons blind_F33_HardDrive
    (blind_cons blind_F28_Hmc
    (blind_cons blind_F29_IgnoreDisk
    (blind_cons blind_F29_Install
    (blind_cons blind_F17_Iscsi_F17_IscsiData
    (blind_cons blind_FC6_IscsiName
    (blind_cons blind_F18_Keyboard
    (blind_cons blind_F19_Lang
    (blind_cons blind_F19_Liveimg
    (blind_cons blind_FC6_Logging
    (blind_cons blind_F29_LogVol_F29_LogVolData
    (blind_cons blind_FC4_MediaCheck
    (blind_cons blind_F28_Method
    (blind_cons blind_F27_Mount_F27_MountData
    (blind_cons blind_F24_MultiPath
    (blind_cons blind_F27_Network_F27_NetworkData
    (blind_cons blind_FC6_NFS
    (blind_cons blind_F28_Nvdimm_F28_NvdimmData
    (blind_cons blind_F33_Timesource_F33_TimesourceData
    (blind_cons blind_F21_OSTreeSetup
    (blind_cons blind_F29_Partition_F29_PartData
    (blind_cons blind_F29_Partition_F29_PartData
    (blind_cons blind_F23_Reboot
    (blind_cons blind_F29_Raid_F29_RaidData
    (blind_cons blind_F19_Realm
    (blind_cons blind_F23_Reboot
    (blind_cons blind_F33_Repo_F30_RepoData
    (blind_cons blind_F23_ReqPart
    (blind_cons blind_F10_Rescue
    (blind_cons blind_F18_RootPw
    (blind_cons blind_FC3_SELinux
    (blind_cons blind_FC6_Services
    (blind_cons blind_F23_Reboot
    (blind_cons blind_FC3_SkipX
    (blind_cons blind_F26_Snapshot_F26_SnapshotData
    (blind_cons blind_F24_SshPw_F24_SshPwData
    (blind_cons blind_F22_SshKey_F22_SshKeyData
    (blind_cons blind_F26_DisplayMode
    (blind_cons blind_F33_Timezone
    (blind_cons blind_F7_Updates
    (blind_cons blind_F30_Url
    (blind_cons blind_F24_User_F19_UserData
    (blind_cons blind_F9_Vnc
    (blind_cons blind_F21_VolGroup_F21_VolGroupData
    (blind_cons blind_F14_XConfig
    (blind_cons blind_F9_ZeroMbr
    (blind_cons blind_F14_ZFCP_F14_ZFCPData
    (blind_cons blind_F32_Zipl (List.forall_mem_nil _)))))))))))))))))))))))))))))))))))))))))))))))))))))))))))))))))))))))

theorem commandMapF34_blind : ∀ x ∈ commandMapF34, Command.Blind x.2 := by
  unfold commandMapF34
  exact (blind_cons blind_F28_Authconfig
    (blind_cons blind_F28_Authconfig
    (blind_cons blind_F28_Authselect
    (blind_cons blind_F29_AutoPart
    (blind_cons blind_F34_AutoStep
    (blind_cons blind_F34_Bootloader
    (blind_cons blind_F23_BTRFS_F23_BTRFSData
    (blind_cons blind_FC3_Cdrom
    (blind_cons blind_F28_ClearPart
    (blind_cons blind_F26_DisplayMode
    (blind_cons blind_F34_Device
    (blind_cons blind_F34_DeviceProbe
    (blind_cons blind_F34_DmRaid
    (blind_cons blind_F14_DriverDisk_F14_DriverDiskData
    (blind_cons blind_F31_Module_F31_ModuleData
    (blind_cons blind_F20_Eula
    (blind_cons blind_F28_Fcoe_F28_FcoeData
    (blind_cons blind_F28_Firewall
    (blind_cons blind_FC3_Firstboot
    (blind_cons blind_F26_DisplayMode
    (blind_cons blind_F12_Group_F12_GroupData
    (blind_cons blind_F23_Reboot
    (blind_cons blind_F33_HardDrive
    (blind_cons blind_F28_Hmc
    (blind_cons blind_F34_IgnoreDisk
    (blind_cons blind_F34_Install
    (blind_cons blind_F17_Iscsi_F17_IscsiData
    (blind_cons blind_FC6_IscsiName
    (blind_cons blind_F18_Keyboard
    (blind_cons blind_F19_Lang
    (blind_cons blind_F19_Liveimg
    (blind_cons blind_F34_Logging
    (blind_cons blind_F29_LogVol_F29_LogVolData
    (blind_cons blind_FC4_MediaCheck
    (blind_cons blind_F34_Method
    (blind_cons blind_F27_Mount_F27_MountData
    (blind_cons blind_F34_MultiPath
    (blind_cons blind_F27_Network_F27_NetworkData
    (blind_cons blind_FC6_NFS
    (blind_cons blind_F28_Nvdimm_F28_NvdimmData
    (blind_cons blind_F33_Timesource_F33_TimesourceData
    (blind_cons blind_F21_OSTreeSetup
    (blind_cons blind_F34_Partition_F29_PartData
    (blind_cons blind_F34_Partition_F29_PartData
    (blind_cons blind_F23_Reboot
    (blind_cons blind_F29_Raid_F29_RaidData
    (blind_cons blind_F19_Realm
    (blind_cons blind_F23_Reboot
    (blind_cons blind_F33_Repo_F30_RepoData
    (blind_cons blind_F23_ReqPart
    (blind_cons blind_F10_Rescue
    (blind_cons blind_F18_RootPw
    (blind_cons blind_FC3_SELinux
    (blind_cons blind_FC6_Services
    (blind_cons blind_F23_Reboot
    (blind_cons blind_FC3_SkipX
    (blind_cons blind_F26_Snapshot_F26_SnapshotData
    (blind_cons blind_F24_SshPw_F24_SshPwData
    (blind_cons blind_F22_SshKey_F22_SshKeyData
    (blind_cons blind_F26_DisplayMode
    (blind_cons blind_F33_Timezone
    (blind_cons blind_F34_Updates
    (blind_cons blind_F30_Url
    (blind_cons blind_F24_User_F19_UserData
    (blind_cons blind_F9_Vnc
    (blind_cons blind_F21_VolGroup_F21_VolGroupData
    (blind_cons blind_F14_XConfig
    (blind_cons blind_F9_ZeroMbr
    (blind_cons blind_F14_ZFCP_F14_ZFCPData
    (blind_cons blind_F32_Zipl (List.forall_mem_nil _)))))))))))))))))))))))))))))))))))))))))))))))))))))))))))))))))))))))

theorem commandMapF7_blind : ∀ x ∈ commandMapF7, Command.Blind x.2 := by
  unfold commandMapF7
  exact (blind_cons blind_FC3_Authconfig
    (blind_cons blind_FC3_Authconfig
    (blind_cons blind_FC3_AutoPart
    (blind_cons blind_FC3_AutoStep
    (blind_cons blind_FC4_Bootloader
    (blind_cons blind_FC3_Cdrom
    (blind_cons blind_FC3_ClearPart
    (blind_cons blind_FC3_DisplayMode
    (blind_cons blind_FC3_Device
    (blind_cons blind_FC3_DeviceProbe
    (blind_cons blind_FC6_DmRaid_FC6_DmRaidData
    (blind_cons blind_FC4_DriverDisk_FC4_DriverDiskData
    (blind_cons blind_FC3_Firewall
    (blind_cons blind_FC3_Firstboot
    (blind_cons blind_FC3_DisplayMode
    (blind_cons blind_FC6_Reboot
    (blind_cons blind_FC3_HardDrive
    (blind_cons blind_FC3_IgnoreDisk
    (blind_cons blind_FC3_Upgrade
    (blind_cons blind_FC3_Interactive
    (blind_cons blind_FC6_Iscsi_FC6_IscsiData
    (blind_cons blind_FC6_IscsiName
    (blind_cons blind_FC3_Keyboard
    (blind_cons blind_FC3_Lang
    (blind_cons blind_F7_LangSupport
    (blind_cons blind_FC6_Logging
    (blind_cons blind_FC4_LogVol_FC4_LogVolData
    (blind_cons blind_FC4_MediaCheck
    (blind_cons blind_FC6_Method
    (blind_cons blind_FC6_Monitor
    (blind_cons blind_F7_Mouse
    (blind_cons blind_FC6_MultiPath_FC6_MultiPathData
    (blind_cons blind_FC6_Network_FC6_NetworkData
    (blind_cons blind_FC6_NFS
    (blind_cons blind_FC4_Partition_FC4_PartData
    (blind_cons blind_FC4_Partition_FC4_PartData
    (blind_cons blind_FC6_Reboot
    (blind_cons blind_F7_Raid_F7_RaidData
    (blind_cons blind_FC6_Reboot
    (blind_cons blind_FC6_Repo_FC6_RepoData
    (blind_cons blind_FC3_RootPw
    (blind_cons blind_FC3_SELinux
    (blind_cons blind_FC6_Services
    (blind_cons blind_FC6_Reboot
    (blind_cons blind_FC3_SkipX
    (blind_cons blind_FC3_DisplayMode
    (blind_cons blind_FC6_Timezone
    (blind_cons blind_F7_Updates
    (blind_cons blind_FC3_Upgrade
    (blind_cons blind_FC3_Url
    (blind_cons blind_FC6_User_FC6_UserData
    (blind_cons blind_FC6_Vnc
    (blind_cons blind_FC3_VolGroup_FC3_VolGroupData
    (blind_cons blind_FC6_XConfig
    (blind_cons blind_FC3_ZeroMbr
    (blind_cons blind_FC3_ZFCP_FC3_ZFCPData (List.forall_mem_nil _)))))))))))))))))))))))))))))))))))))))))))))))))))))))))

theorem commandMapF8_blind : ∀ x ∈ commandMapF8, Command.Blind x.2 := by
  unfold commandMapF8
  exact (blind_cons blind_FC3_Authconfig
    (blind_cons blind_FC3_Authconfig
    (blind_cons blind_FC3_AutoPart
    (blind_cons blind_FC3_AutoStep
    (blind_cons blind_F8_Bootloader
    (blind_cons blind_FC3_Cdrom
    (blind_cons blind_FC3_ClearPart
    (blind_cons blind_FC3_DisplayMode
    (blind_cons blind_F8_Device_F8_DeviceData
    (blind_cons blind_FC3_DeviceProbe
    (blind_cons blind_FC6_DmRaid_FC6_DmRaidData
    (blind_cons blind_FC4_DriverDisk_FC4_DriverDiskData
    (blind_cons blind_FC3_Firewall
    (blind_cons blind_FC3_Firstboot
    (blind_cons blind_FC3_DisplayMode
    (blind_cons blind_FC6_Reboot
    (blind_cons blind_FC3_HardDrive
    (blind_cons blind_F8_IgnoreDisk
    (blind_cons blind_FC3_Upgrade
    (blind_cons blind_FC3_Interactive
    (blind_cons blind_FC6_Iscsi_FC6_IscsiData
    (blind_cons blind_FC6_IscsiName
    (blind_cons blind_FC3_Keyboard
    (blind_cons blind_FC3_Lang
    (blind_cons blind_FC6_Logging
    (blind_cons blind_FC4_LogVol_FC4_LogVolData
    (blind_cons blind_FC4_MediaCheck
    (blind_cons blind_FC6_Method
    (blind_cons blind_FC6_Monitor
    (blind_cons blind_FC6_MultiPath_FC6_MultiPathData
    (blind_cons blind_F8_Network_F8_NetworkData
    (blind_cons blind_FC6_NFS
    (blind_cons blind_FC4_Partition_FC4_PartData
    (blind_cons blind_FC4_Partition_FC4_PartData
    (blind_cons blind_FC6_Reboot
    (blind_cons blind_F7_Raid_F7_RaidData
    (blind_cons blind_FC6_Reboot
    (blind_cons blind_F8_Repo_F8_RepoData
    (blind_cons blind_F8_RootPw
    (blind_cons blind_FC3_SELinux
    (blind_cons blind_FC6_Services
    (blind_cons blind_FC6_Reboot
    (blind_cons blind_FC3_SkipX
    (blind_cons blind_FC3_DisplayMode
    (blind_cons blind_FC6_Timezone
    (blind_cons blind_F7_Updates
    (blind_cons blind_FC3_Upgrade
    (blind_cons blind_FC3_Url
    (blind_cons blind_F8_User_F8_UserData
    (blind_cons blind_FC6_Vnc
    (blind_cons blind_FC3_VolGroup_FC3_VolGroupData
    (blind_cons blind_FC6_XConfig
    (blind_cons blind_FC3_ZeroMbr
    (blind_cons blind_FC3_ZFCP_FC3_ZFCPData (List.forall_mem_nil _)))))))))))))))))))))))))))))))))))))))))))))))))))))))

theorem commandMapF9_blind : ∀ x ∈ commandMapF9, Command.Blind x.2 := by
  unfold commandMapF9
  exact (blind_cons blind_FC3_Authconfig
    (blind_cons blind_FC3_Authconfig
    (blind_cons blind_F9_AutoPart
    (blind_cons blind_FC3_AutoStep
    (blind_cons blind_F8_Bootloader
    (blind_cons blind_FC3_Cdrom
    (blind_cons blind_FC3_ClearPart
    (blind_cons blind_FC3_DisplayMode
    (blind_cons blind_F8_Device_F8_DeviceData
    (blind_cons blind_FC3_DeviceProbe
    (blind_cons blind_FC6_DmRaid_FC6_DmRaidData
    (blind_cons blind_FC4_DriverDisk_FC4_DriverDiskData
    (blind_cons blind_F9_Firewall
    (blind_cons blind_FC3_Firstboot
    (blind_cons blind_FC3_DisplayMode
    (blind_cons blind_FC6_Reboot
    (blind_cons blind_FC3_HardDrive
    (blind_cons blind_F8_IgnoreDisk
    (blind_cons blind_FC3_Upgrade
    (blind_cons blind_FC3_Interactive
    (blind_cons blind_FC6_Iscsi_FC6_IscsiData
    (blind_cons blind_FC6_IscsiName
    (blind_cons blind_FC3_Keyboard
    (blind_cons blind_FC3_Lang
    (blind_cons blind_FC6_Logging
    (blind_cons blind_F9_LogVol_F9_LogVolData
    (blind_cons blind_FC4_MediaCheck
    (blind_cons blind_FC6_Method
    (blind_cons blind_FC6_Monitor
    (blind_cons blind_FC6_MultiPath_FC6_MultiPathData
    (blind_cons blind_F9_Network_F8_NetworkData
    (blind_cons blind_FC6_NFS
    (blind_cons blind_F9_Partition_F9_PartData
    (blind_cons blind_F9_Partition_F9_PartData
    (blind_cons blind_FC6_Reboot
    (blind_cons blind_F9_Raid_F9_RaidData
    (blind_cons blind_FC6_Reboot
    (blind_cons blind_F8_Repo_F8_RepoData
    (blind_cons blind_F8_RootPw
    (blind_cons blind_FC3_SELinux
    (blind_cons blind_FC6_Services
    (blind_cons blind_FC6_Reboot
    (blind_cons blind_FC3_SkipX
    (blind_cons blind_FC3_DisplayMode
    (blind_cons blind_FC6_Timezone
    (blind_cons blind_F7_Updates
    (blind_cons blind_FC3_Upgrade
    (blind_cons blind_FC3_Url
    (blind_cons blind_F8_User_F8_UserData
    (blind_cons blind_F9_Vnc
    (blind_cons blind_FC3_VolGroup_FC3_VolGroupData
    (blind_cons blind_F9_XConfig
    (blind_cons blind_F9_ZeroMbr
    (blind_cons blind_FC3_ZFCP_FC3_ZFCPData (List.forall_mem_nil _)))))))))))))))))))))))))))))))))))))))))))))))))))))))

theorem commandMapFC3_blind : ∀ x ∈ commandMapFC3, Command.Blind x.2 := by
  unfold commandMapFC3
  exact (blind_cons blind_FC3_Authconfig
    (blind_cons blind_FC3_Authconfig
    (blind_cons blind_FC3_AutoPart
    (blind_cons blind_FC3_AutoStep
    (blind_cons blind_FC3_Bootloader
    (blind_cons blind_FC3_Cdrom
    (blind_cons blind_FC3_ClearPart
    (blind_cons blind_FC3_DisplayMode
    (blind_cons blind_FC3_Device
    (blind_cons blind_FC3_DeviceProbe
    (blind_cons blind_FC3_DriverDisk_FC3_DriverDiskData
    (blind_cons blind_FC3_Firewall
    (blind_cons blind_FC3_Firstboot
    (blind_cons blind_FC3_DisplayMode
    (blind_cons blind_FC3_Reboot
    (blind_cons blind_FC3_HardDrive
    (blind_cons blind_FC3_IgnoreDisk
    (blind_cons blind_FC3_Upgrade
    (blind_cons blind_FC3_Interactive
    (blind_cons blind_FC3_Keyboard
    (blind_cons blind_FC3_Lang
    (blind_cons blind_FC3_LangSupport
    (blind_cons blind_FC3_Lilo
    (blind_cons blind_FC3_LiloCheck
    (blind_cons blind_FC3_LogVol_FC3_LogVolData
    (blind_cons blind_FC3_Method
    (blind_cons blind_FC3_Monitor
    (blind_cons blind_FC3_Mouse
    (blind_cons blind_FC3_Network_FC3_NetworkData
    (blind_cons blind_FC3_NFS
    (blind_cons blind_FC3_Partition_FC3_PartData
    (blind_cons blind_FC3_Partition_FC3_PartData
    (blind_cons blind_FC3_Reboot
    (blind_cons blind_FC3_Raid_FC3_RaidData
    (blind_cons blind_FC3_Reboot
    (blind_cons blind_FC3_RootPw
    (blind_cons blind_FC3_SELinux
    (blind_cons blind_FC3_Reboot
    (blind_cons blind_FC3_SkipX
    (blind_cons blind_FC3_DisplayMode
    (blind_cons blind_FC3_Timezone
    (blind_cons blind_FC3_Upgrade
    (blind_cons blind_FC3_Url
    (blind_cons blind_FC3_Vnc
    (blind_cons blind_FC3_VolGroup_FC3_VolGroupData
    (blind_cons blind_FC3_XConfig
    (blind_cons blind_FC3_ZeroMbr
    (blind_cons blind_FC3_ZFCP_FC3_ZFCPData (List.forall_mem_nil _)))))))))))))))))))))))))))))))))))))))))))))))))

theorem commandMapFC4_blind : ∀ x ∈ commandMapFC4, Command.Blind x.2 := by
  unfold commandMapFC4
  exact (blind_cons blind_FC3_Authconfig
    (blind_cons blind_FC3_Authconfig
    (blind_cons blind_FC3_AutoPart
    (blind_cons blind_FC3_AutoStep
    (blind_cons blind_FC4_Bootloader
    (blind_cons blind_FC3_Cdrom
    (blind_cons blind_FC3_ClearPart
    (blind_cons blind_FC3_DisplayMode
    (blind_cons blind_FC3_Device
    (blind_cons blind_FC3_DeviceProbe
    (blind_cons blind_FC4_DriverDisk_FC4_DriverDiskData
    (blind_cons blind_FC3_Firewall
    (blind_cons blind_FC3_Firstboot
    (blind_cons blind_FC3_DisplayMode
    (blind_cons blind_FC3_Reboot
    (blind_cons blind_FC3_HardDrive
    (blind_cons blind_FC3_IgnoreDisk
    (blind_cons blind_FC3_Upgrade
    (blind_cons blind_FC3_Interactive
    (blind_cons blind_FC3_Keyboard
    (blind_cons blind_FC3_Lang
    (blind_cons blind_FC3_LangSupport
    (blind_cons blind_FC4_Lilo
    (blind_cons blind_FC4_LiloCheck
    (blind_cons blind_FC4_LogVol_FC4_LogVolData
    (blind_cons blind_FC4_MediaCheck
    (blind_cons blind_FC3_Method
    (blind_cons blind_FC3_Monitor
    (blind_cons blind_FC3_Mouse
    (blind_cons blind_FC4_Network_FC4_NetworkData
    (blind_cons blind_FC3_NFS
    (blind_cons blind_FC4_Partition_FC4_PartData
    (blind_cons blind_FC4_Partition_FC4_PartData
    (blind_cons blind_FC3_Reboot
    (blind_cons blind_FC4_Raid_FC4_RaidData
    (blind_cons blind_FC3_Reboot
    (blind_cons blind_FC3_RootPw
    (blind_cons blind_FC3_SELinux
    (blind_cons blind_FC3_Reboot
    (blind_cons blind_FC3_SkipX
    (blind_cons blind_FC3_DisplayMode
    (blind_cons blind_FC3_Timezone
    (blind_cons blind_FC3_Upgrade
    (blind_cons blind_FC3_Url
    (blind_cons blind_FC3_Vnc
    (blind_cons blind_FC3_VolGroup_FC3_VolGroupData
    (blind_cons blind_FC3_XConfig
    (blind_cons blind_FC3_ZeroMbr
    (blind_cons blind_FC3_ZFCP_FC3_ZFCPData (List.forall_mem_nil _))))))))))))))))))))))))))))))))))))))))))))))))))

theorem commandMapFC5_blind : ∀ x ∈ commandMapFC5, Command.Blind x.2 := by
  unfold commandMapFC5
  exact (blind_cons blind_FC3_Authconfig
    (blind_cons blind_FC3_Authconfig
    (blind_cons blind_FC3_AutoPart
    (blind_cons blind_FC3_AutoStep
    (blind_cons blind_FC4_Bootloader
    (blind_cons blind_FC3_Cdrom
    (blind_cons blind_FC3_ClearPart
    (blind_cons blind_FC3_DisplayMode
    (blind_cons blind_FC3_Device
    (blind_cons blind_FC3_DeviceProbe
    (blind_cons blind_FC4_DriverDisk_FC4_DriverDiskData
    (blind_cons blind_FC3_Firewall
    (blind_cons blind_FC3_Firstboot
    (blind_cons blind_FC3_DisplayMode
    (blind_cons blind_FC3_Reboot
    (blind_cons blind_FC3_HardDrive
    (blind_cons blind_FC3_IgnoreDisk
    (blind_cons blind_FC3_Upgrade
    (blind_cons blind_FC3_Interactive
    (blind_cons blind_FC3_Keyboard
    (blind_cons blind_FC3_Lang
    (blind_cons blind_FC5_LangSupport
    (blind_cons blind_FC4_LogVol_FC4_LogVolData
    (blind_cons blind_FC4_MediaCheck
    (blind_cons blind_FC3_Method
    (blind_cons blind_FC3_Monitor
    (blind_cons blind_FC3_Mouse
    (blind_cons blind_FC4_Network_FC4_NetworkData
    (blind_cons blind_FC3_NFS
    (blind_cons blind_FC4_Partition_FC4_PartData
    (blind_cons blind_FC4_Partition_FC4_PartData
    (blind_cons blind_FC3_Reboot
    (blind_cons blind_FC5_Raid_FC5_RaidData
    (blind_cons blind_FC3_Reboot
    (blind_cons blind_FC3_RootPw
    (blind_cons blind_FC3_SELinux
    (blind_cons blind_FC3_Reboot
    (blind_cons blind_FC3_SkipX
    (blind_cons blind_FC3_DisplayMode
    (blind_cons blind_FC3_Timezone
    (blind_cons blind_FC3_Upgrade
    (blind_cons blind_FC3_Url
    (blind_cons blind_FC3_Vnc
    (blind_cons blind_FC3_VolGroup_FC3_VolGroupData
    (blind_cons blind_FC3_XConfig
    (blind_cons blind_FC3_ZeroMbr
    (blind_cons blind_FC3_ZFCP_FC3_ZFCPData (List.forall_mem_nil _))))))))))))))))))))))))))))))))))))))))))))))))

theorem commandMapFC6_blind : ∀ x ∈ commandMapFC6, Command.Blind x.2 := by
  unfold commandMapFC6
  exact (blind_cons blind_FC3_Authconfig
    (blind_cons blind_FC3_Authconfig
    (blind_cons blind_FC3_AutoPart
    (blind_cons blind_FC3_AutoStep
    (blind_cons blind_FC4_Bootloader
    (blind_cons blind_FC3_Cdrom
    (blind_cons blind_FC3_ClearPart
    (blind_cons blind_FC3_DisplayMode
    (blind_cons blind_FC3_Device
    (blind_cons blind_FC3_DeviceProbe
    (blind_cons blind_FC6_DmRaid_FC6_DmRaidData
    (blind_cons blind_FC4_DriverDisk_FC4_DriverDiskData
    (blind_cons blind_FC3_Firewall
    (blind_cons blind_FC3_Firstboot
    (blind_cons blind_FC3_DisplayMode
    (blind_cons blind_FC6_Reboot
    (blind_cons blind_FC3_HardDrive
    (blind_cons blind_FC3_IgnoreDisk
    (blind_cons blind_FC3_Upgrade
    (blind_cons blind_FC3_Interactive
    (blind_cons blind_FC6_Iscsi_FC6_IscsiData
    (blind_cons blind_FC6_IscsiName
    (blind_cons blind_FC3_Keyboard
    (blind_cons blind_FC3_Lang
    (blind_cons blind_FC5_LangSupport
    (blind_cons blind_FC6_Logging
    (blind_cons blind_FC4_LogVol_FC4_LogVolData
    (blind_cons blind_FC4_MediaCheck
    (blind_cons blind_FC6_Method
    (blind_cons blind_FC6_Monitor
    (blind_cons blind_FC3_Mouse
    (blind_cons blind_FC6_MultiPath_FC6_MultiPathData
    (blind_cons blind_FC6_Network_FC6_NetworkData
    (blind_cons blind_FC6_NFS
    (blind_cons blind_FC4_Partition_FC4_PartData
    (blind_cons blind_FC4_Partition_FC4_PartData
    (blind_cons blind_FC6_Reboot
    (blind_cons blind_FC5_Raid_FC5_RaidData
    (blind_cons blind_FC6_Reboot
    (blind_cons blind_FC6_Repo_FC6_RepoData
    (blind_cons blind_FC3_RootPw
    (blind_cons blind_FC3_SELinux
    (blind_cons blind_FC6_Services
    (blind_cons blind_FC6_Reboot
    (blind_cons blind_FC3_SkipX
    (blind_cons blind_FC3_DisplayMode
    (blind_cons blind_FC6_Timezone
    (blind_cons blind_FC3_Upgrade
    (blind_cons blind_FC6_User_FC6_UserData
    (blind_cons blind_FC3_Url
    (blind_cons blind_FC6_Vnc
    (blind_cons blind_FC3_VolGroup_FC3_VolGroupData
    (blind_cons blind_FC6_XConfig
    (blind_cons blind_FC3_ZeroMbr
    (blind_cons blind_FC3_ZFCP_FC3_ZFCPData (List.forall_mem_nil _))))))))))))))))))))))))))))))))))))))))))))))))))))))))

theorem commandMapRHEL3_blind : ∀ x ∈ commandMapRHEL3, Command.Blind x.2 := by
  unfold commandMapRHEL3
  exact (blind_cons blind_FC3_Authconfig
    (blind_cons blind_FC3_Authconfig
    (blind_cons blind_FC3_AutoPart
    (blind_cons blind_FC3_AutoStep
    (blind_cons blind_FC3_Bootloader
    (blind_cons blind_FC3_Cdrom
    (blind_cons blind_FC3_ClearPart
    (blind_cons blind_FC3_DisplayMode
    (blind_cons blind_FC3_Device
    (blind_cons blind_FC3_DeviceProbe
    (blind_cons blind_FC3_DriverDisk_FC3_DriverDiskData
    (blind_cons blind_FC3_Firewall
    (blind_cons blind_FC3_Firstboot
    (blind_cons blind_FC3_DisplayMode
    (blind_cons blind_FC3_Reboot
    (blind_cons blind_FC3_HardDrive
    (blind_cons blind_FC3_IgnoreDisk
    (blind_cons blind_FC3_Upgrade
    (blind_cons blind_FC3_Interactive
    (blind_cons blind_FC3_Keyboard
    (blind_cons blind_FC3_Lang
    (blind_cons blind_FC3_LangSupport
    (blind_cons blind_FC3_Lilo
    (blind_cons blind_FC3_LiloCheck
    (blind_cons blind_FC3_LogVol_FC3_LogVolData
    (blind_cons blind_FC3_Method
    (blind_cons blind_FC3_Monitor
    (blind_cons blind_RHEL3_Mouse
    (blind_cons blind_FC3_Network_RHEL4_NetworkData
    (blind_cons blind_FC3_NFS
    (blind_cons blind_FC3_Partition_FC3_PartData
    (blind_cons blind_FC3_Partition_FC3_PartData
    (blind_cons blind_FC3_Reboot
    (blind_cons blind_FC3_Raid_FC3_RaidData
    (blind_cons blind_FC3_Reboot
    (blind_cons blind_FC3_RootPw
    (blind_cons blind_FC3_Reboot
    (blind_cons blind_FC3_SkipX
    (blind_cons blind_FC3_DisplayMode
    (blind_cons blind_FC3_Timezone
    (blind_cons blind_FC3_Upgrade
    (blind_cons blind_FC3_Url
    (blind_cons blind_FC3_Vnc
    (blind_cons blind_FC3_VolGroup_FC3_VolGroupData
    (blind_cons blind_FC3_XConfig
    (blind_cons blind_FC3_ZeroMbr (List.forall_mem_nil _)))))))))))))))))))))))))))))))))))))))))))))))

theorem commandMapRHEL4_blind : ∀ x ∈ commandMapRHEL4, Command.Blind x.2 := by
  unfold commandMapRHEL4
  exact (blind_cons blind_FC3_Authconfig
    (blind_cons blind_FC3_Authconfig
    (blind_cons blind_FC3_AutoPart
    (blind_cons blind_FC3_AutoStep
    (blind_cons blind_FC3_Bootloader
    (blind_cons blind_FC3_Cdrom
    (blind_cons blind_FC3_ClearPart
    (blind_cons blind_FC3_DisplayMode
    (blind_cons blind_FC3_Device
    (blind_cons blind_FC3_DeviceProbe
    (blind_cons blind_FC4_DriverDisk_FC4_DriverDiskData
    (blind_cons blind_FC3_Firewall
    (blind_cons blind_FC3_Firstboot
    (blind_cons blind_FC3_DisplayMode
    (blind_cons blind_FC3_Reboot
    (blind_cons blind_FC3_HardDrive
    (blind_cons blind_F8_IgnoreDisk
    (blind_cons blind_FC3_Upgrade
    (blind_cons blind_FC3_Interactive
    (blind_cons blind_FC3_Keyboard
    (blind_cons blind_FC3_Lang
    (blind_cons blind_FC3_LangSupport
    (blind_cons blind_FC3_Lilo
    (blind_cons blind_FC3_LiloCheck
    (blind_cons blind_FC3_LogVol_FC3_LogVolData
    (blind_cons blind_FC3_Method
    (blind_cons blind_FC3_Monitor
    (blind_cons blind_FC3_Mouse
    (blind_cons blind_RHEL4_Network_RHEL4_NetworkData
    (blind_cons blind_FC3_NFS
    (blind_cons blind_FC3_Partition_FC3_PartData
    (blind_cons blind_FC3_Partition_FC3_PartData
    (blind_cons blind_FC3_Reboot
    (blind_cons blind_FC3_Raid_FC3_RaidData
    (blind_cons blind_FC3_Reboot
    (blind_cons blind_FC3_RootPw
    (blind_cons blind_FC3_SELinux
    (blind_cons blind_FC3_Reboot
    (blind_cons blind_FC3_SkipX
    (blind_cons blind_FC3_DisplayMode
    (blind_cons blind_FC3_Timezone
    (blind_cons blind_FC3_Upgrade
    (blind_cons blind_FC3_Url
    (blind_cons blind_FC3_Vnc
    (blind_cons blind_FC3_VolGroup_FC3_VolGroupData
    (blind_cons blind_FC3_XConfig
    (blind_cons blind_FC3_ZeroMbr
    (blind_cons blind_FC3_ZFCP_FC3_ZFCPData (List.forall_mem_nil _)))))))))))))))))))))))))))))))))))))))))))))))))

theorem commandMapRHEL5_blind : ∀ x ∈ commandMapRHEL5, Command.Blind x.2 := by
  unfold commandMapRHEL5
  exact (blind_cons blind_FC3_Authconfig
    (blind_cons blind_FC3_Authconfig
    (blind_cons blind_F9_AutoPart
    (blind_cons blind_FC3_AutoStep
    (blind_cons blind_RHEL5_Bootloader
    (blind_cons blind_FC3_Cdrom
    (blind_cons blind_FC3_ClearPart
    (blind_cons blind_FC3_DisplayMode
    (blind_cons blind_FC3_Device
    (blind_cons blind_FC3_DeviceProbe
    (blind_cons blind_FC6_DmRaid_FC6_DmRaidData
    (blind_cons blind_F12_DriverDisk_F12_DriverDiskData
    (blind_cons blind_FC3_Firewall
    (blind_cons blind_FC3_Firstboot
    (blind_cons blind_FC3_DisplayMode
    (blind_cons blind_FC6_Reboot
    (blind_cons blind_FC3_HardDrive
    (blind_cons blind_F8_IgnoreDisk
    (blind_cons blind_FC3_Upgrade
    (blind_cons blind_FC3_Interactive
    (blind_cons blind_FC6_Iscsi_FC6_IscsiData
    (blind_cons blind_FC6_IscsiName
    (blind_cons blind_RHEL5_Key
    (blind_cons blind_FC3_Keyboard
    (blind_cons blind_FC3_Lang
    (blind_cons blind_FC5_LangSupport
    (blind_cons blind_FC6_Logging
    (blind_cons blind_RHEL5_LogVol_RHEL5_LogVolData
    (blind_cons blind_FC4_MediaCheck
    (blind_cons blind_FC6_Method
    (blind_cons blind_FC6_Monitor
    (blind_cons blind_FC3_Mouse
    (blind_cons blind_FC6_MultiPath_FC6_MultiPathData
    (blind_cons blind_RHEL5_Network_FC6_NetworkData
    (blind_cons blind_FC6_NFS
    (blind_cons blind_RHEL5_Partition_RHEL5_PartData
    (blind_cons blind_RHEL5_Partition_RHEL5_PartData
    (blind_cons blind_FC6_Reboot
    (blind_cons blind_RHEL5_Raid_RHEL5_RaidData
    (blind_cons blind_FC6_Reboot
    (blind_cons blind_FC6_Repo_FC6_RepoData
    (blind_cons blind_FC3_RootPw
    (blind_cons blind_FC6_Services
    (blind_cons blind_FC3_SELinux
    (blind_cons blind_FC6_Reboot
    (blind_cons blind_FC3_SkipX
    (blind_cons blind_FC3_DisplayMode
    (blind_cons blind_FC6_Timezone
    (blind_cons blind_FC3_Upgrade
    (blind_cons blind_FC6_User_FC6_UserData
    (blind_cons blind_FC3_Url
    (blind_cons blind_FC6_Vnc
    (blind_cons blind_FC3_VolGroup_FC3_VolGroupData
    (blind_cons blind_FC6_XConfig
    (blind_cons blind_FC3_ZeroMbr
    (blind_cons blind_FC3_ZFCP_FC3_ZFCPData (List.forall_mem_nil _)))))))))))))))))))))))))))))))))))))))))))))))))))))))))

theorem commandMapRHEL6_blind : ∀ x ∈ commandMapRHEL6, Command.Blind x.2 := by
  unfold commandMapRHEL6
  exact (blind_cons blind_FC3_Authconfig
    (blind_cons blind_FC3_Authconfig
    (blind_cons blind_RHEL6_AutoPart
    (blind_cons blind_FC3_AutoStep
    (blind_cons blind_RHEL6_Bootloader
    (blind_cons blind_FC3_Cdrom
    (blind_cons blind_FC3_ClearPart
    (blind_cons blind_FC3_DisplayMode
    (blind_cons blind_F8_Device_F8_DeviceData
    (blind_cons blind_FC3_DeviceProbe
    (blind_cons blind_FC6_DmRaid_FC6_DmRaidData
    (blind_cons blind_F12_DriverDisk_F12_DriverDiskData
    (blind_cons blind_F13_Fcoe_F13_FcoeData
    (blind_cons blind_F10_Firewall
    (blind_cons blind_FC3_Firstboot
    (blind_cons blind_FC3_DisplayMode
    (blind_cons blind_F12_Group_F12_GroupData
    (blind_cons blind_FC6_Reboot
    (blind_cons blind_FC3_HardDrive
    (blind_cons blind_RHEL6_IgnoreDisk
    (blind_cons blind_F11_Upgrade
    (blind_cons blind_FC3_Interactive
    (blind_cons blind_RHEL6_Iscsi_RHEL6_IscsiData
    (blind_cons blind_FC6_IscsiName
    (blind_cons blind_RHEL5_Key
    (blind_cons blind_FC3_Keyboard
    (blind_cons blind_FC3_Lang
    (blind_cons blind_FC6_Logging
    (blind_cons blind_RHEL6_LogVol_RHEL6_LogVolData
    (blind_cons blind_FC4_MediaCheck
    (blind_cons blind_RHEL6_Method
    (blind_cons blind_F10_Monitor
    (blind_cons blind_FC6_MultiPath_FC6_MultiPathData
    (blind_cons blind_RHEL6_Network_RHEL6_NetworkData
    (blind_cons blind_FC6_NFS
    (blind_cons blind_RHEL6_Partition_RHEL6_PartData
    (blind_cons blind_RHEL6_Partition_RHEL6_PartData
    (blind_cons blind_FC6_Reboot
    (blind_cons blind_RHEL6_Raid_RHEL6_RaidData
    (blind_cons blind_FC6_Reboot
    (blind_cons blind_RHEL6_Repo_RHEL6_RepoData
    (blind_cons blind_F10_Rescue
    (blind_cons blind_F8_RootPw
    (blind_cons blind_FC3_SELinux
    (blind_cons blind_FC6_Services
    (blind_cons blind_FC6_Reboot
    (blind_cons blind_FC3_SkipX
    (blind_cons blind_F13_SshPw_F13_SshPwData
    (blind_cons blind_FC3_DisplayMode
    (blind_cons blind_FC6_Timezone
    (blind_cons blind_RHEL6_UnsupportedHardware
    (blind_cons blind_F7_Updates
    (blind_cons blind_F11_Upgrade
    (blind_cons blind_RHEL6_Url
    (blind_cons blind_F12_User_F12_UserData
    (blind_cons blind_F9_Vnc
    (blind_cons blind_F16_VolGroup_F16_VolGroupData
    (blind_cons blind_F10_XConfig
    (blind_cons blind_F9_ZeroMbr
    (blind_cons blind_F12_ZFCP_F12_ZFCPData (List.forall_mem_nil _)))))))))))))))))))))))))))))))))))))))))))))))))))))))))))))

theorem commandMapRHEL7_blind : ∀ x ∈ commandMapRHEL7, Command.Blind x.2 := by
  unfold commandMapRHEL7
  exact (blind_cons blind_FC3_Authconfig
    (blind_cons blind_FC3_Authconfig
    (blind_cons blind_RHEL7_AutoPart
    (blind_cons blind_FC3_AutoStep
    (blind_cons blind_RHEL7_Bootloader
    (blind_cons blind_RHEL7_BTRFS_RHEL7_BTRFSData
    (blind_cons blind_FC3_Cdrom
    (blind_cons blind_RHEL7_ClearPart
    (blind_cons blind_FC3_DisplayMode
    (blind_cons blind_F8_Device_F8_DeviceData
    (blind_cons blind_FC3_DeviceProbe
    (blind_cons blind_FC6_DmRaid_FC6_DmRaidData
    (blind_cons blind_F14_DriverDisk_F14_DriverDiskData
    (blind_cons blind_F20_Eula
    (blind_cons blind_RHEL7_Fcoe_RHEL7_FcoeData
    (blind_cons blind_F20_Firewall
    (blind_cons blind_FC3_Firstboot
    (blind_cons blind_FC3_DisplayMode
    (blind_cons blind_F12_Group_F12_GroupData
    (blind_cons blind_F18_Reboot
    (blind_cons blind_FC3_HardDrive
    (blind_cons blind_RHEL7_Hmc
    (blind_cons blind_F14_IgnoreDisk
    (blind_cons blind_F11_Upgrade
    (blind_cons blind_F17_Iscsi_F17_IscsiData
    (blind_cons blind_FC6_IscsiName
    (blind_cons blind_F18_Keyboard
    (blind_cons blind_F19_Lang
    (blind_cons blind_F19_Liveimg
    (blind_cons blind_FC6_Logging
    (blind_cons blind_RHEL7_LogVol_RHEL7_LogVolData
    (blind_cons blind_FC4_MediaCheck
    (blind_cons blind_RHEL7_Method
    (blind_cons blind_FC6_MultiPath_FC6_MultiPathData
    (blind_cons blind_RHEL7_Network_RHEL7_NetworkData
    (blind_cons blind_FC6_NFS
    (blind_cons blind_F28_Nvdimm_F28_NvdimmData
    (blind_cons blind_RHEL7_OSTreeSetup
    (blind_cons blind_RHEL7_Partition_RHEL7_PartData
    (blind_cons blind_RHEL7_Partition_RHEL7_PartData
    (blind_cons blind_F18_Reboot
    (blind_cons blind_RHEL7_Raid_RHEL7_RaidData
    (blind_cons blind_F19_Realm
    (blind_cons blind_F18_Reboot
    (blind_cons blind_RHEL7_Repo_RHEL7_RepoData
    (blind_cons blind_RHEL7_ReqPart
    (blind_cons blind_F10_Rescue
    (blind_cons blind_F18_RootPw
    (blind_cons blind_FC3_SELinux
    (blind_cons blind_FC6_Services
    (blind_cons blind_F18_Reboot
    (blind_cons blind_FC3_SkipX
    (blind_cons blind_F26_Snapshot_F26_SnapshotData
    (blind_cons blind_F13_SshPw_F13_SshPwData
    (blind_cons blind_FC3_DisplayMode
    (blind_cons blind_RHEL7_Timezone
    (blind_cons blind_RHEL6_UnsupportedHardware
    (blind_cons blind_F7_Updates
    (blind_cons blind_F20_Upgrade
    (blind_cons blind_F18_Url
    (blind_cons blind_F19_User_F19_UserData
    (blind_cons blind_F9_Vnc
    (blind_cons blind_RHEL7_VolGroup_RHEL7_VolGroupData
    (blind_cons blind_F14_XConfig
    (blind_cons blind_F9_ZeroMbr
    (blind_cons blind_F14_ZFCP_F14_ZFCPData (List.forall_mem_nil _)))))))))))))))))))))))))))))))))))))))))))))))))))))))))))))))))))

theorem commandMapRHEL8_blind : ∀ x ∈ commandMapRHEL8, Command.Blind x.2 := by
  unfold commandMapRHEL8
  exact (blind_cons blind_F28_Authconfig
    (blind_cons blind_F28_Authconfig
    (blind_cons blind_F28_Authselect
    (blind_cons blind_RHEL8_AutoPart
    (blind_cons blind_FC3_AutoStep
    (blind_cons blind_RHEL8_Bootloader
    (blind_cons blind_RHEL8_BTRFS
    (blind_cons blind_FC3_Cdrom
    (blind_cons blind_F28_ClearPart
    (blind_cons blind_F26_DisplayMode
    (blind_cons blind_F24_Device
    (blind_cons blind_F29_DeviceProbe
    (blind_cons blind_F24_DmRaid
    (blind_cons blind_F14_DriverDisk_F14_DriverDiskData
    (blind_cons blind_RHEL8_Module_RHEL8_ModuleData
    (blind_cons blind_F20_Eula
    (blind_cons blind_RHEL8_Fcoe_RHEL8_FcoeData
    (blind_cons blind_F28_Firewall
    (blind_cons blind_FC3_Firstboot
    (blind_cons blind_F26_DisplayMode
    (blind_cons blind_F12_Group_F12_GroupData
    (blind_cons blind_F23_Reboot
    (blind_cons blind_FC3_HardDrive
    (blind_cons blind_F28_Hmc
    (blind_cons blind_F29_IgnoreDisk
    (blind_cons blind_F29_Install
    (blind_cons blind_F17_Iscsi_F17_IscsiData
    (blind_cons blind_FC6_IscsiName
    (blind_cons blind_F18_Keyboard
    (blind_cons blind_F19_Lang
    (blind_cons blind_F19_Liveimg
    (blind_cons blind_FC6_Logging
    (blind_cons blind_RHEL8_LogVol_RHEL8_LogVolData
    (blind_cons blind_FC4_MediaCheck
    (blind_cons blind_F28_Method
    (blind_cons blind_F27_Mount_F27_MountData
    (blind_cons blind_F24_MultiPath
    (blind_cons blind_F27_Network_F27_NetworkData
    (blind_cons blind_FC6_NFS
    (blind_cons blind_F28_Nvdimm_F28_NvdimmData
    (blind_cons blind_RHEL8_OSTreeSetup
    (blind_cons blind_RHEL8_Partition_RHEL8_PartData
    (blind_cons blind_RHEL8_Partition_RHEL8_PartData
    (blind_cons blind_F23_Reboot
    (blind_cons blind_RHEL8_Raid_RHEL8_RaidData
    (blind_cons blind_F19_Realm
    (blind_cons blind_F23_Reboot
    (blind_cons blind_RHEL8_Repo_RHEL8_RepoData
    (blind_cons blind_F23_ReqPart
    (blind_cons blind_F10_Rescue
    (blind_cons blind_RHEL8_RHSM
    (blind_cons blind_F18_RootPw
    (blind_cons blind_FC3_SELinux
    (blind_cons blind_FC6_Services
    (blind_cons blind_F23_Reboot
    (blind_cons blind_FC3_SkipX
    (blind_cons blind_F26_Snapshot_F26_SnapshotData
    (blind_cons blind_F24_SshPw_F24_SshPwData
    (blind_cons blind_F22_SshKey_F22_SshKeyData
    (blind_cons blind_RHEL8_Syspurpose
    (blind_cons blind_F26_DisplayMode
    (blind_cons blind_F25_Timezone
    (blind_cons blind_F7_Updates
    (blind_cons blind_RHEL8_Url
    (blind_cons blind_F24_User_F19_UserData
    (blind_cons blind_F9_Vnc
    (blind_cons blind_RHEL8_VolGroup_RHEL8_VolGroupData
    (blind_cons blind_F14_XConfig
    (blind_cons blind_F9_ZeroMbr
    (blind_cons blind_F14_ZFCP_F14_ZFCPData
    (blind_cons blind_RHEL8_Zipl (List.forall_mem_nil _))))))))))))))))))))))))))))))))))))))))))))))))))))))))))))))))))))))))

theorem commandMaps_blind : ∀ y ∈ commandMaps, ∀ x ∈ y.2, Command.Blind x.2 := by
  unfold commandMaps
  exact (blind_cons commandMapF10_blind (blind_cons commandMapF11_blind (blind_cons commandMapF12_blind (blind_cons commandMapF13_blind (blind_cons commandMapF14_blind (blind_cons commandMapF15_blind (blind_cons commandMapF16_blind (blind_cons commandMapF17_blind (blind_cons commandMapF18_blind (blind_cons commandMapF19_blind (blind_cons commandMapF20_blind (blind_cons commandMapF21_blind (blind_cons commandMapF22_blind (blind_cons commandMapF23_blind (blind_cons commandMapF24_blind (blind_cons commandMapF25_blind (blind_cons commandMapF26_blind (blind_cons commandMapF27_blind (blind_cons commandMapF28_blind (blind_cons commandMapF29_blind (blind_cons commandMapF30_blind (blind_cons commandMapF31_blind (blind_cons commandMapF32_blind (blind_cons commandMapF33_blind (blind_cons commandMapF34_blind (blind_cons commandMapF7_blind (blind_cons commandMapF8_blind (blind_cons commandMapF9_blind (blind_cons commandMapFC3_blind (blind_cons commandMapFC4_blind (blind_cons commandMapFC5_blind (blind_cons commandMapFC6_blind (blind_cons commandMapRHEL3_blind (blind_cons commandMapRHEL4_blind (blind_cons commandMapRHEL5_blind (blind_cons commandMapRHEL6_blind (blind_cons commandMapRHEL7_blind (blind_cons commandMapRHEL8_blind (List.forall_mem_nil _)))))))))))))))))))))))))))))))))))))))

end Ks.Cmd
