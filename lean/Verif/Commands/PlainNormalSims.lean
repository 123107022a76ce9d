import Verif.Commands.PlainNormalLogic
import Verif.Commands.SelfSheets
import Verif.Commands.SelfIgnore
import Verif.Commands.StripTexts
import Verif.Commands.StageLogic
/-!
# Runs of `parse` on a line and on the text of the result
-/
namespace Ks.Cmd

variable {k : Info} {init : Ns} {args args' : List Str}

/-- The two runs end alike. -/
abbrev Same (init : Ns) (m m' : M Unit) : Prop := M.Sims (Fresh init) m m' fun _ _ => Alike []

theorem FC3_ClearPart.same (h : Follows k.op init [] noWords args args') : Same init (FC3_ClearPart.parse k args) (FC3_ClearPart.parse k args') := by
  unfold FC3_ClearPart.parse; repeat' sims_step

theorem F9_AutoPart.same (h : Follows k.op init [] noWords args args') : Same init (F9_AutoPart.parse k args) (F9_AutoPart.parse k args') := by
  unfold F9_AutoPart.parse; repeat' sims_step

theorem RHEL6_AutoPart.same (h : Follows k.op init [] noWords args args') : Same init (RHEL6_AutoPart.parse k args) (RHEL6_AutoPart.parse k args') := by
  unfold RHEL6_AutoPart.parse; refine sims_call (F9_AutoPart.same h) ?_; repeat' sims_step

theorem F17_AutoPart.same (h : Follows k.op init [] noWords args args') : Same init (F17_AutoPart.parse k args) (F17_AutoPart.parse k args') := by
  unfold F17_AutoPart.parse; refine sims_call (F9_AutoPart.same h) ?_; repeat' sims_step

theorem F20_AutoPart.same (h : Follows k.op init [] noWords args args') : Same init (F20_AutoPart.parse k args) (F20_AutoPart.parse k args') := by
  unfold F20_AutoPart.parse; refine sims_call (F17_AutoPart.same h) ?_; repeat' sims_step

theorem F21_AutoPart.same (h : Follows k.op init [] noWords args args') : Same init (F21_AutoPart.parse k args) (F21_AutoPart.parse k args') := by
  unfold F21_AutoPart.parse; refine sims_call (F20_AutoPart.same h) ?_; repeat' sims_step

theorem F23_AutoPart.same (h : Follows k.op init [] noWords args args') : Same init (F23_AutoPart.parse k args) (F23_AutoPart.parse k args') := by
  unfold F23_AutoPart.parse; refine sims_call (F21_AutoPart.same h) ?_; repeat' sims_step

theorem RHEL7_AutoPart.same (h : Follows k.op init [] noWords args args') : Same init (RHEL7_AutoPart.parse k args) (RHEL7_AutoPart.parse k args') := by
  unfold RHEL7_AutoPart.parse; refine sims_call (F21_AutoPart.same h) ?_; repeat' sims_step

theorem F29_AutoPart.same (h : Follows k.op init [] noWords args args') : Same init (F29_AutoPart.parse k args) (F29_AutoPart.parse k args') := by
  unfold F29_AutoPart.parse; refine sims_call (F23_AutoPart.same h) ?_; repeat' sims_step

theorem RHEL8_AutoPart.same (h : Follows k.op init [] noWords args args') : Same init (RHEL8_AutoPart.parse k args) (RHEL8_AutoPart.parse k args') := by
  unfold RHEL8_AutoPart.parse; refine sims_call (F29_AutoPart.same h) ?_; repeat' sims_step

theorem FC3_AutoStep.same (h : Follows k.op init [] noWords args args') : Same init (FC3_AutoStep.parse k args) (FC3_AutoStep.parse k args') := by
  unfold FC3_AutoStep.parse; repeat' sims_step

theorem FC4_Bootloader.same (h : Follows k.op init [] noWords args args') : Same init (FC4_Bootloader.parse k args) (FC4_Bootloader.parse k args') := by
  unfold FC4_Bootloader.parse; repeat' sims_step

theorem twin_md5 {ns ns' : Ns} (h : Twin [] init ns ns') (hi : init.get c!"_md5pass" = none) :
    Twin [] init (if (ns.getD c!"_md5pass").truthy then Ns.without ((ns.set c!"password" (ns.getD c!"_md5pass")).set c!"isCrypted" (Val.bool true)) [c!"_md5pass"] else ns)
      (if (ns'.getD c!"_md5pass").truthy then Ns.without ((ns'.set c!"password" (ns'.getD c!"_md5pass")).set c!"isCrypted" (Val.bool true)) [c!"_md5pass"] else ns') := by
  have e := h.getD (k := c!"_md5pass") (by simp) hi
  exact twin_ite (by rw [e]) (fun _ => twin_without (twin_set (twin_set h _ e) _ rfl) _) fun _ => h

theorem F15_Bootloader.same (h : Follows k.op init [] noWords args args') (hi : init.get c!"_md5pass" = none) : Same init (F15_Bootloader.parse k args) (F15_Bootloader.parse k args') := by
  unfold F15_Bootloader.parse
  refine sims_bind_args h noWords_nil fun ns ns' ht => ?_
  exact sims_setTo (twin_md5 ht hi)

theorem RHEL6_Bootloader.same (h : Follows k.op init [] noWords args args') (hi : init.get c!"_md5pass" = none) : Same init (RHEL6_Bootloader.parse k args) (RHEL6_Bootloader.parse k args') := by
  unfold RHEL6_Bootloader.parse
  refine sims_bind_args h noWords_nil fun ns ns' ht => ?_
  exact sims_setTo (twin_md5 ht hi)

theorem F17_Bootloader.same (h : Follows k.op init [] noWords args args') (hi : init.get c!"_md5pass" = none) : Same init (F17_Bootloader.parse k args) (F17_Bootloader.parse k args') := by
  unfold F17_Bootloader.parse; refine sims_call (F15_Bootloader.same h hi) ?_; repeat' sims_step

theorem F20_Eula.same (h : Follows k.op init [] noWords args args') : Same init (F20_Eula.parse k args) (F20_Eula.parse k args') := by
  unfold F20_Eula.parse
  refine sims_bind_known h fun ns ns' ex ht => sims_call (sims_setTo ht) (sims_call (sims_failIf_false rfl) ?_)
  repeat' sims_step

theorem FC3_HardDrive.same (h : Follows k.op init [] noWords args args') : Same init (FC3_HardDrive.parse k args) (FC3_HardDrive.parse k args') := by
  unfold FC3_HardDrive.parse; repeat' sims_step

theorem F33_HardDrive.same (h : Follows k.op init [] noWords args args') : Same init (F33_HardDrive.parse k args) (F33_HardDrive.parse k args') := by
  unfold F33_HardDrive.parse; repeat' sims_step

theorem FC3_IgnoreDisk.same (h : Follows k.op init [] noWords args args') : Same init (FC3_IgnoreDisk.parse k args) (FC3_IgnoreDisk.parse k args') := by
  unfold FC3_IgnoreDisk.parse; repeat' sims_step

theorem F8_IgnoreDisk.same (h : Follows k.op init [] noWords args args') : Same init (F8_IgnoreDisk.parse k args) (F8_IgnoreDisk.parse k args') := by
  unfold F8_IgnoreDisk.parse; refine sims_call (FC3_IgnoreDisk.same h) ?_
  refine sims_bind_self fun d d' hd => sims_failIf ?_
  simp only [hd.getD (k := c!"ignoredisk") (by decide), hd.getD (k := c!"onlyuse") (by decide)]

theorem F29_IgnoreDisk.same (h : Follows k.op init [] noWords args args') : Same init (F29_IgnoreDisk.parse k args) (F29_IgnoreDisk.parse k args') := by
  unfold F29_IgnoreDisk.parse; exact F8_IgnoreDisk.same h

theorem RHEL6_IgnoreDisk.same (h : Follows k.op init [] noWords args args') : Same init (RHEL6_IgnoreDisk.parse k args) (RHEL6_IgnoreDisk.parse k args') := by
  unfold RHEL6_IgnoreDisk.parse; refine sims_call (FC3_IgnoreDisk.same h) ?_
  refine sims_bind_self fun d d' hd => ?_
  simp only [hd.getD (k := c!"ignoredisk") (by decide), hd.getD (k := c!"onlyuse") (by decide), hd.getD (k := c!"interactive") (by decide)]
  repeat' sims_step

theorem F19_Liveimg.same (h : Follows k.op init [] noWords args args') : Same init (F19_Liveimg.parse k args) (F19_Liveimg.parse k args') := by
  unfold F19_Liveimg.parse; repeat' sims_step

theorem FC6_Logging.same (h : Follows k.op init [] noWords args args') : Same init (FC6_Logging.parse k args) (FC6_Logging.parse k args') := by
  unfold FC6_Logging.parse; repeat' sims_step

theorem FC3_Monitor.same (h : Follows k.op init [] noWords args args') : Same init (FC3_Monitor.parse k args) (FC3_Monitor.parse k args') := by
  unfold FC3_Monitor.parse; repeat' sims_step

theorem FC3_NFS.same (h : Follows k.op init [] noWords args args') : Same init (FC3_NFS.parse k args) (FC3_NFS.parse k args') := by
  unfold FC3_NFS.parse; repeat' sims_step

theorem F23_ReqPart.same (h : Follows k.op init [] noWords args args') : Same init (F23_ReqPart.parse k args) (F23_ReqPart.parse k args') := by
  unfold F23_ReqPart.parse; repeat' sims_step

theorem F10_Rescue.same (h : Follows k.op init [] noWords args args') (h1 : (init.getD c!"nomount").truthy = false) (h2 : (init.getD c!"romount").truthy = false) :
    Same init (F10_Rescue.parse k args) (F10_Rescue.parse k args') := by
  unfold F10_Rescue.parse
  refine sims_bind_args h noWords_nil fun ns ns' ht => sims_call (sims_failIf ?_) ?_
  · rw [ht.truthy (by simp) h1, ht.truthy (by simp) h2]
  repeat' sims_step

theorem FC3_SELinux.same (h : Follows k.op init [] noWords args args') : Same init (FC3_SELinux.parse k args) (FC3_SELinux.parse k args') := by
  unfold FC3_SELinux.parse; repeat' sims_step

theorem FC6_Services.same (h : Follows k.op init [] noWords args args') : Same init (FC6_Services.parse k args) (FC6_Services.parse k args') := by
  unfold FC6_Services.parse; repeat' sims_step

theorem FC3_Url.same (h : Follows k.op init [] noWords args args') : Same init (FC3_Url.parse k args) (FC3_Url.parse k args') := by
  unfold FC3_Url.parse; repeat' sims_step

theorem F18_Url.same (h : Follows k.op init [] noWords args args') (he : k.exclusive.all (fun o => !(init.getD o.1).truthy) = true) :
    Same init (F18_Url.parse k args) (F18_Url.parse k args') := by
  unfold F18_Url.parse; refine sims_call (FC3_Url.same h) ?_
  refine sims_bind_args h noWords_nil fun ns ns' ht => ?_
  have : k.exclusive.filter (fun o => (ns.getD o.1).truthy) = k.exclusive.filter (fun o => (ns'.getD o.1).truthy) :=
    List.filter_congr fun o ho => ht.truthy (by simp) (by simpa using List.all_eq_true.1 he o ho)
  dsimp only
  rw [this]
  repeat' sims_step

theorem FC3_XConfig.same (h : Follows k.op init [] noWords args args') : Same init (FC3_XConfig.parse k args) (FC3_XConfig.parse k args') := by
  unfold FC3_XConfig.parse; repeat' sims_step

theorem F32_Zipl.same (h : Follows k.op init [] noWords args args') : Same init (F32_Zipl.parse k args) (F32_Zipl.parse k args') := by
  unfold F32_Zipl.parse; repeat' sims_step

end Ks.Cmd
