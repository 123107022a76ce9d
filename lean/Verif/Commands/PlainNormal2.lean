import Verif.Commands.PlainNormalLock
import Verif.Commands.SelfBack2
/-!
# Commands without data lists accept their text, class by class

Written by `scripts/gen_plainnormal.py`.
-/
namespace Ks.Cmd

set_option linter.unusedVariables false

theorem keeps_F8_Bootloader : F8_Bootloader.cls.SelfNormal (keepBootloaderSheet Version.F10) (keepNeeds c!"bootloader" Version.F10) (keepFixed c!"bootloader" Version.F10) (setToObj F8_Bootloader.info.op.defaults F8_Bootloader.init) :=
  plain_opts (o := (FC3_Bootloader.strOut F8_Bootloader.args)) (T := [c!"seen"]) (keepBootloaderSheet Version.F10) (fun args n => FC4_Bootloader.selfed _ _ args n _ (by decide)) (fun _ _ => rfl) (fun a b h => FC4_Bootloader.same h) (by decide) (by decide) (by decide +kernel) (by decide +kernel)

theorem keeps_F12_Bootloader : F12_Bootloader.cls.SelfNormal (keepBootloaderSheet Version.F12) (keepNeeds c!"bootloader" Version.F12) (keepFixed c!"bootloader" Version.F12) (setToObj F12_Bootloader.info.op.defaults F12_Bootloader.init) :=
  plain_opts (o := (FC3_Bootloader.strOut F8_Bootloader.args)) (T := [c!"seen"]) (keepBootloaderSheet Version.F12) (fun args n => FC4_Bootloader.selfed _ _ args n _ (by decide)) (fun _ _ => rfl) (fun a b h => FC4_Bootloader.same h) (by decide) (by decide) (by decide +kernel) (by decide +kernel)

theorem keeps_F14_Bootloader : F14_Bootloader.cls.SelfNormal (keepBootloaderSheet Version.F14) (keepNeeds c!"bootloader" Version.F14) (keepFixed c!"bootloader" Version.F14) (setToObj F14_Bootloader.info.op.defaults F14_Bootloader.init) :=
  plain_opts (o := (FC3_Bootloader.strOut F8_Bootloader.args)) (T := [c!"seen"]) (keepBootloaderSheet Version.F14) (fun args n => FC4_Bootloader.selfed _ _ args n _ (by decide)) (fun _ _ => rfl) (fun a b h => FC4_Bootloader.same h) (by decide) (by decide) (by decide +kernel) (by decide +kernel)

theorem keeps_F15_Bootloader_t : F15_Bootloader.cls.SelfNormal (keepBootloaderSheet Version.F15) (keepNeeds c!"bootloader" Version.F15) (keepFixed c!"bootloader" Version.F15) (setToObj F15_Bootloader.info.op.defaults F15_Bootloader.init) :=
  plain_locked (o := unMd5 ((FC3_Bootloader.strOut F15_Bootloader.args))) (keepBootloaderSheet Version.F15) (fun args n => F15_Bootloader.unlocked _ _ args n) (fun d hL => keep_unlocked (by decide +kernel) hL) (fun d hp => unMd5_render (hp.2.2 _ (.head _))) (fun a b h => F15_Bootloader.same h (by decide +kernel)) (by decide +kernel) (by decide +kernel) (by decide +kernel)

theorem keeps_F17_Bootloader_t : F17_Bootloader.cls.SelfNormal (keepBootloaderSheet Version.F17) (keepNeeds c!"bootloader" Version.F17) (keepFixed c!"bootloader" Version.F17) (setToObj F17_Bootloader.info.op.defaults F17_Bootloader.init) :=
  plain_locked (o := unMd5 ((FC3_Bootloader.strOut F17_Bootloader.args))) (keepBootloaderSheet Version.F17) (fun args n => F17_Bootloader.unlocked _ _ args n) (fun d hL => keep_unlocked (by decide +kernel) hL) (fun d hp => unMd5_render (hp.2.2 _ (.head _))) (fun a b h => F17_Bootloader.same h (by decide +kernel)) (by decide +kernel) (by decide +kernel) (by decide +kernel)

theorem keeps_F18_Bootloader_t : F18_Bootloader.cls.SelfNormal (keepBootloaderSheet Version.F18) (keepNeeds c!"bootloader" Version.F18) (keepFixed c!"bootloader" Version.F18) (setToObj F18_Bootloader.info.op.defaults F18_Bootloader.init) :=
  plain_locked (o := unMd5 ((FC3_Bootloader.strOut F18_Bootloader.args))) (keepBootloaderSheet Version.F18) (fun args n => F17_Bootloader.unlocked _ _ args n) (fun d hL => keep_unlocked (by decide +kernel) hL) (fun d hp => unMd5_render (hp.2.2 _ (.head _))) (fun a b h => F17_Bootloader.same h (by decide +kernel)) (by decide +kernel) (by decide +kernel) (by decide +kernel)

theorem keeps_F19_Bootloader_t : F19_Bootloader.cls.SelfNormal (keepBootloaderSheet Version.F19) (keepNeeds c!"bootloader" Version.F19) (keepFixed c!"bootloader" Version.F19) (setToObj F19_Bootloader.info.op.defaults F19_Bootloader.init) :=
  plain_locked (o := unMd5 ((FC3_Bootloader.strOut F19_Bootloader.args))) (keepBootloaderSheet Version.F19) (fun args n => F17_Bootloader.unlocked _ _ args n) (fun d hL => keep_unlocked (by decide +kernel) hL) (fun d hp => unMd5_render (hp.2.2 _ (.head _))) (fun a b h => F17_Bootloader.same h (by decide +kernel)) (by decide +kernel) (by decide +kernel) (by decide +kernel)

theorem keeps_F21_Bootloader_t : F21_Bootloader.cls.SelfNormal (keepBootloaderSheet Version.F21) (keepNeeds c!"bootloader" Version.F21) (keepFixed c!"bootloader" Version.F21) (setToObj F21_Bootloader.info.op.defaults F21_Bootloader.init) :=
  plain_locked (o := unMd5 ((FC3_Bootloader.strOut F21_Bootloader.args))) (keepBootloaderSheet Version.F21) (fun args n => F17_Bootloader.unlocked _ _ args n) (fun d hL => keep_unlocked (by decide +kernel) hL) (fun d hp => unMd5_render (hp.2.2 _ (.head _))) (fun a b h => F17_Bootloader.same h (by decide +kernel)) (by decide +kernel) (by decide +kernel) (by decide +kernel)

theorem keeps_F29_Bootloader_t : F29_Bootloader.cls.SelfNormal (keepBootloaderSheet Version.F29) (keepNeeds c!"bootloader" Version.F29) (keepFixed c!"bootloader" Version.F29) (setToObj F29_Bootloader.info.op.defaults F29_Bootloader.init) :=
  plain_locked (o := unMd5 ((FC3_Bootloader.strOut F21_Bootloader.args))) (keepBootloaderSheet Version.F29) (fun args n => F17_Bootloader.unlocked _ _ args n) (fun d hL => keep_unlocked (by decide +kernel) hL) (fun d hp => unMd5_render (hp.2.2 _ (.head _))) (fun a b h => F17_Bootloader.same h (by decide +kernel)) (by decide +kernel) (by decide +kernel) (by decide +kernel)

theorem keeps_F34_Bootloader_t : F34_Bootloader.cls.SelfNormal (keepBootloaderSheet Version.F34) (keepNeeds c!"bootloader" Version.F34) (keepFixed c!"bootloader" Version.F34) (setToObj F34_Bootloader.info.op.defaults F34_Bootloader.init) :=
  plain_locked (o := unMd5 ((FC3_Bootloader.strOut F21_Bootloader.args))) (keepBootloaderSheet Version.F34) (fun args n => F17_Bootloader.unlocked _ _ args n) (fun d hL => keep_unlocked (by decide +kernel) hL) (fun d hp => unMd5_render (hp.2.2 _ (.head _))) (fun a b h => F17_Bootloader.same h (by decide +kernel)) (by decide +kernel) (by decide +kernel) (by decide +kernel)

theorem keeps_FC4_Bootloader : FC4_Bootloader.cls.SelfNormal (keepBootloaderSheet Version.F7) (keepNeeds c!"bootloader" Version.F7) (keepFixed c!"bootloader" Version.F7) (setToObj FC4_Bootloader.info.op.defaults FC4_Bootloader.init) :=
  plain_opts (o := (FC3_Bootloader.strOut FC4_Bootloader.args)) (T := [c!"seen"]) (keepBootloaderSheet Version.F7) (fun args n => FC4_Bootloader.selfed _ _ args n _ (by decide)) (fun _ _ => rfl) (fun a b h => FC4_Bootloader.same h) (by decide) (by decide) (by decide +kernel) (by decide +kernel)

theorem keeps_RHEL5_Bootloader : RHEL5_Bootloader.cls.SelfNormal (keepBootloaderSheet Version.RHEL5) (keepNeeds c!"bootloader" Version.RHEL5) (keepFixed c!"bootloader" Version.RHEL5) (setToObj RHEL5_Bootloader.info.op.defaults RHEL5_Bootloader.init) :=
  plain_opts (o := (FC3_Bootloader.strOut RHEL5_Bootloader.args)) (T := [c!"seen"]) (keepBootloaderSheet Version.RHEL5) (fun args n => FC4_Bootloader.selfed _ _ args n _ (by decide)) (fun _ _ => rfl) (fun a b h => FC4_Bootloader.same h) (by decide) (by decide) (by decide +kernel) (by decide +kernel)

theorem keeps_RHEL6_Bootloader_t : RHEL6_Bootloader.cls.SelfNormal (keepBootloaderSheet Version.RHEL6) (keepNeeds c!"bootloader" Version.RHEL6) (keepFixed c!"bootloader" Version.RHEL6) (setToObj RHEL6_Bootloader.info.op.defaults RHEL6_Bootloader.init) :=
  plain_locked (o := unMd5 ((FC3_Bootloader.strOut RHEL6_Bootloader.args))) (keepBootloaderSheet Version.RHEL6) (fun args n => RHEL6_Bootloader.unlocked _ _ args n) (fun d hL => keep_unlocked (by decide +kernel) hL) (fun d hp => unMd5_render (hp.2.2 _ (.head _))) (fun a b h => RHEL6_Bootloader.same h (by decide +kernel)) (by decide +kernel) (by decide +kernel) (by decide +kernel)

theorem keeps_RHEL7_Bootloader_t : RHEL7_Bootloader.cls.SelfNormal (keepBootloaderSheet Version.RHEL7) (keepNeeds c!"bootloader" Version.RHEL7) (keepFixed c!"bootloader" Version.RHEL7) (setToObj RHEL7_Bootloader.info.op.defaults RHEL7_Bootloader.init) :=
  plain_locked (o := unMd5 ((FC3_Bootloader.strOut F21_Bootloader.args))) (keepBootloaderSheet Version.RHEL7) (fun args n => F17_Bootloader.unlocked _ _ args n) (fun d hL => keep_unlocked (by decide +kernel) hL) (fun d hp => unMd5_render (hp.2.2 _ (.head _))) (fun a b h => F17_Bootloader.same h (by decide +kernel)) (by decide +kernel) (by decide +kernel) (by decide +kernel)

theorem keeps_RHEL8_Bootloader_t : RHEL8_Bootloader.cls.SelfNormal (keepBootloaderSheet Version.RHEL8) (keepNeeds c!"bootloader" Version.RHEL8) (keepFixed c!"bootloader" Version.RHEL8) (setToObj RHEL8_Bootloader.info.op.defaults RHEL8_Bootloader.init) :=
  plain_locked (o := unMd5 ((FC3_Bootloader.strOut F21_Bootloader.args))) (keepBootloaderSheet Version.RHEL8) (fun args n => F17_Bootloader.unlocked _ _ args n) (fun d hL => keep_unlocked (by decide +kernel) hL) (fun d hp => unMd5_render (hp.2.2 _ (.head _))) (fun a b h => F17_Bootloader.same h (by decide +kernel)) (by decide +kernel) (by decide +kernel) (by decide +kernel)

/-- The values of `bootloader` after a line without options. -/
def bootloaderKeepBases : List (Nat × Ns) :=
  [(Version.F10, setToObj F8_Bootloader.info.op.defaults F8_Bootloader.init),
   (Version.F11, setToObj F8_Bootloader.info.op.defaults F8_Bootloader.init),
   (Version.F12, setToObj F12_Bootloader.info.op.defaults F12_Bootloader.init),
   (Version.F13, setToObj F12_Bootloader.info.op.defaults F12_Bootloader.init),
   (Version.F14, setToObj F14_Bootloader.info.op.defaults F14_Bootloader.init),
   (Version.F15, setToObj F15_Bootloader.info.op.defaults F15_Bootloader.init),
   (Version.F16, setToObj F15_Bootloader.info.op.defaults F15_Bootloader.init),
   (Version.F17, setToObj F17_Bootloader.info.op.defaults F17_Bootloader.init),
   (Version.F18, setToObj F18_Bootloader.info.op.defaults F18_Bootloader.init),
   (Version.F19, setToObj F19_Bootloader.info.op.defaults F19_Bootloader.init),
   (Version.F20, setToObj F19_Bootloader.info.op.defaults F19_Bootloader.init),
   (Version.F21, setToObj F21_Bootloader.info.op.defaults F21_Bootloader.init),
   (Version.F22, setToObj F21_Bootloader.info.op.defaults F21_Bootloader.init),
   (Version.F23, setToObj F21_Bootloader.info.op.defaults F21_Bootloader.init),
   (Version.F24, setToObj F21_Bootloader.info.op.defaults F21_Bootloader.init),
   (Version.F25, setToObj F21_Bootloader.info.op.defaults F21_Bootloader.init),
   (Version.F26, setToObj F21_Bootloader.info.op.defaults F21_Bootloader.init),
   (Version.F27, setToObj F21_Bootloader.info.op.defaults F21_Bootloader.init),
   (Version.F28, setToObj F21_Bootloader.info.op.defaults F21_Bootloader.init),
   (Version.F29, setToObj F29_Bootloader.info.op.defaults F29_Bootloader.init),
   (Version.F30, setToObj F29_Bootloader.info.op.defaults F29_Bootloader.init),
   (Version.F31, setToObj F29_Bootloader.info.op.defaults F29_Bootloader.init),
   (Version.F32, setToObj F29_Bootloader.info.op.defaults F29_Bootloader.init),
   (Version.F33, setToObj F29_Bootloader.info.op.defaults F29_Bootloader.init),
   (Version.F34, setToObj F34_Bootloader.info.op.defaults F34_Bootloader.init),
   (Version.F7, setToObj FC4_Bootloader.info.op.defaults FC4_Bootloader.init),
   (Version.F8, setToObj F8_Bootloader.info.op.defaults F8_Bootloader.init),
   (Version.F9, setToObj F8_Bootloader.info.op.defaults F8_Bootloader.init),
   (Version.FC4, setToObj FC4_Bootloader.info.op.defaults FC4_Bootloader.init),
   (Version.FC5, setToObj FC4_Bootloader.info.op.defaults FC4_Bootloader.init),
   (Version.FC6, setToObj FC4_Bootloader.info.op.defaults FC4_Bootloader.init),
   (Version.RHEL5, setToObj RHEL5_Bootloader.info.op.defaults RHEL5_Bootloader.init),
   (Version.RHEL6, setToObj RHEL6_Bootloader.info.op.defaults RHEL6_Bootloader.init),
   (Version.RHEL7, setToObj RHEL7_Bootloader.info.op.defaults RHEL7_Bootloader.init),
   (Version.RHEL8, setToObj RHEL8_Bootloader.info.op.defaults RHEL8_Bootloader.init)]

theorem keeps_bootloader : ∀ y ∈ commandMaps, ∀ c, y.2.lookup c!"bootloader" = some c → Version.FC4 ≤ y.1 → y.1 ≤ 1000000 → ¬ Command.IsDeprecated c → ¬ Command.IsRemoved c →
    ∃ base, bootloaderKeepBases.lookup y.1 = some base ∧ c.SelfNormal (keepBootloaderSheet y.1) (keepNeeds c!"bootloader" y.1) (keepFixed c!"bootloader" y.1) base := by
  unfold commandMaps
  exact (all_cons (fun c h hv hw hd hr => by cases h; exact ⟨_, rfl, keeps_F8_Bootloader⟩)
    (all_cons (fun c h hv hw hd hr => by cases h; exact ⟨_, rfl, keeps_F8_Bootloader⟩)
    (all_cons (fun c h hv hw hd hr => by cases h; exact ⟨_, rfl, keeps_F12_Bootloader⟩)
    (all_cons (fun c h hv hw hd hr => by cases h; exact ⟨_, rfl, keeps_F12_Bootloader⟩)
    (all_cons (fun c h hv hw hd hr => by cases h; exact ⟨_, rfl, keeps_F14_Bootloader⟩)
    (all_cons (fun c h hv hw hd hr => by cases h; exact ⟨_, rfl, keeps_F15_Bootloader_t⟩)
    (all_cons (fun c h hv hw hd hr => by cases h; exact ⟨_, rfl, keeps_F15_Bootloader_t⟩)
    (all_cons (fun c h hv hw hd hr => by cases h; exact ⟨_, rfl, keeps_F17_Bootloader_t⟩)
    (all_cons (fun c h hv hw hd hr => by cases h; exact ⟨_, rfl, keeps_F18_Bootloader_t⟩)
    (all_cons (fun c h hv hw hd hr => by cases h; exact ⟨_, rfl, keeps_F19_Bootloader_t⟩)
    (all_cons (fun c h hv hw hd hr => by cases h; exact ⟨_, rfl, keeps_F19_Bootloader_t⟩)
    (all_cons (fun c h hv hw hd hr => by cases h; exact ⟨_, rfl, keeps_F21_Bootloader_t⟩)
    (all_cons (fun c h hv hw hd hr => by cases h; exact ⟨_, rfl, keeps_F21_Bootloader_t⟩)
    (all_cons (fun c h hv hw hd hr => by cases h; exact ⟨_, rfl, keeps_F21_Bootloader_t⟩)
    (all_cons (fun c h hv hw hd hr => by cases h; exact ⟨_, rfl, keeps_F21_Bootloader_t⟩)
    (all_cons (fun c h hv hw hd hr => by cases h; exact ⟨_, rfl, keeps_F21_Bootloader_t⟩)
    (all_cons (fun c h hv hw hd hr => by cases h; exact ⟨_, rfl, keeps_F21_Bootloader_t⟩)
    (all_cons (fun c h hv hw hd hr => by cases h; exact ⟨_, rfl, keeps_F21_Bootloader_t⟩)
    (all_cons (fun c h hv hw hd hr => by cases h; exact ⟨_, rfl, keeps_F21_Bootloader_t⟩)
    (all_cons (fun c h hv hw hd hr => by cases h; exact ⟨_, rfl, keeps_F29_Bootloader_t⟩)
    (all_cons (fun c h hv hw hd hr => by cases h; exact ⟨_, rfl, keeps_F29_Bootloader_t⟩)
    (all_cons (fun c h hv hw hd hr => by cases h; exact ⟨_, rfl, keeps_F29_Bootloader_t⟩)
    (all_cons (fun c h hv hw hd hr => by cases h; exact ⟨_, rfl, keeps_F29_Bootloader_t⟩)
    (all_cons (fun c h hv hw hd hr => by cases h; exact ⟨_, rfl, keeps_F29_Bootloader_t⟩)
    (all_cons (fun c h hv hw hd hr => by cases h; exact ⟨_, rfl, keeps_F34_Bootloader_t⟩)
    (all_cons (fun c h hv hw hd hr => by cases h; exact ⟨_, rfl, keeps_FC4_Bootloader⟩)
    (all_cons (fun c h hv hw hd hr => by cases h; exact ⟨_, rfl, keeps_F8_Bootloader⟩)
    (all_cons (fun c h hv hw hd hr => by cases h; exact ⟨_, rfl, keeps_F8_Bootloader⟩)
    (all_cons (fun c h hv hw hd hr => absurd hv (by decide))
    (all_cons (fun c h hv hw hd hr => by cases h; exact ⟨_, rfl, keeps_FC4_Bootloader⟩)
    (all_cons (fun c h hv hw hd hr => by cases h; exact ⟨_, rfl, keeps_FC4_Bootloader⟩)
    (all_cons (fun c h hv hw hd hr => by cases h; exact ⟨_, rfl, keeps_FC4_Bootloader⟩)
    (all_cons (fun c h hv hw hd hr => absurd hv (by decide))
    (all_cons (fun c h hv hw hd hr => absurd hv (by decide))
    (all_cons (fun c h hv hw hd hr => by cases h; exact ⟨_, rfl, keeps_RHEL5_Bootloader⟩)
    (all_cons (fun c h hv hw hd hr => by cases h; exact ⟨_, rfl, keeps_RHEL6_Bootloader_t⟩)
    (all_cons (fun c h hv hw hd hr => by cases h; exact ⟨_, rfl, keeps_RHEL7_Bootloader_t⟩)
    (all_cons (fun c h hv hw hd hr => by cases h; exact ⟨_, rfl, keeps_RHEL8_Bootloader_t⟩) (List.forall_mem_nil _)))))))))))))))))))))))))))))))))))))))

end Ks.Cmd
