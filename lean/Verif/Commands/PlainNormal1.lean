import Verif.Commands.PlainNormalLock
import Verif.Commands.SelfBack1
/-!
# Commands without data lists accept their text, class by class

Written by `scripts/gen_plainnormal.py`.
-/
namespace Ks.Cmd

set_option linter.unusedVariables false

theorem keeps_F9_AutoPart : F9_AutoPart.cls.SelfNormal (autopartSheet Version.F10) (keepNeeds c!"autopart" Version.F10) (keepFixed c!"autopart" Version.F10) (setToObj F9_AutoPart.info.op.defaults F9_AutoPart.init) :=
  plain_opts (o := F9_AutoPart.strOut) (T := [c!"autopart", c!"seen"]) (autopartSheet Version.F10) (fun args n => F9_AutoPart.selfed _ _ args n _ (by decide)) (fun _ _ => rfl) (fun a b h => F9_AutoPart.same h) (by decide) (by decide) (by decide +kernel) (by decide +kernel)

theorem keeps_F12_AutoPart : F12_AutoPart.cls.SelfNormal (autopartSheet Version.F12) (keepNeeds c!"autopart" Version.F12) (keepFixed c!"autopart" Version.F12) (setToObj F12_AutoPart.info.op.defaults F12_AutoPart.init) :=
  plain_opts (o := F12_AutoPart.out ++ [(apOn, [.lit c!"\n"])]) (T := [c!"autopart", c!"seen"]) (autopartSheet Version.F12) (fun args n => F9_AutoPart.selfed _ _ args n _ (by decide)) (fun d hp => F12_AutoPart.lined.render ⟨hp.2.1, hp.1⟩) (fun a b h => F9_AutoPart.same h) (by decide) (by decide) (by decide +kernel) (by decide +kernel)

theorem keeps_F16_AutoPart : F16_AutoPart.cls.SelfNormal (autopartSheet Version.F16) (keepNeeds c!"autopart" Version.F16) (keepFixed c!"autopart" Version.F16) (setToObj F16_AutoPart.info.op.defaults F16_AutoPart.init) :=
  plain_opts (o := F16_AutoPart.out ++ [(apOn, [.lit c!"\n"])]) (T := [c!"autopart", c!"seen"]) (autopartSheet Version.F16) (fun args n => F9_AutoPart.selfed _ _ args n _ (by decide)) (fun d hp => F16_AutoPart.lined.render ⟨hp.2.1, hp.1⟩) (fun a b h => F9_AutoPart.same h) (by decide) (by decide) (by decide +kernel) (by decide +kernel)

theorem keeps_F17_AutoPart : F17_AutoPart.cls.SelfNormal (autopartSheet Version.F17) (keepNeeds c!"autopart" Version.F17) (keepFixed c!"autopart" Version.F17) (setToObj F17_AutoPart.info.op.defaults F17_AutoPart.init) :=
  plain_opts (o := F17_AutoPart.out ++ [(apOn, [.lit c!"\n"])]) (T := [c!"autopart", c!"seen"]) (autopartSheet Version.F17) (fun args n => F17_AutoPart.selfed _ _ args n _ (by decide) (by decide +kernel) (by decide +kernel)) (fun d hp => F17_AutoPart.lined.render ⟨hp.2.1, hp.1⟩) (fun a b h => F17_AutoPart.same h) (by decide) (by decide) (by decide +kernel) (by decide +kernel)

theorem keeps_F18_AutoPart : F18_AutoPart.cls.SelfNormal (autopartSheet Version.F18) (keepNeeds c!"autopart" Version.F18) (keepFixed c!"autopart" Version.F18) (setToObj F18_AutoPart.info.op.defaults F18_AutoPart.init) :=
  plain_opts (o := F18_AutoPart.out ++ [(apOn, [.lit c!"\n"])]) (T := [c!"autopart", c!"seen"]) (autopartSheet Version.F18) (fun args n => F17_AutoPart.selfed _ _ args n _ (by decide) (by decide +kernel) (by decide +kernel)) (fun d hp => F18_AutoPart.lined.render ⟨hp.2.1, hp.1⟩) (fun a b h => F17_AutoPart.same h) (by decide) (by decide) (by decide +kernel) (by decide +kernel)

theorem keeps_F20_AutoPart : F20_AutoPart.cls.SelfNormal (autopartSheet Version.F20) (keepNeeds c!"autopart" Version.F20) (keepFixed c!"autopart" Version.F20) (setToObj F20_AutoPart.info.op.defaults F20_AutoPart.init) :=
  plain_opts (o := F18_AutoPart.T.out ++ [(apOn, [.lit c!"\n"])]) (T := [c!"autopart", c!"seen"]) (autopartSheet Version.F20) (fun args n => F20_AutoPart.selfed _ _ args n _ (by decide) (by decide +kernel) (by decide +kernel)) (fun d hp => F18_AutoPart.T.lined.render ⟨hp.2.1, hp.1⟩) (fun a b h => F20_AutoPart.same h) (by decide) (by decide) (by decide +kernel) (by decide +kernel)

theorem keeps_F21_AutoPart : F21_AutoPart.cls.SelfNormal (autopartSheet Version.F21) (keepNeeds c!"autopart" Version.F21) (keepFixed c!"autopart" Version.F21) (setToObj F21_AutoPart.info.op.defaults F21_AutoPart.init) :=
  plain_opts (o := F21_AutoPart.out ++ [(apOn, [.lit c!"\n"])]) (T := [c!"autopart", c!"seen"]) (autopartSheet Version.F21) (fun args n => F21_AutoPart.selfed _ _ args n _ (by decide) (by decide +kernel) (by decide +kernel)) (fun d hp => F21_AutoPart.lined.render ⟨hp.2.1, hp.1⟩) (fun a b h => F21_AutoPart.same h) (by decide) (by decide) (by decide +kernel) (by decide +kernel)

theorem keeps_F23_AutoPart : F23_AutoPart.cls.SelfNormal (autopartSheet Version.F23) (keepNeeds c!"autopart" Version.F23) (keepFixed c!"autopart" Version.F23) (setToObj F23_AutoPart.info.op.defaults F23_AutoPart.init) :=
  plain_opts (o := F21_AutoPart.out ++ [(apOn, [.lit c!"\n"])]) (T := [c!"autopart", c!"seen"]) (autopartSheet Version.F23) (fun args n => F23_AutoPart.selfed _ _ args n _ (by decide) (by decide +kernel) (by decide +kernel)) (fun d hp => F21_AutoPart.lined.render ⟨hp.2.1, hp.1⟩) (fun a b h => F23_AutoPart.same h) (by decide) (by decide) (by decide +kernel) (by decide +kernel)

theorem keeps_F26_AutoPart : F26_AutoPart.cls.SelfNormal (autopartSheet Version.F26) (keepNeeds c!"autopart" Version.F26) (keepFixed c!"autopart" Version.F26) (setToObj F26_AutoPart.info.op.defaults F26_AutoPart.init) :=
  plain_opts (o := F26_AutoPart.out ++ [(apOn, [.lit c!"\n"])]) (T := [c!"autopart", c!"seen"]) (autopartSheet Version.F26) (fun args n => F23_AutoPart.selfed _ _ args n _ (by decide) (by decide +kernel) (by decide +kernel)) (fun d hp => F26_AutoPart.lined.render ⟨hp.2.1, hp.1⟩) (fun a b h => F23_AutoPart.same h) (by decide) (by decide) (by decide +kernel) (by decide +kernel)

theorem keeps_F29_AutoPart : F29_AutoPart.cls.SelfNormal (autopartSheet Version.F29) (keepNeeds c!"autopart" Version.F29) (keepFixed c!"autopart" Version.F29) (setToObj F29_AutoPart.info.op.defaults F29_AutoPart.init) :=
  plain_opts (o := F29_AutoPart.out ++ [(apOn, [.lit c!"\n"])]) (T := [c!"autopart", c!"seen"]) (autopartSheet Version.F29) (fun args n => F29_AutoPart.selfed _ _ args n _ (by decide) (by decide +kernel) (by decide +kernel)) (fun d hp => F29_AutoPart.lined.render ⟨hp.2.1, hp.1⟩) (fun a b h => F29_AutoPart.same h) (by decide) (by decide) (by decide +kernel) (by decide +kernel)

theorem keeps_RHEL6_AutoPart : RHEL6_AutoPart.cls.SelfNormal (autopartSheet Version.RHEL6) (keepNeeds c!"autopart" Version.RHEL6) (keepFixed c!"autopart" Version.RHEL6) (setToObj RHEL6_AutoPart.info.op.defaults RHEL6_AutoPart.init) :=
  plain_opts (o := RHEL6_AutoPart.out ++ [(apOn, [.lit c!"\n"])]) (T := [c!"autopart", c!"seen"]) (autopartSheet Version.RHEL6) (fun args n => RHEL6_AutoPart.selfed _ _ args n _ (by decide)) (fun d hp => RHEL6_AutoPart.lined.render ⟨hp.2.1, hp.1⟩) (fun a b h => RHEL6_AutoPart.same h) (by decide) (by decide) (by decide +kernel) (by decide +kernel)

theorem keeps_RHEL7_AutoPart : RHEL7_AutoPart.cls.SelfNormal (autopartSheet Version.RHEL7) (keepNeeds c!"autopart" Version.RHEL7) (keepFixed c!"autopart" Version.RHEL7) (setToObj RHEL7_AutoPart.info.op.defaults RHEL7_AutoPart.init) :=
  plain_opts (o := RHEL7_AutoPart.out ++ [(apOn, [.lit c!"\n"])]) (T := [c!"autopart", c!"seen"]) (autopartSheet Version.RHEL7) (fun args n => RHEL7_AutoPart.selfed _ _ args n _ (by decide) (by decide +kernel) (by decide +kernel)) (fun d hp => RHEL7_AutoPart.lined.render ⟨hp.2.1, hp.1⟩) (fun a b h => RHEL7_AutoPart.same h) (by decide) (by decide) (by decide +kernel) (by decide +kernel)

theorem keeps_RHEL8_AutoPart : RHEL8_AutoPart.cls.SelfNormal (autopartSheet Version.RHEL8) (keepNeeds c!"autopart" Version.RHEL8) (keepFixed c!"autopart" Version.RHEL8) (setToObj RHEL8_AutoPart.info.op.defaults RHEL8_AutoPart.init) :=
  plain_opts (o := F29_AutoPart.out ++ [(apOn, [.lit c!"\n"])]) (T := [c!"autopart", c!"seen"]) (autopartSheet Version.RHEL8) (fun args n => RHEL8_AutoPart.selfed _ _ args n _ (by decide) (by decide +kernel) (by decide +kernel)) (fun d hp => F29_AutoPart.lined.render ⟨hp.2.1, hp.1⟩) (fun a b h => RHEL8_AutoPart.same h) (by decide) (by decide) (by decide +kernel) (by decide +kernel)

/-- The values of `autopart` after a line without options. -/
def autopartKeepBases : List (Nat × Ns) :=
  [(Version.F10, setToObj F9_AutoPart.info.op.defaults F9_AutoPart.init),
   (Version.F11, setToObj F9_AutoPart.info.op.defaults F9_AutoPart.init),
   (Version.F12, setToObj F12_AutoPart.info.op.defaults F12_AutoPart.init),
   (Version.F13, setToObj F12_AutoPart.info.op.defaults F12_AutoPart.init),
   (Version.F14, setToObj F12_AutoPart.info.op.defaults F12_AutoPart.init),
   (Version.F15, setToObj F12_AutoPart.info.op.defaults F12_AutoPart.init),
   (Version.F16, setToObj F16_AutoPart.info.op.defaults F16_AutoPart.init),
   (Version.F17, setToObj F17_AutoPart.info.op.defaults F17_AutoPart.init),
   (Version.F18, setToObj F18_AutoPart.info.op.defaults F18_AutoPart.init),
   (Version.F19, setToObj F18_AutoPart.info.op.defaults F18_AutoPart.init),
   (Version.F20, setToObj F20_AutoPart.info.op.defaults F20_AutoPart.init),
   (Version.F21, setToObj F21_AutoPart.info.op.defaults F21_AutoPart.init),
   (Version.F22, setToObj F21_AutoPart.info.op.defaults F21_AutoPart.init),
   (Version.F23, setToObj F23_AutoPart.info.op.defaults F23_AutoPart.init),
   (Version.F24, setToObj F23_AutoPart.info.op.defaults F23_AutoPart.init),
   (Version.F25, setToObj F23_AutoPart.info.op.defaults F23_AutoPart.init),
   (Version.F26, setToObj F26_AutoPart.info.op.defaults F26_AutoPart.init),
   (Version.F27, setToObj F26_AutoPart.info.op.defaults F26_AutoPart.init),
   (Version.F28, setToObj F26_AutoPart.info.op.defaults F26_AutoPart.init),
   (Version.F29, setToObj F29_AutoPart.info.op.defaults F29_AutoPart.init),
   (Version.F30, setToObj F29_AutoPart.info.op.defaults F29_AutoPart.init),
   (Version.F31, setToObj F29_AutoPart.info.op.defaults F29_AutoPart.init),
   (Version.F32, setToObj F29_AutoPart.info.op.defaults F29_AutoPart.init),
   (Version.F33, setToObj F29_AutoPart.info.op.defaults F29_AutoPart.init),
   (Version.F34, setToObj F29_AutoPart.info.op.defaults F29_AutoPart.init),
   (Version.F9, setToObj F9_AutoPart.info.op.defaults F9_AutoPart.init),
   (Version.RHEL6, setToObj RHEL6_AutoPart.info.op.defaults RHEL6_AutoPart.init),
   (Version.RHEL7, setToObj RHEL7_AutoPart.info.op.defaults RHEL7_AutoPart.init),
   (Version.RHEL8, setToObj RHEL8_AutoPart.info.op.defaults RHEL8_AutoPart.init)]

theorem keeps_autopart : ∀ y ∈ commandMaps, ∀ c, y.2.lookup c!"autopart" = some c → Version.F9 ≤ y.1 → y.1 ≤ 1000000 → ¬ Command.IsDeprecated c → ¬ Command.IsRemoved c →
    ∃ base, autopartKeepBases.lookup y.1 = some base ∧ c.SelfNormal (autopartSheet y.1) (keepNeeds c!"autopart" y.1) (keepFixed c!"autopart" y.1) base := by
  unfold commandMaps
  exact (all_cons (fun c h hv hw hd hr => by cases h; exact ⟨_, rfl, keeps_F9_AutoPart⟩)
    (all_cons (fun c h hv hw hd hr => by cases h; exact ⟨_, rfl, keeps_F9_AutoPart⟩)
    (all_cons (fun c h hv hw hd hr => by cases h; exact ⟨_, rfl, keeps_F12_AutoPart⟩)
    (all_cons (fun c h hv hw hd hr => by cases h; exact ⟨_, rfl, keeps_F12_AutoPart⟩)
    (all_cons (fun c h hv hw hd hr => by cases h; exact ⟨_, rfl, keeps_F12_AutoPart⟩)
    (all_cons (fun c h hv hw hd hr => by cases h; exact ⟨_, rfl, keeps_F12_AutoPart⟩)
    (all_cons (fun c h hv hw hd hr => by cases h; exact ⟨_, rfl, keeps_F16_AutoPart⟩)
    (all_cons (fun c h hv hw hd hr => by cases h; exact ⟨_, rfl, keeps_F17_AutoPart⟩)
    (all_cons (fun c h hv hw hd hr => by cases h; exact ⟨_, rfl, keeps_F18_AutoPart⟩)
    (all_cons (fun c h hv hw hd hr => by cases h; exact ⟨_, rfl, keeps_F18_AutoPart⟩)
    (all_cons (fun c h hv hw hd hr => by cases h; exact ⟨_, rfl, keeps_F20_AutoPart⟩)
    (all_cons (fun c h hv hw hd hr => by cases h; exact ⟨_, rfl, keeps_F21_AutoPart⟩)
    (all_cons (fun c h hv hw hd hr => by cases h; exact ⟨_, rfl, keeps_F21_AutoPart⟩)
    (all_cons (fun c h hv hw hd hr => by cases h; exact ⟨_, rfl, keeps_F23_AutoPart⟩)
    (all_cons (fun c h hv hw hd hr => by cases h; exact ⟨_, rfl, keeps_F23_AutoPart⟩)
    (all_cons (fun c h hv hw hd hr => by cases h; exact ⟨_, rfl, keeps_F23_AutoPart⟩)
    (all_cons (fun c h hv hw hd hr => by cases h; exact ⟨_, rfl, keeps_F26_AutoPart⟩)
    (all_cons (fun c h hv hw hd hr => by cases h; exact ⟨_, rfl, keeps_F26_AutoPart⟩)
    (all_cons (fun c h hv hw hd hr => by cases h; exact ⟨_, rfl, keeps_F26_AutoPart⟩)
    (all_cons (fun c h hv hw hd hr => by cases h; exact ⟨_, rfl, keeps_F29_AutoPart⟩)
    (all_cons (fun c h hv hw hd hr => by cases h; exact ⟨_, rfl, keeps_F29_AutoPart⟩)
    (all_cons (fun c h hv hw hd hr => by cases h; exact ⟨_, rfl, keeps_F29_AutoPart⟩)
    (all_cons (fun c h hv hw hd hr => by cases h; exact ⟨_, rfl, keeps_F29_AutoPart⟩)
    (all_cons (fun c h hv hw hd hr => by cases h; exact ⟨_, rfl, keeps_F29_AutoPart⟩)
    (all_cons (fun c h hv hw hd hr => by cases h; exact ⟨_, rfl, keeps_F29_AutoPart⟩)
    (all_cons (fun c h hv hw hd hr => absurd hv (by decide))
    (all_cons (fun c h hv hw hd hr => absurd hv (by decide))
    (all_cons (fun c h hv hw hd hr => by cases h; exact ⟨_, rfl, keeps_F9_AutoPart⟩)
    (all_cons (fun c h hv hw hd hr => absurd hv (by decide))
    (all_cons (fun c h hv hw hd hr => absurd hv (by decide))
    (all_cons (fun c h hv hw hd hr => absurd hv (by decide))
    (all_cons (fun c h hv hw hd hr => absurd hv (by decide))
    (all_cons (fun c h hv hw hd hr => absurd hv (by decide))
    (all_cons (fun c h hv hw hd hr => absurd hv (by decide))
    (all_cons (fun c h hv hw hd hr => absurd hv (by decide))
    (all_cons (fun c h hv hw hd hr => by cases h; exact ⟨_, rfl, keeps_RHEL6_AutoPart⟩)
    (all_cons (fun c h hv hw hd hr => by cases h; exact ⟨_, rfl, keeps_RHEL7_AutoPart⟩)
    (all_cons (fun c h hv hw hd hr => by cases h; exact ⟨_, rfl, keeps_RHEL8_AutoPart⟩) (List.forall_mem_nil _)))))))))))))))))))))))))))))))))))))))

theorem keeps_FC3_AutoStep : FC3_AutoStep.cls.SelfNormal (autostepSheet Version.F10) (keepNeeds c!"autostep" Version.F10) (keepFixed c!"autostep" Version.F10) (setToObj FC3_AutoStep.info.op.defaults FC3_AutoStep.init) :=
  plain_opts (o := FC3_AutoStep.strOut) (T := [c!"autostep", c!"seen"]) (autostepSheet Version.F10) (fun args n => FC3_AutoStep.selfed _ _ args n _ (by decide)) (fun _ _ => rfl) (fun a b h => FC3_AutoStep.same h) (by decide) (by decide) (by decide +kernel) (by decide +kernel)

/-- The values of `autostep` after a line without options. -/
def autostepKeepBases : List (Nat × Ns) :=
  [(Version.F10, setToObj FC3_AutoStep.info.op.defaults FC3_AutoStep.init),
   (Version.F11, setToObj FC3_AutoStep.info.op.defaults FC3_AutoStep.init),
   (Version.F12, setToObj FC3_AutoStep.info.op.defaults FC3_AutoStep.init),
   (Version.F13, setToObj FC3_AutoStep.info.op.defaults FC3_AutoStep.init),
   (Version.F14, setToObj FC3_AutoStep.info.op.defaults FC3_AutoStep.init),
   (Version.F15, setToObj FC3_AutoStep.info.op.defaults FC3_AutoStep.init),
   (Version.F16, setToObj FC3_AutoStep.info.op.defaults FC3_AutoStep.init),
   (Version.F17, setToObj FC3_AutoStep.info.op.defaults FC3_AutoStep.init),
   (Version.F18, setToObj FC3_AutoStep.info.op.defaults FC3_AutoStep.init),
   (Version.F19, setToObj FC3_AutoStep.info.op.defaults FC3_AutoStep.init),
   (Version.F20, setToObj FC3_AutoStep.info.op.defaults FC3_AutoStep.init),
   (Version.F21, setToObj FC3_AutoStep.info.op.defaults FC3_AutoStep.init),
   (Version.F22, setToObj FC3_AutoStep.info.op.defaults FC3_AutoStep.init),
   (Version.F23, setToObj FC3_AutoStep.info.op.defaults FC3_AutoStep.init),
   (Version.F24, setToObj FC3_AutoStep.info.op.defaults FC3_AutoStep.init),
   (Version.F25, setToObj FC3_AutoStep.info.op.defaults FC3_AutoStep.init),
   (Version.F26, setToObj FC3_AutoStep.info.op.defaults FC3_AutoStep.init),
   (Version.F27, setToObj FC3_AutoStep.info.op.defaults FC3_AutoStep.init),
   (Version.F28, setToObj FC3_AutoStep.info.op.defaults FC3_AutoStep.init),
   (Version.F29, setToObj FC3_AutoStep.info.op.defaults FC3_AutoStep.init),
   (Version.F30, setToObj FC3_AutoStep.info.op.defaults FC3_AutoStep.init),
   (Version.F31, setToObj FC3_AutoStep.info.op.defaults FC3_AutoStep.init),
   (Version.F32, setToObj FC3_AutoStep.info.op.defaults FC3_AutoStep.init),
   (Version.F33, setToObj FC3_AutoStep.info.op.defaults FC3_AutoStep.init),
   (Version.F7, setToObj FC3_AutoStep.info.op.defaults FC3_AutoStep.init),
   (Version.F8, setToObj FC3_AutoStep.info.op.defaults FC3_AutoStep.init),
   (Version.F9, setToObj FC3_AutoStep.info.op.defaults FC3_AutoStep.init),
   (Version.FC3, setToObj FC3_AutoStep.info.op.defaults FC3_AutoStep.init),
   (Version.FC4, setToObj FC3_AutoStep.info.op.defaults FC3_AutoStep.init),
   (Version.FC5, setToObj FC3_AutoStep.info.op.defaults FC3_AutoStep.init),
   (Version.FC6, setToObj FC3_AutoStep.info.op.defaults FC3_AutoStep.init),
   (Version.RHEL3, setToObj FC3_AutoStep.info.op.defaults FC3_AutoStep.init),
   (Version.RHEL4, setToObj FC3_AutoStep.info.op.defaults FC3_AutoStep.init),
   (Version.RHEL5, setToObj FC3_AutoStep.info.op.defaults FC3_AutoStep.init),
   (Version.RHEL6, setToObj FC3_AutoStep.info.op.defaults FC3_AutoStep.init),
   (Version.RHEL7, setToObj FC3_AutoStep.info.op.defaults FC3_AutoStep.init),
   (Version.RHEL8, setToObj FC3_AutoStep.info.op.defaults FC3_AutoStep.init)]

theorem keeps_autostep : ∀ y ∈ commandMaps, ∀ c, y.2.lookup c!"autostep" = some c → 0 ≤ y.1 → y.1 ≤ 1000000 → ¬ Command.IsDeprecated c → ¬ Command.IsRemoved c →
    ∃ base, autostepKeepBases.lookup y.1 = some base ∧ c.SelfNormal (autostepSheet y.1) (keepNeeds c!"autostep" y.1) (keepFixed c!"autostep" y.1) base := by
  unfold commandMaps
  exact (all_cons (fun c h hv hw hd hr => by cases h; exact ⟨_, rfl, keeps_FC3_AutoStep⟩)
    (all_cons (fun c h hv hw hd hr => by cases h; exact ⟨_, rfl, keeps_FC3_AutoStep⟩)
    (all_cons (fun c h hv hw hd hr => by cases h; exact ⟨_, rfl, keeps_FC3_AutoStep⟩)
    (all_cons (fun c h hv hw hd hr => by cases h; exact ⟨_, rfl, keeps_FC3_AutoStep⟩)
    (all_cons (fun c h hv hw hd hr => by cases h; exact ⟨_, rfl, keeps_FC3_AutoStep⟩)
    (all_cons (fun c h hv hw hd hr => by cases h; exact ⟨_, rfl, keeps_FC3_AutoStep⟩)
    (all_cons (fun c h hv hw hd hr => by cases h; exact ⟨_, rfl, keeps_FC3_AutoStep⟩)
    (all_cons (fun c h hv hw hd hr => by cases h; exact ⟨_, rfl, keeps_FC3_AutoStep⟩)
    (all_cons (fun c h hv hw hd hr => by cases h; exact ⟨_, rfl, keeps_FC3_AutoStep⟩)
    (all_cons (fun c h hv hw hd hr => by cases h; exact ⟨_, rfl, keeps_FC3_AutoStep⟩)
    (all_cons (fun c h hv hw hd hr => by cases h; exact ⟨_, rfl, keeps_FC3_AutoStep⟩)
    (all_cons (fun c h hv hw hd hr => by cases h; exact ⟨_, rfl, keeps_FC3_AutoStep⟩)
    (all_cons (fun c h hv hw hd hr => by cases h; exact ⟨_, rfl, keeps_FC3_AutoStep⟩)
    (all_cons (fun c h hv hw hd hr => by cases h; exact ⟨_, rfl, keeps_FC3_AutoStep⟩)
    (all_cons (fun c h hv hw hd hr => by cases h; exact ⟨_, rfl, keeps_FC3_AutoStep⟩)
    (all_cons (fun c h hv hw hd hr => by cases h; exact ⟨_, rfl, keeps_FC3_AutoStep⟩)
    (all_cons (fun c h hv hw hd hr => by cases h; exact ⟨_, rfl, keeps_FC3_AutoStep⟩)
    (all_cons (fun c h hv hw hd hr => by cases h; exact ⟨_, rfl, keeps_FC3_AutoStep⟩)
    (all_cons (fun c h hv hw hd hr => by cases h; exact ⟨_, rfl, keeps_FC3_AutoStep⟩)
    (all_cons (fun c h hv hw hd hr => by cases h; exact ⟨_, rfl, keeps_FC3_AutoStep⟩)
    (all_cons (fun c h hv hw hd hr => by cases h; exact ⟨_, rfl, keeps_FC3_AutoStep⟩)
    (all_cons (fun c h hv hw hd hr => by cases h; exact ⟨_, rfl, keeps_FC3_AutoStep⟩)
    (all_cons (fun c h hv hw hd hr => by cases h; exact ⟨_, rfl, keeps_FC3_AutoStep⟩)
    (all_cons (fun c h hv hw hd hr => by cases h; exact ⟨_, rfl, keeps_FC3_AutoStep⟩)
    (all_cons (fun c h hv hw hd hr => by cases h; exact absurd ⟨_, _, rfl⟩ hd)
    (all_cons (fun c h hv hw hd hr => by cases h; exact ⟨_, rfl, keeps_FC3_AutoStep⟩)
    (all_cons (fun c h hv hw hd hr => by cases h; exact ⟨_, rfl, keeps_FC3_AutoStep⟩)
    (all_cons (fun c h hv hw hd hr => by cases h; exact ⟨_, rfl, keeps_FC3_AutoStep⟩)
    (all_cons (fun c h hv hw hd hr => by cases h; exact ⟨_, rfl, keeps_FC3_AutoStep⟩)
    (all_cons (fun c h hv hw hd hr => by cases h; exact ⟨_, rfl, keeps_FC3_AutoStep⟩)
    (all_cons (fun c h hv hw hd hr => by cases h; exact ⟨_, rfl, keeps_FC3_AutoStep⟩)
    (all_cons (fun c h hv hw hd hr => by cases h; exact ⟨_, rfl, keeps_FC3_AutoStep⟩)
    (all_cons (fun c h hv hw hd hr => by cases h; exact ⟨_, rfl, keeps_FC3_AutoStep⟩)
    (all_cons (fun c h hv hw hd hr => by cases h; exact ⟨_, rfl, keeps_FC3_AutoStep⟩)
    (all_cons (fun c h hv hw hd hr => by cases h; exact ⟨_, rfl, keeps_FC3_AutoStep⟩)
    (all_cons (fun c h hv hw hd hr => by cases h; exact ⟨_, rfl, keeps_FC3_AutoStep⟩)
    (all_cons (fun c h hv hw hd hr => by cases h; exact ⟨_, rfl, keeps_FC3_AutoStep⟩)
    (all_cons (fun c h hv hw hd hr => by cases h; exact ⟨_, rfl, keeps_FC3_AutoStep⟩) (List.forall_mem_nil _)))))))))))))))))))))))))))))))))))))))

theorem keeps_FC3_ClearPart : FC3_ClearPart.cls.SelfNormal (clearpartSheet Version.F10) (keepNeeds c!"clearpart" Version.F10) (keepFixed c!"clearpart" Version.F10) (setToObj FC3_ClearPart.info.op.defaults FC3_ClearPart.init) :=
  plain_opts (o := FC3_ClearPart.strOut) (T := [c!"seen"]) (clearpartSheet Version.F10) (fun args n => FC3_ClearPart.selfed _ _ args n _ (by decide)) (fun _ _ => rfl) (fun a b h => FC3_ClearPart.same h) (by decide) (by decide) (by decide +kernel) (by decide +kernel)

/-- The values of `clearpart` after a line without options. -/
def clearpartKeepBases : List (Nat × Ns) :=
  [(Version.F10, setToObj FC3_ClearPart.info.op.defaults FC3_ClearPart.init),
   (Version.F11, setToObj FC3_ClearPart.info.op.defaults FC3_ClearPart.init),
   (Version.F12, setToObj FC3_ClearPart.info.op.defaults FC3_ClearPart.init),
   (Version.F13, setToObj FC3_ClearPart.info.op.defaults FC3_ClearPart.init),
   (Version.F14, setToObj FC3_ClearPart.info.op.defaults FC3_ClearPart.init),
   (Version.F15, setToObj FC3_ClearPart.info.op.defaults FC3_ClearPart.init),
   (Version.F16, setToObj FC3_ClearPart.info.op.defaults FC3_ClearPart.init),
   (Version.F7, setToObj FC3_ClearPart.info.op.defaults FC3_ClearPart.init),
   (Version.F8, setToObj FC3_ClearPart.info.op.defaults FC3_ClearPart.init),
   (Version.F9, setToObj FC3_ClearPart.info.op.defaults FC3_ClearPart.init),
   (Version.FC3, setToObj FC3_ClearPart.info.op.defaults FC3_ClearPart.init),
   (Version.FC4, setToObj FC3_ClearPart.info.op.defaults FC3_ClearPart.init),
   (Version.FC5, setToObj FC3_ClearPart.info.op.defaults FC3_ClearPart.init),
   (Version.FC6, setToObj FC3_ClearPart.info.op.defaults FC3_ClearPart.init),
   (Version.RHEL3, setToObj FC3_ClearPart.info.op.defaults FC3_ClearPart.init),
   (Version.RHEL4, setToObj FC3_ClearPart.info.op.defaults FC3_ClearPart.init),
   (Version.RHEL5, setToObj FC3_ClearPart.info.op.defaults FC3_ClearPart.init),
   (Version.RHEL6, setToObj FC3_ClearPart.info.op.defaults FC3_ClearPart.init)]

theorem keeps_clearpart : ∀ y ∈ commandMaps, ∀ c, y.2.lookup c!"clearpart" = some c → 0 ≤ y.1 → y.1 ≤ Version.F16 → ¬ Command.IsDeprecated c → ¬ Command.IsRemoved c →
    ∃ base, clearpartKeepBases.lookup y.1 = some base ∧ c.SelfNormal (clearpartSheet y.1) (keepNeeds c!"clearpart" y.1) (keepFixed c!"clearpart" y.1) base := by
  unfold commandMaps
  exact (all_cons (fun c h hv hw hd hr => by cases h; exact ⟨_, rfl, keeps_FC3_ClearPart⟩)
    (all_cons (fun c h hv hw hd hr => by cases h; exact ⟨_, rfl, keeps_FC3_ClearPart⟩)
    (all_cons (fun c h hv hw hd hr => by cases h; exact ⟨_, rfl, keeps_FC3_ClearPart⟩)
    (all_cons (fun c h hv hw hd hr => by cases h; exact ⟨_, rfl, keeps_FC3_ClearPart⟩)
    (all_cons (fun c h hv hw hd hr => by cases h; exact ⟨_, rfl, keeps_FC3_ClearPart⟩)
    (all_cons (fun c h hv hw hd hr => by cases h; exact ⟨_, rfl, keeps_FC3_ClearPart⟩)
    (all_cons (fun c h hv hw hd hr => by cases h; exact ⟨_, rfl, keeps_FC3_ClearPart⟩)
    (all_cons (fun c h hv hw hd hr => absurd hw (by decide))
    (all_cons (fun c h hv hw hd hr => absurd hw (by decide))
    (all_cons (fun c h hv hw hd hr => absurd hw (by decide))
    (all_cons (fun c h hv hw hd hr => absurd hw (by decide))
    (all_cons (fun c h hv hw hd hr => absurd hw (by decide))
    (all_cons (fun c h hv hw hd hr => absurd hw (by decide))
    (all_cons (fun c h hv hw hd hr => absurd hw (by decide))
    (all_cons (fun c h hv hw hd hr => absurd hw (by decide))
    (all_cons (fun c h hv hw hd hr => absurd hw (by decide))
    (all_cons (fun c h hv hw hd hr => absurd hw (by decide))
    (all_cons (fun c h hv hw hd hr => absurd hw (by decide))
    (all_cons (fun c h hv hw hd hr => absurd hw (by decide))
    (all_cons (fun c h hv hw hd hr => absurd hw (by decide))
    (all_cons (fun c h hv hw hd hr => absurd hw (by decide))
    (all_cons (fun c h hv hw hd hr => absurd hw (by decide))
    (all_cons (fun c h hv hw hd hr => absurd hw (by decide))
    (all_cons (fun c h hv hw hd hr => absurd hw (by decide))
    (all_cons (fun c h hv hw hd hr => absurd hw (by decide))
    (all_cons (fun c h hv hw hd hr => by cases h; exact ⟨_, rfl, keeps_FC3_ClearPart⟩)
    (all_cons (fun c h hv hw hd hr => by cases h; exact ⟨_, rfl, keeps_FC3_ClearPart⟩)
    (all_cons (fun c h hv hw hd hr => by cases h; exact ⟨_, rfl, keeps_FC3_ClearPart⟩)
    (all_cons (fun c h hv hw hd hr => by cases h; exact ⟨_, rfl, keeps_FC3_ClearPart⟩)
    (all_cons (fun c h hv hw hd hr => by cases h; exact ⟨_, rfl, keeps_FC3_ClearPart⟩)
    (all_cons (fun c h hv hw hd hr => by cases h; exact ⟨_, rfl, keeps_FC3_ClearPart⟩)
    (all_cons (fun c h hv hw hd hr => by cases h; exact ⟨_, rfl, keeps_FC3_ClearPart⟩)
    (all_cons (fun c h hv hw hd hr => by cases h; exact ⟨_, rfl, keeps_FC3_ClearPart⟩)
    (all_cons (fun c h hv hw hd hr => by cases h; exact ⟨_, rfl, keeps_FC3_ClearPart⟩)
    (all_cons (fun c h hv hw hd hr => by cases h; exact ⟨_, rfl, keeps_FC3_ClearPart⟩)
    (all_cons (fun c h hv hw hd hr => by cases h; exact ⟨_, rfl, keeps_FC3_ClearPart⟩)
    (all_cons (fun c h hv hw hd hr => absurd hw (by decide))
    (all_cons (fun c h hv hw hd hr => absurd hw (by decide)) (List.forall_mem_nil _)))))))))))))))))))))))))))))))))))))))

theorem keeps_F20_Eula : F20_Eula.cls.SelfNormal (eulaSheet Version.F20) (keepNeeds c!"eula" Version.F20) (keepFixed c!"eula" Version.F20) (setToObj F20_Eula.info.op.defaults F20_Eula.init) :=
  plain_opts (o := (F20_Eula.strOut F20_Eula.args)) (T := [c!"seen"]) (eulaSheet Version.F20) (fun args n => F20_Eula.selfed _ _ args n _ (by decide)) (fun _ _ => rfl) (fun a b h => F20_Eula.same h) (by decide) (by decide) (by decide +kernel) (by decide +kernel)

/-- The values of `eula` after a line without options. -/
def eulaKeepBases : List (Nat × Ns) :=
  [(Version.F20, setToObj F20_Eula.info.op.defaults F20_Eula.init),
   (Version.F21, setToObj F20_Eula.info.op.defaults F20_Eula.init),
   (Version.F22, setToObj F20_Eula.info.op.defaults F20_Eula.init),
   (Version.F23, setToObj F20_Eula.info.op.defaults F20_Eula.init),
   (Version.F24, setToObj F20_Eula.info.op.defaults F20_Eula.init),
   (Version.F25, setToObj F20_Eula.info.op.defaults F20_Eula.init),
   (Version.F26, setToObj F20_Eula.info.op.defaults F20_Eula.init),
   (Version.F27, setToObj F20_Eula.info.op.defaults F20_Eula.init),
   (Version.F28, setToObj F20_Eula.info.op.defaults F20_Eula.init),
   (Version.F29, setToObj F20_Eula.info.op.defaults F20_Eula.init),
   (Version.F30, setToObj F20_Eula.info.op.defaults F20_Eula.init),
   (Version.F31, setToObj F20_Eula.info.op.defaults F20_Eula.init),
   (Version.F32, setToObj F20_Eula.info.op.defaults F20_Eula.init),
   (Version.F33, setToObj F20_Eula.info.op.defaults F20_Eula.init),
   (Version.F34, setToObj F20_Eula.info.op.defaults F20_Eula.init),
   (Version.RHEL7, setToObj F20_Eula.info.op.defaults F20_Eula.init),
   (Version.RHEL8, setToObj F20_Eula.info.op.defaults F20_Eula.init)]

theorem keeps_eula : ∀ y ∈ commandMaps, ∀ c, y.2.lookup c!"eula" = some c → 0 ≤ y.1 → y.1 ≤ 1000000 → ¬ Command.IsDeprecated c → ¬ Command.IsRemoved c →
    ∃ base, eulaKeepBases.lookup y.1 = some base ∧ c.SelfNormal (eulaSheet y.1) (keepNeeds c!"eula" y.1) (keepFixed c!"eula" y.1) base := by
  unfold commandMaps
  exact (all_cons (fun c h hv hw hd hr => by cases h)
    (all_cons (fun c h hv hw hd hr => by cases h)
    (all_cons (fun c h hv hw hd hr => by cases h)
    (all_cons (fun c h hv hw hd hr => by cases h)
    (all_cons (fun c h hv hw hd hr => by cases h)
    (all_cons (fun c h hv hw hd hr => by cases h)
    (all_cons (fun c h hv hw hd hr => by cases h)
    (all_cons (fun c h hv hw hd hr => by cases h)
    (all_cons (fun c h hv hw hd hr => by cases h)
    (all_cons (fun c h hv hw hd hr => by cases h)
    (all_cons (fun c h hv hw hd hr => by cases h; exact ⟨_, rfl, keeps_F20_Eula⟩)
    (all_cons (fun c h hv hw hd hr => by cases h; exact ⟨_, rfl, keeps_F20_Eula⟩)
    (all_cons (fun c h hv hw hd hr => by cases h; exact ⟨_, rfl, keeps_F20_Eula⟩)
    (all_cons (fun c h hv hw hd hr => by cases h; exact ⟨_, rfl, keeps_F20_Eula⟩)
    (all_cons (fun c h hv hw hd hr => by cases h; exact ⟨_, rfl, keeps_F20_Eula⟩)
    (all_cons (fun c h hv hw hd hr => by cases h; exact ⟨_, rfl, keeps_F20_Eula⟩)
    (all_cons (fun c h hv hw hd hr => by cases h; exact ⟨_, rfl, keeps_F20_Eula⟩)
    (all_cons (fun c h hv hw hd hr => by cases h; exact ⟨_, rfl, keeps_F20_Eula⟩)
    (all_cons (fun c h hv hw hd hr => by cases h; exact ⟨_, rfl, keeps_F20_Eula⟩)
    (all_cons (fun c h hv hw hd hr => by cases h; exact ⟨_, rfl, keeps_F20_Eula⟩)
    (all_cons (fun c h hv hw hd hr => by cases h; exact ⟨_, rfl, keeps_F20_Eula⟩)
    (all_cons (fun c h hv hw hd hr => by cases h; exact ⟨_, rfl, keeps_F20_Eula⟩)
    (all_cons (fun c h hv hw hd hr => by cases h; exact ⟨_, rfl, keeps_F20_Eula⟩)
    (all_cons (fun c h hv hw hd hr => by cases h; exact ⟨_, rfl, keeps_F20_Eula⟩)
    (all_cons (fun c h hv hw hd hr => by cases h; exact ⟨_, rfl, keeps_F20_Eula⟩)
    (all_cons (fun c h hv hw hd hr => by cases h)
    (all_cons (fun c h hv hw hd hr => by cases h)
    (all_cons (fun c h hv hw hd hr => by cases h)
    (all_cons (fun c h hv hw hd hr => by cases h)
    (all_cons (fun c h hv hw hd hr => by cases h)
    (all_cons (fun c h hv hw hd hr => by cases h)
    (all_cons (fun c h hv hw hd hr => by cases h)
    (all_cons (fun c h hv hw hd hr => by cases h)
    (all_cons (fun c h hv hw hd hr => by cases h)
    (all_cons (fun c h hv hw hd hr => by cases h)
    (all_cons (fun c h hv hw hd hr => by cases h)
    (all_cons (fun c h hv hw hd hr => by cases h; exact ⟨_, rfl, keeps_F20_Eula⟩)
    (all_cons (fun c h hv hw hd hr => by cases h; exact ⟨_, rfl, keeps_F20_Eula⟩) (List.forall_mem_nil _)))))))))))))))))))))))))))))))))))))))

theorem keeps_F33_HardDrive : F33_HardDrive.cls.SelfNormal (harddriveSheet Version.F33) (keepNeeds c!"harddrive" Version.F33) (keepFixed c!"harddrive" Version.F33) (setToObj F33_HardDrive.info.op.defaults F33_HardDrive.init) :=
  plain_opts (o := F33_HardDrive.strOut) (T := [c!"seen"]) (harddriveSheet Version.F33) (fun args n => F33_HardDrive.selfed _ _ args n _ (by decide)) (fun _ _ => rfl) (fun a b h => F33_HardDrive.same h) (by decide) (by decide) (by decide +kernel) (by decide +kernel)

/-- The values of `harddrive` after a line without options. -/
def harddriveKeepBases : List (Nat × Ns) :=
  [(Version.F33, setToObj F33_HardDrive.info.op.defaults F33_HardDrive.init),
   (Version.F34, setToObj F33_HardDrive.info.op.defaults F33_HardDrive.init)]

theorem keeps_harddrive : ∀ y ∈ commandMaps, ∀ c, y.2.lookup c!"harddrive" = some c → Version.F33 ≤ y.1 → y.1 ≤ 1000000 → ¬ Command.IsDeprecated c → ¬ Command.IsRemoved c →
    ∃ base, harddriveKeepBases.lookup y.1 = some base ∧ c.SelfNormal (harddriveSheet y.1) (keepNeeds c!"harddrive" y.1) (keepFixed c!"harddrive" y.1) base := by
  unfold commandMaps
  exact (all_cons (fun c h hv hw hd hr => absurd hv (by decide))
    (all_cons (fun c h hv hw hd hr => absurd hv (by decide))
    (all_cons (fun c h hv hw hd hr => absurd hv (by decide))
    (all_cons (fun c h hv hw hd hr => absurd hv (by decide))
    (all_cons (fun c h hv hw hd hr => absurd hv (by decide))
    (all_cons (fun c h hv hw hd hr => absurd hv (by decide))
    (all_cons (fun c h hv hw hd hr => absurd hv (by decide))
    (all_cons (fun c h hv hw hd hr => absurd hv (by decide))
    (all_cons (fun c h hv hw hd hr => absurd hv (by decide))
    (all_cons (fun c h hv hw hd hr => absurd hv (by decide))
    (all_cons (fun c h hv hw hd hr => absurd hv (by decide))
    (all_cons (fun c h hv hw hd hr => absurd hv (by decide))
    (all_cons (fun c h hv hw hd hr => absurd hv (by decide))
    (all_cons (fun c h hv hw hd hr => absurd hv (by decide))
    (all_cons (fun c h hv hw hd hr => absurd hv (by decide))
    (all_cons (fun c h hv hw hd hr => absurd hv (by decide))
    (all_cons (fun c h hv hw hd hr => absurd hv (by decide))
    (all_cons (fun c h hv hw hd hr => absurd hv (by decide))
    (all_cons (fun c h hv hw hd hr => absurd hv (by decide))
    (all_cons (fun c h hv hw hd hr => absurd hv (by decide))
    (all_cons (fun c h hv hw hd hr => absurd hv (by decide))
    (all_cons (fun c h hv hw hd hr => absurd hv (by decide))
    (all_cons (fun c h hv hw hd hr => absurd hv (by decide))
    (all_cons (fun c h hv hw hd hr => by cases h; exact ⟨_, rfl, keeps_F33_HardDrive⟩)
    (all_cons (fun c h hv hw hd hr => by cases h; exact ⟨_, rfl, keeps_F33_HardDrive⟩)
    (all_cons (fun c h hv hw hd hr => absurd hv (by decide))
    (all_cons (fun c h hv hw hd hr => absurd hv (by decide))
    (all_cons (fun c h hv hw hd hr => absurd hv (by decide))
    (all_cons (fun c h hv hw hd hr => absurd hv (by decide))
    (all_cons (fun c h hv hw hd hr => absurd hv (by decide))
    (all_cons (fun c h hv hw hd hr => absurd hv (by decide))
    (all_cons (fun c h hv hw hd hr => absurd hv (by decide))
    (all_cons (fun c h hv hw hd hr => absurd hv (by decide))
    (all_cons (fun c h hv hw hd hr => absurd hv (by decide))
    (all_cons (fun c h hv hw hd hr => absurd hv (by decide))
    (all_cons (fun c h hv hw hd hr => absurd hv (by decide))
    (all_cons (fun c h hv hw hd hr => absurd hv (by decide))
    (all_cons (fun c h hv hw hd hr => absurd hv (by decide)) (List.forall_mem_nil _)))))))))))))))))))))))))))))))))))))))

theorem keeps_F8_IgnoreDisk : F8_IgnoreDisk.cls.SelfNormal (keepIgnorediskSheet Version.F10) (keepNeeds c!"ignoredisk" Version.F10) (keepFixed c!"ignoredisk" Version.F10) (setToObj F8_IgnoreDisk.info.op.defaults F8_IgnoreDisk.init) :=
  plain_opts (o := F8_IgnoreDisk.strOut) (T := [c!"seen"]) (keepIgnorediskSheet Version.F10) (fun args n => F8_IgnoreDisk.selfed _ _ args n _ (by decide)) (fun _ _ => rfl) (fun a b h => F8_IgnoreDisk.same h) (by decide) (by decide) (by decide +kernel) (by decide +kernel)

theorem keeps_F14_IgnoreDisk : F14_IgnoreDisk.cls.SelfNormal (keepIgnorediskSheet Version.F14) (keepNeeds c!"ignoredisk" Version.F14) (keepFixed c!"ignoredisk" Version.F14) (setToObj F14_IgnoreDisk.info.op.defaults F14_IgnoreDisk.init) :=
  plain_opts (o := RHEL6_IgnoreDisk.strOut) (T := [c!"seen"]) (keepIgnorediskSheet Version.F14) (fun args n => RHEL6_IgnoreDisk.selfed _ _ args n _ (by decide) (by decide +kernel) (by decide +kernel) (by decide)) (fun _ _ => rfl) (fun a b h => RHEL6_IgnoreDisk.same h) (by decide) (by decide) (by decide +kernel) (by decide +kernel)

theorem keeps_F29_IgnoreDisk : F29_IgnoreDisk.cls.SelfNormal (keepIgnorediskSheet Version.F29) (keepNeeds c!"ignoredisk" Version.F29) (keepFixed c!"ignoredisk" Version.F29) (setToObj F29_IgnoreDisk.info.op.defaults F29_IgnoreDisk.init) :=
  plain_opts (o := RHEL6_IgnoreDisk.strOut) (T := [c!"seen"]) (keepIgnorediskSheet Version.F29) (fun args n => F29_IgnoreDisk.selfed _ _ args n _ (by decide)) (fun _ _ => rfl) (fun a b h => F29_IgnoreDisk.same h) (by decide) (by decide) (by decide +kernel) (by decide +kernel)

theorem keeps_F34_IgnoreDisk : F34_IgnoreDisk.cls.SelfNormal (keepIgnorediskSheet Version.F34) (keepNeeds c!"ignoredisk" Version.F34) (keepFixed c!"ignoredisk" Version.F34) (setToObj F34_IgnoreDisk.info.op.defaults F34_IgnoreDisk.init) :=
  plain_opts (o := RHEL6_IgnoreDisk.strOut) (T := [c!"seen"]) (keepIgnorediskSheet Version.F34) (fun args n => F29_IgnoreDisk.selfed _ _ args n _ (by decide)) (fun _ _ => rfl) (fun a b h => F29_IgnoreDisk.same h) (by decide) (by decide) (by decide +kernel) (by decide +kernel)

theorem keeps_FC3_IgnoreDisk : FC3_IgnoreDisk.cls.SelfNormal (keepIgnorediskSheet Version.F7) (keepNeeds c!"ignoredisk" Version.F7) (keepFixed c!"ignoredisk" Version.F7) (setToObj FC3_IgnoreDisk.info.op.defaults FC3_IgnoreDisk.init) :=
  plain_opts (o := FC3_IgnoreDisk.strOut) (T := [c!"seen"]) (keepIgnorediskSheet Version.F7) (fun args n => FC3_IgnoreDisk.selfed _ _ args n _ (by decide)) (fun _ _ => rfl) (fun a b h => FC3_IgnoreDisk.same h) (by decide) (by decide) (by decide +kernel) (by decide +kernel)

theorem keeps_RHEL6_IgnoreDisk : RHEL6_IgnoreDisk.cls.SelfNormal (keepIgnorediskSheet Version.RHEL6) (keepNeeds c!"ignoredisk" Version.RHEL6) (keepFixed c!"ignoredisk" Version.RHEL6) (setToObj RHEL6_IgnoreDisk.info.op.defaults RHEL6_IgnoreDisk.init) :=
  plain_opts (o := RHEL6_IgnoreDisk.strOut) (T := [c!"seen"]) (keepIgnorediskSheet Version.RHEL6) (fun args n => RHEL6_IgnoreDisk.selfed _ _ args n _ (by decide) (by decide +kernel) (by decide +kernel) (by decide)) (fun _ _ => rfl) (fun a b h => RHEL6_IgnoreDisk.same h) (by decide) (by decide) (by decide +kernel) (by decide +kernel)

/-- The values of `ignoredisk` after a line without options. -/
def ignorediskKeepBases : List (Nat × Ns) :=
  [(Version.F10, setToObj F8_IgnoreDisk.info.op.defaults F8_IgnoreDisk.init),
   (Version.F11, setToObj F8_IgnoreDisk.info.op.defaults F8_IgnoreDisk.init),
   (Version.F12, setToObj F8_IgnoreDisk.info.op.defaults F8_IgnoreDisk.init),
   (Version.F13, setToObj F8_IgnoreDisk.info.op.defaults F8_IgnoreDisk.init),
   (Version.F14, setToObj F14_IgnoreDisk.info.op.defaults F14_IgnoreDisk.init),
   (Version.F15, setToObj F14_IgnoreDisk.info.op.defaults F14_IgnoreDisk.init),
   (Version.F16, setToObj F14_IgnoreDisk.info.op.defaults F14_IgnoreDisk.init),
   (Version.F17, setToObj F14_IgnoreDisk.info.op.defaults F14_IgnoreDisk.init),
   (Version.F18, setToObj F14_IgnoreDisk.info.op.defaults F14_IgnoreDisk.init),
   (Version.F19, setToObj F14_IgnoreDisk.info.op.defaults F14_IgnoreDisk.init),
   (Version.F20, setToObj F14_IgnoreDisk.info.op.defaults F14_IgnoreDisk.init),
   (Version.F21, setToObj F14_IgnoreDisk.info.op.defaults F14_IgnoreDisk.init),
   (Version.F22, setToObj F14_IgnoreDisk.info.op.defaults F14_IgnoreDisk.init),
   (Version.F23, setToObj F14_IgnoreDisk.info.op.defaults F14_IgnoreDisk.init),
   (Version.F24, setToObj F14_IgnoreDisk.info.op.defaults F14_IgnoreDisk.init),
   (Version.F25, setToObj F14_IgnoreDisk.info.op.defaults F14_IgnoreDisk.init),
   (Version.F26, setToObj F14_IgnoreDisk.info.op.defaults F14_IgnoreDisk.init),
   (Version.F27, setToObj F14_IgnoreDisk.info.op.defaults F14_IgnoreDisk.init),
   (Version.F28, setToObj F14_IgnoreDisk.info.op.defaults F14_IgnoreDisk.init),
   (Version.F29, setToObj F29_IgnoreDisk.info.op.defaults F29_IgnoreDisk.init),
   (Version.F30, setToObj F29_IgnoreDisk.info.op.defaults F29_IgnoreDisk.init),
   (Version.F31, setToObj F29_IgnoreDisk.info.op.defaults F29_IgnoreDisk.init),
   (Version.F32, setToObj F29_IgnoreDisk.info.op.defaults F29_IgnoreDisk.init),
   (Version.F33, setToObj F29_IgnoreDisk.info.op.defaults F29_IgnoreDisk.init),
   (Version.F34, setToObj F34_IgnoreDisk.info.op.defaults F34_IgnoreDisk.init),
   (Version.F7, setToObj FC3_IgnoreDisk.info.op.defaults FC3_IgnoreDisk.init),
   (Version.F8, setToObj F8_IgnoreDisk.info.op.defaults F8_IgnoreDisk.init),
   (Version.F9, setToObj F8_IgnoreDisk.info.op.defaults F8_IgnoreDisk.init),
   (Version.FC3, setToObj FC3_IgnoreDisk.info.op.defaults FC3_IgnoreDisk.init),
   (Version.FC4, setToObj FC3_IgnoreDisk.info.op.defaults FC3_IgnoreDisk.init),
   (Version.FC5, setToObj FC3_IgnoreDisk.info.op.defaults FC3_IgnoreDisk.init),
   (Version.FC6, setToObj FC3_IgnoreDisk.info.op.defaults FC3_IgnoreDisk.init),
   (Version.RHEL3, setToObj FC3_IgnoreDisk.info.op.defaults FC3_IgnoreDisk.init),
   (Version.RHEL4, setToObj F8_IgnoreDisk.info.op.defaults F8_IgnoreDisk.init),
   (Version.RHEL5, setToObj F8_IgnoreDisk.info.op.defaults F8_IgnoreDisk.init),
   (Version.RHEL6, setToObj RHEL6_IgnoreDisk.info.op.defaults RHEL6_IgnoreDisk.init),
   (Version.RHEL7, setToObj F14_IgnoreDisk.info.op.defaults F14_IgnoreDisk.init),
   (Version.RHEL8, setToObj F29_IgnoreDisk.info.op.defaults F29_IgnoreDisk.init)]

theorem keeps_ignoredisk : ∀ y ∈ commandMaps, ∀ c, y.2.lookup c!"ignoredisk" = some c → 0 ≤ y.1 → y.1 ≤ 1000000 → ¬ Command.IsDeprecated c → ¬ Command.IsRemoved c →
    ∃ base, ignorediskKeepBases.lookup y.1 = some base ∧ c.SelfNormal (keepIgnorediskSheet y.1) (keepNeeds c!"ignoredisk" y.1) (keepFixed c!"ignoredisk" y.1) base := by
  unfold commandMaps
  exact (all_cons (fun c h hv hw hd hr => by cases h; exact ⟨_, rfl, keeps_F8_IgnoreDisk⟩)
    (all_cons (fun c h hv hw hd hr => by cases h; exact ⟨_, rfl, keeps_F8_IgnoreDisk⟩)
    (all_cons (fun c h hv hw hd hr => by cases h; exact ⟨_, rfl, keeps_F8_IgnoreDisk⟩)
    (all_cons (fun c h hv hw hd hr => by cases h; exact ⟨_, rfl, keeps_F8_IgnoreDisk⟩)
    (all_cons (fun c h hv hw hd hr => by cases h; exact ⟨_, rfl, keeps_F14_IgnoreDisk⟩)
    (all_cons (fun c h hv hw hd hr => by cases h; exact ⟨_, rfl, keeps_F14_IgnoreDisk⟩)
    (all_cons (fun c h hv hw hd hr => by cases h; exact ⟨_, rfl, keeps_F14_IgnoreDisk⟩)
    (all_cons (fun c h hv hw hd hr => by cases h; exact ⟨_, rfl, keeps_F14_IgnoreDisk⟩)
    (all_cons (fun c h hv hw hd hr => by cases h; exact ⟨_, rfl, keeps_F14_IgnoreDisk⟩)
    (all_cons (fun c h hv hw hd hr => by cases h; exact ⟨_, rfl, keeps_F14_IgnoreDisk⟩)
    (all_cons (fun c h hv hw hd hr => by cases h; exact ⟨_, rfl, keeps_F14_IgnoreDisk⟩)
    (all_cons (fun c h hv hw hd hr => by cases h; exact ⟨_, rfl, keeps_F14_IgnoreDisk⟩)
    (all_cons (fun c h hv hw hd hr => by cases h; exact ⟨_, rfl, keeps_F14_IgnoreDisk⟩)
    (all_cons (fun c h hv hw hd hr => by cases h; exact ⟨_, rfl, keeps_F14_IgnoreDisk⟩)
    (all_cons (fun c h hv hw hd hr => by cases h; exact ⟨_, rfl, keeps_F14_IgnoreDisk⟩)
    (all_cons (fun c h hv hw hd hr => by cases h; exact ⟨_, rfl, keeps_F14_IgnoreDisk⟩)
    (all_cons (fun c h hv hw hd hr => by cases h; exact ⟨_, rfl, keeps_F14_IgnoreDisk⟩)
    (all_cons (fun c h hv hw hd hr => by cases h; exact ⟨_, rfl, keeps_F14_IgnoreDisk⟩)
    (all_cons (fun c h hv hw hd hr => by cases h; exact ⟨_, rfl, keeps_F14_IgnoreDisk⟩)
    (all_cons (fun c h hv hw hd hr => by cases h; exact ⟨_, rfl, keeps_F29_IgnoreDisk⟩)
    (all_cons (fun c h hv hw hd hr => by cases h; exact ⟨_, rfl, keeps_F29_IgnoreDisk⟩)
    (all_cons (fun c h hv hw hd hr => by cases h; exact ⟨_, rfl, keeps_F29_IgnoreDisk⟩)
    (all_cons (fun c h hv hw hd hr => by cases h; exact ⟨_, rfl, keeps_F29_IgnoreDisk⟩)
    (all_cons (fun c h hv hw hd hr => by cases h; exact ⟨_, rfl, keeps_F29_IgnoreDisk⟩)
    (all_cons (fun c h hv hw hd hr => by cases h; exact ⟨_, rfl, keeps_F34_IgnoreDisk⟩)
    (all_cons (fun c h hv hw hd hr => by cases h; exact ⟨_, rfl, keeps_FC3_IgnoreDisk⟩)
    (all_cons (fun c h hv hw hd hr => by cases h; exact ⟨_, rfl, keeps_F8_IgnoreDisk⟩)
    (all_cons (fun c h hv hw hd hr => by cases h; exact ⟨_, rfl, keeps_F8_IgnoreDisk⟩)
    (all_cons (fun c h hv hw hd hr => by cases h; exact ⟨_, rfl, keeps_FC3_IgnoreDisk⟩)
    (all_cons (fun c h hv hw hd hr => by cases h; exact ⟨_, rfl, keeps_FC3_IgnoreDisk⟩)
    (all_cons (fun c h hv hw hd hr => by cases h; exact ⟨_, rfl, keeps_FC3_IgnoreDisk⟩)
    (all_cons (fun c h hv hw hd hr => by cases h; exact ⟨_, rfl, keeps_FC3_IgnoreDisk⟩)
    (all_cons (fun c h hv hw hd hr => by cases h; exact ⟨_, rfl, keeps_FC3_IgnoreDisk⟩)
    (all_cons (fun c h hv hw hd hr => by cases h; exact ⟨_, rfl, keeps_F8_IgnoreDisk⟩)
    (all_cons (fun c h hv hw hd hr => by cases h; exact ⟨_, rfl, keeps_F8_IgnoreDisk⟩)
    (all_cons (fun c h hv hw hd hr => by cases h; exact ⟨_, rfl, keeps_RHEL6_IgnoreDisk⟩)
    (all_cons (fun c h hv hw hd hr => by cases h; exact ⟨_, rfl, keeps_F14_IgnoreDisk⟩)
    (all_cons (fun c h hv hw hd hr => by cases h; exact ⟨_, rfl, keeps_F29_IgnoreDisk⟩) (List.forall_mem_nil _)))))))))))))))))))))))))))))))))))))))

theorem keeps_F19_Liveimg : F19_Liveimg.cls.SelfNormal (liveimgSheet Version.F19) (keepNeeds c!"liveimg" Version.F19) (keepFixed c!"liveimg" Version.F19) (setToObj F19_Liveimg.info.op.defaults F19_Liveimg.init) :=
  plain_opts (o := F19_Liveimg.strOut) (T := [c!"seen"]) (liveimgSheet Version.F19) (fun args n => F19_Liveimg.selfed _ _ args n _ (by decide)) (fun _ _ => rfl) (fun a b h => F19_Liveimg.same h) (by decide) (by decide) (by decide +kernel) (by decide +kernel)

/-- The values of `liveimg` after a line without options. -/
def liveimgKeepBases : List (Nat × Ns) :=
  [(Version.F19, setToObj F19_Liveimg.info.op.defaults F19_Liveimg.init),
   (Version.F20, setToObj F19_Liveimg.info.op.defaults F19_Liveimg.init),
   (Version.F21, setToObj F19_Liveimg.info.op.defaults F19_Liveimg.init),
   (Version.F22, setToObj F19_Liveimg.info.op.defaults F19_Liveimg.init),
   (Version.F23, setToObj F19_Liveimg.info.op.defaults F19_Liveimg.init),
   (Version.F24, setToObj F19_Liveimg.info.op.defaults F19_Liveimg.init),
   (Version.F25, setToObj F19_Liveimg.info.op.defaults F19_Liveimg.init),
   (Version.F26, setToObj F19_Liveimg.info.op.defaults F19_Liveimg.init),
   (Version.F27, setToObj F19_Liveimg.info.op.defaults F19_Liveimg.init),
   (Version.F28, setToObj F19_Liveimg.info.op.defaults F19_Liveimg.init),
   (Version.F29, setToObj F19_Liveimg.info.op.defaults F19_Liveimg.init),
   (Version.F30, setToObj F19_Liveimg.info.op.defaults F19_Liveimg.init),
   (Version.F31, setToObj F19_Liveimg.info.op.defaults F19_Liveimg.init),
   (Version.F32, setToObj F19_Liveimg.info.op.defaults F19_Liveimg.init),
   (Version.F33, setToObj F19_Liveimg.info.op.defaults F19_Liveimg.init),
   (Version.F34, setToObj F19_Liveimg.info.op.defaults F19_Liveimg.init),
   (Version.RHEL7, setToObj F19_Liveimg.info.op.defaults F19_Liveimg.init),
   (Version.RHEL8, setToObj F19_Liveimg.info.op.defaults F19_Liveimg.init)]

theorem keeps_liveimg : ∀ y ∈ commandMaps, ∀ c, y.2.lookup c!"liveimg" = some c → 0 ≤ y.1 → y.1 ≤ 1000000 → ¬ Command.IsDeprecated c → ¬ Command.IsRemoved c →
    ∃ base, liveimgKeepBases.lookup y.1 = some base ∧ c.SelfNormal (liveimgSheet y.1) (keepNeeds c!"liveimg" y.1) (keepFixed c!"liveimg" y.1) base := by
  unfold commandMaps
  exact (all_cons (fun c h hv hw hd hr => by cases h)
    (all_cons (fun c h hv hw hd hr => by cases h)
    (all_cons (fun c h hv hw hd hr => by cases h)
    (all_cons (fun c h hv hw hd hr => by cases h)
    (all_cons (fun c h hv hw hd hr => by cases h)
    (all_cons (fun c h hv hw hd hr => by cases h)
    (all_cons (fun c h hv hw hd hr => by cases h)
    (all_cons (fun c h hv hw hd hr => by cases h)
    (all_cons (fun c h hv hw hd hr => by cases h)
    (all_cons (fun c h hv hw hd hr => by cases h; exact ⟨_, rfl, keeps_F19_Liveimg⟩)
    (all_cons (fun c h hv hw hd hr => by cases h; exact ⟨_, rfl, keeps_F19_Liveimg⟩)
    (all_cons (fun c h hv hw hd hr => by cases h; exact ⟨_, rfl, keeps_F19_Liveimg⟩)
    (all_cons (fun c h hv hw hd hr => by cases h; exact ⟨_, rfl, keeps_F19_Liveimg⟩)
    (all_cons (fun c h hv hw hd hr => by cases h; exact ⟨_, rfl, keeps_F19_Liveimg⟩)
    (all_cons (fun c h hv hw hd hr => by cases h; exact ⟨_, rfl, keeps_F19_Liveimg⟩)
    (all_cons (fun c h hv hw hd hr => by cases h; exact ⟨_, rfl, keeps_F19_Liveimg⟩)
    (all_cons (fun c h hv hw hd hr => by cases h; exact ⟨_, rfl, keeps_F19_Liveimg⟩)
    (all_cons (fun c h hv hw hd hr => by cases h; exact ⟨_, rfl, keeps_F19_Liveimg⟩)
    (all_cons (fun c h hv hw hd hr => by cases h; exact ⟨_, rfl, keeps_F19_Liveimg⟩)
    (all_cons (fun c h hv hw hd hr => by cases h; exact ⟨_, rfl, keeps_F19_Liveimg⟩)
    (all_cons (fun c h hv hw hd hr => by cases h; exact ⟨_, rfl, keeps_F19_Liveimg⟩)
    (all_cons (fun c h hv hw hd hr => by cases h; exact ⟨_, rfl, keeps_F19_Liveimg⟩)
    (all_cons (fun c h hv hw hd hr => by cases h; exact ⟨_, rfl, keeps_F19_Liveimg⟩)
    (all_cons (fun c h hv hw hd hr => by cases h; exact ⟨_, rfl, keeps_F19_Liveimg⟩)
    (all_cons (fun c h hv hw hd hr => by cases h; exact ⟨_, rfl, keeps_F19_Liveimg⟩)
    (all_cons (fun c h hv hw hd hr => by cases h)
    (all_cons (fun c h hv hw hd hr => by cases h)
    (all_cons (fun c h hv hw hd hr => by cases h)
    (all_cons (fun c h hv hw hd hr => by cases h)
    (all_cons (fun c h hv hw hd hr => by cases h)
    (all_cons (fun c h hv hw hd hr => by cases h)
    (all_cons (fun c h hv hw hd hr => by cases h)
    (all_cons (fun c h hv hw hd hr => by cases h)
    (all_cons (fun c h hv hw hd hr => by cases h)
    (all_cons (fun c h hv hw hd hr => by cases h)
    (all_cons (fun c h hv hw hd hr => by cases h)
    (all_cons (fun c h hv hw hd hr => by cases h; exact ⟨_, rfl, keeps_F19_Liveimg⟩)
    (all_cons (fun c h hv hw hd hr => by cases h; exact ⟨_, rfl, keeps_F19_Liveimg⟩) (List.forall_mem_nil _)))))))))))))))))))))))))))))))))))))))

theorem keeps_FC6_Logging_t : FC6_Logging.cls.SelfNormal (loggingSheet Version.F10) (keepNeeds c!"logging" Version.F10) (keepFixed c!"logging" Version.F10) (setToObj FC6_Logging.info.op.defaults FC6_Logging.init) :=
  plain_opts (o := FC6_Logging.strOut) (T := [c!"_level_provided", c!"seen"]) (loggingSheet Version.F10) (fun args n => FC6_Logging.selfed _ _ args n _ (by decide)) (fun _ _ => rfl) (fun a b h => FC6_Logging.same h) (by decide) (by decide) (by decide +kernel) (by decide +kernel)

theorem keeps_F34_Logging : F34_Logging.cls.SelfNormal (loggingSheet Version.F34) (keepNeeds c!"logging" Version.F34) (keepFixed c!"logging" Version.F34) (setToObj F34_Logging.info.op.defaults F34_Logging.init) :=
  plain_opts (o := F34_Logging.strOut) (T := [c!"_level_provided", c!"seen"]) (loggingSheet Version.F34) (fun args n => FC6_Logging.selfed _ _ args n _ (by decide)) (fun _ _ => rfl) (fun a b h => FC6_Logging.same h) (by decide) (by decide) (by decide +kernel) (by decide +kernel)

/-- The values of `logging` after a line without options. -/
def loggingKeepBases : List (Nat × Ns) :=
  [(Version.F10, setToObj FC6_Logging.info.op.defaults FC6_Logging.init),
   (Version.F11, setToObj FC6_Logging.info.op.defaults FC6_Logging.init),
   (Version.F12, setToObj FC6_Logging.info.op.defaults FC6_Logging.init),
   (Version.F13, setToObj FC6_Logging.info.op.defaults FC6_Logging.init),
   (Version.F14, setToObj FC6_Logging.info.op.defaults FC6_Logging.init),
   (Version.F15, setToObj FC6_Logging.info.op.defaults FC6_Logging.init),
   (Version.F16, setToObj FC6_Logging.info.op.defaults FC6_Logging.init),
   (Version.F17, setToObj FC6_Logging.info.op.defaults FC6_Logging.init),
   (Version.F18, setToObj FC6_Logging.info.op.defaults FC6_Logging.init),
   (Version.F19, setToObj FC6_Logging.info.op.defaults FC6_Logging.init),
   (Version.F20, setToObj FC6_Logging.info.op.defaults FC6_Logging.init),
   (Version.F21, setToObj FC6_Logging.info.op.defaults FC6_Logging.init),
   (Version.F22, setToObj FC6_Logging.info.op.defaults FC6_Logging.init),
   (Version.F23, setToObj FC6_Logging.info.op.defaults FC6_Logging.init),
   (Version.F24, setToObj FC6_Logging.info.op.defaults FC6_Logging.init),
   (Version.F25, setToObj FC6_Logging.info.op.defaults FC6_Logging.init),
   (Version.F26, setToObj FC6_Logging.info.op.defaults FC6_Logging.init),
   (Version.F27, setToObj FC6_Logging.info.op.defaults FC6_Logging.init),
   (Version.F28, setToObj FC6_Logging.info.op.defaults FC6_Logging.init),
   (Version.F29, setToObj FC6_Logging.info.op.defaults FC6_Logging.init),
   (Version.F30, setToObj FC6_Logging.info.op.defaults FC6_Logging.init),
   (Version.F31, setToObj FC6_Logging.info.op.defaults FC6_Logging.init),
   (Version.F32, setToObj FC6_Logging.info.op.defaults FC6_Logging.init),
   (Version.F33, setToObj FC6_Logging.info.op.defaults FC6_Logging.init),
   (Version.F34, setToObj F34_Logging.info.op.defaults F34_Logging.init),
   (Version.F7, setToObj FC6_Logging.info.op.defaults FC6_Logging.init),
   (Version.F8, setToObj FC6_Logging.info.op.defaults FC6_Logging.init),
   (Version.F9, setToObj FC6_Logging.info.op.defaults FC6_Logging.init),
   (Version.FC6, setToObj FC6_Logging.info.op.defaults FC6_Logging.init),
   (Version.RHEL5, setToObj FC6_Logging.info.op.defaults FC6_Logging.init),
   (Version.RHEL6, setToObj FC6_Logging.info.op.defaults FC6_Logging.init),
   (Version.RHEL7, setToObj FC6_Logging.info.op.defaults FC6_Logging.init),
   (Version.RHEL8, setToObj FC6_Logging.info.op.defaults FC6_Logging.init)]

theorem keeps_logging : ∀ y ∈ commandMaps, ∀ c, y.2.lookup c!"logging" = some c → 0 ≤ y.1 → y.1 ≤ 1000000 → ¬ Command.IsDeprecated c → ¬ Command.IsRemoved c →
    ∃ base, loggingKeepBases.lookup y.1 = some base ∧ c.SelfNormal (loggingSheet y.1) (keepNeeds c!"logging" y.1) (keepFixed c!"logging" y.1) base := by
  unfold commandMaps
  exact (all_cons (fun c h hv hw hd hr => by cases h; exact ⟨_, rfl, keeps_FC6_Logging_t⟩)
    (all_cons (fun c h hv hw hd hr => by cases h; exact ⟨_, rfl, keeps_FC6_Logging_t⟩)
    (all_cons (fun c h hv hw hd hr => by cases h; exact ⟨_, rfl, keeps_FC6_Logging_t⟩)
    (all_cons (fun c h hv hw hd hr => by cases h; exact ⟨_, rfl, keeps_FC6_Logging_t⟩)
    (all_cons (fun c h hv hw hd hr => by cases h; exact ⟨_, rfl, keeps_FC6_Logging_t⟩)
    (all_cons (fun c h hv hw hd hr => by cases h; exact ⟨_, rfl, keeps_FC6_Logging_t⟩)
    (all_cons (fun c h hv hw hd hr => by cases h; exact ⟨_, rfl, keeps_FC6_Logging_t⟩)
    (all_cons (fun c h hv hw hd hr => by cases h; exact ⟨_, rfl, keeps_FC6_Logging_t⟩)
    (all_cons (fun c h hv hw hd hr => by cases h; exact ⟨_, rfl, keeps_FC6_Logging_t⟩)
    (all_cons (fun c h hv hw hd hr => by cases h; exact ⟨_, rfl, keeps_FC6_Logging_t⟩)
    (all_cons (fun c h hv hw hd hr => by cases h; exact ⟨_, rfl, keeps_FC6_Logging_t⟩)
    (all_cons (fun c h hv hw hd hr => by cases h; exact ⟨_, rfl, keeps_FC6_Logging_t⟩)
    (all_cons (fun c h hv hw hd hr => by cases h; exact ⟨_, rfl, keeps_FC6_Logging_t⟩)
    (all_cons (fun c h hv hw hd hr => by cases h; exact ⟨_, rfl, keeps_FC6_Logging_t⟩)
    (all_cons (fun c h hv hw hd hr => by cases h; exact ⟨_, rfl, keeps_FC6_Logging_t⟩)
    (all_cons (fun c h hv hw hd hr => by cases h; exact ⟨_, rfl, keeps_FC6_Logging_t⟩)
    (all_cons (fun c h hv hw hd hr => by cases h; exact ⟨_, rfl, keeps_FC6_Logging_t⟩)
    (all_cons (fun c h hv hw hd hr => by cases h; exact ⟨_, rfl, keeps_FC6_Logging_t⟩)
    (all_cons (fun c h hv hw hd hr => by cases h; exact ⟨_, rfl, keeps_FC6_Logging_t⟩)
    (all_cons (fun c h hv hw hd hr => by cases h; exact ⟨_, rfl, keeps_FC6_Logging_t⟩)
    (all_cons (fun c h hv hw hd hr => by cases h; exact ⟨_, rfl, keeps_FC6_Logging_t⟩)
    (all_cons (fun c h hv hw hd hr => by cases h; exact ⟨_, rfl, keeps_FC6_Logging_t⟩)
    (all_cons (fun c h hv hw hd hr => by cases h; exact ⟨_, rfl, keeps_FC6_Logging_t⟩)
    (all_cons (fun c h hv hw hd hr => by cases h; exact ⟨_, rfl, keeps_FC6_Logging_t⟩)
    (all_cons (fun c h hv hw hd hr => by cases h; exact ⟨_, rfl, keeps_F34_Logging⟩)
    (all_cons (fun c h hv hw hd hr => by cases h; exact ⟨_, rfl, keeps_FC6_Logging_t⟩)
    (all_cons (fun c h hv hw hd hr => by cases h; exact ⟨_, rfl, keeps_FC6_Logging_t⟩)
    (all_cons (fun c h hv hw hd hr => by cases h; exact ⟨_, rfl, keeps_FC6_Logging_t⟩)
    (all_cons (fun c h hv hw hd hr => by cases h)
    (all_cons (fun c h hv hw hd hr => by cases h)
    (all_cons (fun c h hv hw hd hr => by cases h)
    (all_cons (fun c h hv hw hd hr => by cases h; exact ⟨_, rfl, keeps_FC6_Logging_t⟩)
    (all_cons (fun c h hv hw hd hr => by cases h)
    (all_cons (fun c h hv hw hd hr => by cases h)
    (all_cons (fun c h hv hw hd hr => by cases h; exact ⟨_, rfl, keeps_FC6_Logging_t⟩)
    (all_cons (fun c h hv hw hd hr => by cases h; exact ⟨_, rfl, keeps_FC6_Logging_t⟩)
    (all_cons (fun c h hv hw hd hr => by cases h; exact ⟨_, rfl, keeps_FC6_Logging_t⟩)
    (all_cons (fun c h hv hw hd hr => by cases h; exact ⟨_, rfl, keeps_FC6_Logging_t⟩) (List.forall_mem_nil _)))))))))))))))))))))))))))))))))))))))

theorem keeps_FC6_Monitor : FC6_Monitor.cls.SelfNormal (monitorSheet Version.F7) (keepNeeds c!"monitor" Version.F7) (keepFixed c!"monitor" Version.F7) (setToObj FC6_Monitor.info.op.defaults FC6_Monitor.init) :=
  plain_opts (o := FC6_Monitor.strOut) (T := [c!"seen"]) (monitorSheet Version.F7) (fun args n => FC3_Monitor.selfed _ _ args n _ (by decide)) (fun _ _ => rfl) (fun a b h => FC3_Monitor.same h) (by decide) (by decide) (by decide +kernel) (by decide +kernel)

theorem keeps_FC3_Monitor : FC3_Monitor.cls.SelfNormal (monitorSheet Version.FC3) (keepNeeds c!"monitor" Version.FC3) (keepFixed c!"monitor" Version.FC3) (setToObj FC3_Monitor.info.op.defaults FC3_Monitor.init) :=
  plain_opts (o := FC3_Monitor.strOut) (T := [c!"seen"]) (monitorSheet Version.FC3) (fun args n => FC3_Monitor.selfed _ _ args n _ (by decide)) (fun _ _ => rfl) (fun a b h => FC3_Monitor.same h) (by decide) (by decide) (by decide +kernel) (by decide +kernel)

/-- The values of `monitor` after a line without options. -/
def monitorKeepBases : List (Nat × Ns) :=
  [(Version.F7, setToObj FC6_Monitor.info.op.defaults FC6_Monitor.init),
   (Version.F8, setToObj FC6_Monitor.info.op.defaults FC6_Monitor.init),
   (Version.F9, setToObj FC6_Monitor.info.op.defaults FC6_Monitor.init),
   (Version.FC3, setToObj FC3_Monitor.info.op.defaults FC3_Monitor.init),
   (Version.FC4, setToObj FC3_Monitor.info.op.defaults FC3_Monitor.init),
   (Version.FC5, setToObj FC3_Monitor.info.op.defaults FC3_Monitor.init),
   (Version.FC6, setToObj FC6_Monitor.info.op.defaults FC6_Monitor.init),
   (Version.RHEL3, setToObj FC3_Monitor.info.op.defaults FC3_Monitor.init),
   (Version.RHEL4, setToObj FC3_Monitor.info.op.defaults FC3_Monitor.init),
   (Version.RHEL5, setToObj FC6_Monitor.info.op.defaults FC6_Monitor.init)]

theorem keeps_monitor : ∀ y ∈ commandMaps, ∀ c, y.2.lookup c!"monitor" = some c → 0 ≤ y.1 → y.1 ≤ 1000000 → ¬ Command.IsDeprecated c → ¬ Command.IsRemoved c →
    ∃ base, monitorKeepBases.lookup y.1 = some base ∧ c.SelfNormal (monitorSheet y.1) (keepNeeds c!"monitor" y.1) (keepFixed c!"monitor" y.1) base := by
  unfold commandMaps
  exact (all_cons (fun c h hv hw hd hr => by cases h; exact absurd ⟨_, _, rfl⟩ hd)
    (all_cons (fun c h hv hw hd hr => by cases h; exact absurd ⟨_, _, rfl⟩ hd)
    (all_cons (fun c h hv hw hd hr => by cases h; exact absurd ⟨_, _, rfl⟩ hd)
    (all_cons (fun c h hv hw hd hr => by cases h; exact absurd ⟨_, _, rfl⟩ hd)
    (all_cons (fun c h hv hw hd hr => by cases h; exact absurd ⟨_, _, rfl⟩ hd)
    (all_cons (fun c h hv hw hd hr => by cases h; exact absurd ⟨_, _, rfl⟩ hd)
    (all_cons (fun c h hv hw hd hr => by cases h; exact absurd ⟨_, _, rfl⟩ hd)
    (all_cons (fun c h hv hw hd hr => by cases h; exact absurd ⟨_, _, rfl⟩ hd)
    (all_cons (fun c h hv hw hd hr => by cases h; exact absurd ⟨_, _, rfl⟩ hr)
    (all_cons (fun c h hv hw hd hr => by cases h)
    (all_cons (fun c h hv hw hd hr => by cases h)
    (all_cons (fun c h hv hw hd hr => by cases h)
    (all_cons (fun c h hv hw hd hr => by cases h)
    (all_cons (fun c h hv hw hd hr => by cases h)
    (all_cons (fun c h hv hw hd hr => by cases h)
    (all_cons (fun c h hv hw hd hr => by cases h)
    (all_cons (fun c h hv hw hd hr => by cases h)
    (all_cons (fun c h hv hw hd hr => by cases h)
    (all_cons (fun c h hv hw hd hr => by cases h)
    (all_cons (fun c h hv hw hd hr => by cases h)
    (all_cons (fun c h hv hw hd hr => by cases h)
    (all_cons (fun c h hv hw hd hr => by cases h)
    (all_cons (fun c h hv hw hd hr => by cases h)
    (all_cons (fun c h hv hw hd hr => by cases h)
    (all_cons (fun c h hv hw hd hr => by cases h)
    (all_cons (fun c h hv hw hd hr => by cases h; exact ⟨_, rfl, keeps_FC6_Monitor⟩)
    (all_cons (fun c h hv hw hd hr => by cases h; exact ⟨_, rfl, keeps_FC6_Monitor⟩)
    (all_cons (fun c h hv hw hd hr => by cases h; exact ⟨_, rfl, keeps_FC6_Monitor⟩)
    (all_cons (fun c h hv hw hd hr => by cases h; exact ⟨_, rfl, keeps_FC3_Monitor⟩)
    (all_cons (fun c h hv hw hd hr => by cases h; exact ⟨_, rfl, keeps_FC3_Monitor⟩)
    (all_cons (fun c h hv hw hd hr => by cases h; exact ⟨_, rfl, keeps_FC3_Monitor⟩)
    (all_cons (fun c h hv hw hd hr => by cases h; exact ⟨_, rfl, keeps_FC6_Monitor⟩)
    (all_cons (fun c h hv hw hd hr => by cases h; exact ⟨_, rfl, keeps_FC3_Monitor⟩)
    (all_cons (fun c h hv hw hd hr => by cases h; exact ⟨_, rfl, keeps_FC3_Monitor⟩)
    (all_cons (fun c h hv hw hd hr => by cases h; exact ⟨_, rfl, keeps_FC6_Monitor⟩)
    (all_cons (fun c h hv hw hd hr => by cases h; exact absurd ⟨_, _, rfl⟩ hd)
    (all_cons (fun c h hv hw hd hr => by cases h)
    (all_cons (fun c h hv hw hd hr => by cases h) (List.forall_mem_nil _)))))))))))))))))))))))))))))))))))))))

end Ks.Cmd
