import Verif.Commands.SelfLogic
import Verif.Commands.SelfSheets
import Verif.Commands.SelfIgnore
import Verif.Commands.StripTexts
import Verif.Commands.StageLogic
/-!
# Commands without data lists read their text back

Written by `scripts/gen_selfback.py`.
-/
namespace Ks.Cmd

set_option linter.unusedVariables false

theorem FC4_Bootloader.selfed (k : Info) (init : Ns) (args : List Str) (n : Nat) (skip : List Str) (hs : ∀ k ∈ ([] : List Str), k ∈ skip) :
    M.Self n (Before init skip) (FC4_Bootloader.parse k args) fun _ => ParsedBy k.op init skip n args := by
  unfold FC4_Bootloader.parse
  repeat' (first | self_step)

theorem selfBack_F8_Bootloader : F8_Bootloader.cls.SelfReadsBack (bootloaderSheet Version.F10) (setToObj F8_Bootloader.info.op.defaults F8_Bootloader.init) :=
  plain_readsBack (o := (FC3_Bootloader.strOut F8_Bootloader.args)) (bootloaderSheet Version.F10) (fun args n => FC4_Bootloader.selfed _ _ args n _ (by decide)) (by decide) (fun _ _ => rfl) (by decide +kernel)

theorem selfBack_F12_Bootloader : F12_Bootloader.cls.SelfReadsBack (bootloaderSheet Version.F12) (setToObj F12_Bootloader.info.op.defaults F12_Bootloader.init) :=
  plain_readsBack (o := (FC3_Bootloader.strOut F8_Bootloader.args)) (bootloaderSheet Version.F12) (fun args n => FC4_Bootloader.selfed _ _ args n _ (by decide)) (by decide) (fun _ _ => rfl) (by decide +kernel)

theorem selfBack_F14_Bootloader : F14_Bootloader.cls.SelfReadsBack (bootloaderSheet Version.F14) (setToObj F14_Bootloader.info.op.defaults F14_Bootloader.init) :=
  plain_readsBack (o := (FC3_Bootloader.strOut F8_Bootloader.args)) (bootloaderSheet Version.F14) (fun args n => FC4_Bootloader.selfed _ _ args n _ (by decide)) (by decide) (fun _ _ => rfl) (by decide +kernel)

theorem F15_Bootloader.selfed (k : Info) (init : Ns) (args : List Str) (n : Nat) (skip : List Str) (hs : ∀ k ∈ ([c!"_md5pass", c!"isCrypted", c!"password"] : List Str), k ∈ skip) :
    M.Self n (Before init skip) (F15_Bootloader.parse k args) fun _ => ParsedBy k.op init skip n args := by
  unfold F15_Bootloader.parse
  repeat' (first | self_step | extract_lets)

theorem selfBack_F15_Bootloader_t : F15_Bootloader.cls.SelfReadsBack (bootloaderSheet Version.F15) (setToObj F15_Bootloader.info.op.defaults F15_Bootloader.init) :=
  plain_readsBack (o := (FC3_Bootloader.strOut F15_Bootloader.args)) (bootloaderSheet Version.F15) (fun args n => F15_Bootloader.selfed _ _ args n _ (by decide)) (by decide) (fun _ _ => rfl) (by decide +kernel)

theorem F17_Bootloader.selfed (k : Info) (init : Ns) (args : List Str) (n : Nat) (skip : List Str) (hs : ∀ k ∈ ([c!"_md5pass", c!"isCrypted", c!"password"] : List Str), k ∈ skip) :
    M.Self n (Before init skip) (F17_Bootloader.parse k args) fun _ => ParsedBy k.op init skip n args := by
  unfold F17_Bootloader.parse
  refine self_call (F15_Bootloader.selfed k init args n skip (fun x hx => hs x (by revert x; decide))) fun _ => ?_
  repeat' (first | self_step)

theorem selfBack_F17_Bootloader_t : F17_Bootloader.cls.SelfReadsBack (bootloaderSheet Version.F17) (setToObj F17_Bootloader.info.op.defaults F17_Bootloader.init) :=
  plain_readsBack (o := (FC3_Bootloader.strOut F17_Bootloader.args)) (bootloaderSheet Version.F17) (fun args n => F17_Bootloader.selfed _ _ args n _ (by decide)) (by decide) (fun _ _ => rfl) (by decide +kernel)

theorem selfBack_F18_Bootloader_t : F18_Bootloader.cls.SelfReadsBack (bootloaderSheet Version.F18) (setToObj F18_Bootloader.info.op.defaults F18_Bootloader.init) :=
  plain_readsBack (o := (FC3_Bootloader.strOut F18_Bootloader.args)) (bootloaderSheet Version.F18) (fun args n => F17_Bootloader.selfed _ _ args n _ (by decide)) (by decide) (fun _ _ => rfl) (by decide +kernel)

theorem selfBack_F19_Bootloader_t : F19_Bootloader.cls.SelfReadsBack (bootloaderSheet Version.F19) (setToObj F19_Bootloader.info.op.defaults F19_Bootloader.init) :=
  plain_readsBack (o := (FC3_Bootloader.strOut F19_Bootloader.args)) (bootloaderSheet Version.F19) (fun args n => F17_Bootloader.selfed _ _ args n _ (by decide)) (by decide) (fun _ _ => rfl) (by decide +kernel)

theorem selfBack_F21_Bootloader_t : F21_Bootloader.cls.SelfReadsBack (bootloaderSheet Version.F21) (setToObj F21_Bootloader.info.op.defaults F21_Bootloader.init) :=
  plain_readsBack (o := (FC3_Bootloader.strOut F21_Bootloader.args)) (bootloaderSheet Version.F21) (fun args n => F17_Bootloader.selfed _ _ args n _ (by decide)) (by decide) (fun _ _ => rfl) (by decide +kernel)

theorem selfBack_F29_Bootloader_t : F29_Bootloader.cls.SelfReadsBack (bootloaderSheet Version.F29) (setToObj F29_Bootloader.info.op.defaults F29_Bootloader.init) :=
  plain_readsBack (o := (FC3_Bootloader.strOut F21_Bootloader.args)) (bootloaderSheet Version.F29) (fun args n => F17_Bootloader.selfed _ _ args n _ (by decide)) (by decide) (fun _ _ => rfl) (by decide +kernel)

theorem selfBack_F34_Bootloader_t : F34_Bootloader.cls.SelfReadsBack (bootloaderSheet Version.F34) (setToObj F34_Bootloader.info.op.defaults F34_Bootloader.init) :=
  plain_readsBack (o := (FC3_Bootloader.strOut F21_Bootloader.args)) (bootloaderSheet Version.F34) (fun args n => F17_Bootloader.selfed _ _ args n _ (by decide)) (by decide) (fun _ _ => rfl) (by decide +kernel)

theorem selfBack_FC4_Bootloader : FC4_Bootloader.cls.SelfReadsBack (bootloaderSheet Version.F7) (setToObj FC4_Bootloader.info.op.defaults FC4_Bootloader.init) :=
  plain_readsBack (o := (FC3_Bootloader.strOut FC4_Bootloader.args)) (bootloaderSheet Version.F7) (fun args n => FC4_Bootloader.selfed _ _ args n _ (by decide)) (by decide) (fun _ _ => rfl) (by decide +kernel)

theorem FC3_Bootloader.selfed (k : Info) (init : Ns) (args : List Str) (n : Nat) (skip : List Str) (hs : ∀ k ∈ ([c!"useLilo"] : List Str), k ∈ skip) :
    M.Self n (Before init skip) (FC3_Bootloader.parse k args) fun _ => ParsedBy k.op init skip n args := by
  unfold FC3_Bootloader.parse
  repeat' (first | self_step)

theorem selfBack_FC3_Bootloader : FC3_Bootloader.cls.SelfReadsBack (bootloaderSheet Version.FC3) (setToObj FC3_Bootloader.info.op.defaults FC3_Bootloader.init) :=
  plain_readsBack (o := (FC3_Bootloader.strOut FC3_Bootloader.args)) (bootloaderSheet Version.FC3) (fun args n => FC3_Bootloader.selfed _ _ args n _ (by decide)) (by decide) (fun _ _ => rfl) (by decide +kernel)

theorem selfBack_RHEL5_Bootloader : RHEL5_Bootloader.cls.SelfReadsBack (bootloaderSheet Version.RHEL5) (setToObj RHEL5_Bootloader.info.op.defaults RHEL5_Bootloader.init) :=
  plain_readsBack (o := (FC3_Bootloader.strOut RHEL5_Bootloader.args)) (bootloaderSheet Version.RHEL5) (fun args n => FC4_Bootloader.selfed _ _ args n _ (by decide)) (by decide) (fun _ _ => rfl) (by decide +kernel)

theorem RHEL6_Bootloader.selfed (k : Info) (init : Ns) (args : List Str) (n : Nat) (skip : List Str) (hs : ∀ k ∈ ([c!"_md5pass", c!"isCrypted", c!"password"] : List Str), k ∈ skip) :
    M.Self n (Before init skip) (RHEL6_Bootloader.parse k args) fun _ => ParsedBy k.op init skip n args := by
  unfold RHEL6_Bootloader.parse
  repeat' (first | self_step | extract_lets)

theorem selfBack_RHEL6_Bootloader_t : RHEL6_Bootloader.cls.SelfReadsBack (bootloaderSheet Version.RHEL6) (setToObj RHEL6_Bootloader.info.op.defaults RHEL6_Bootloader.init) :=
  plain_readsBack (o := (FC3_Bootloader.strOut RHEL6_Bootloader.args)) (bootloaderSheet Version.RHEL6) (fun args n => RHEL6_Bootloader.selfed _ _ args n _ (by decide)) (by decide) (fun _ _ => rfl) (by decide +kernel)

theorem selfBack_RHEL7_Bootloader_t : RHEL7_Bootloader.cls.SelfReadsBack (bootloaderSheet Version.RHEL7) (setToObj RHEL7_Bootloader.info.op.defaults RHEL7_Bootloader.init) :=
  plain_readsBack (o := (FC3_Bootloader.strOut F21_Bootloader.args)) (bootloaderSheet Version.RHEL7) (fun args n => F17_Bootloader.selfed _ _ args n _ (by decide)) (by decide) (fun _ _ => rfl) (by decide +kernel)

theorem selfBack_RHEL8_Bootloader_t : RHEL8_Bootloader.cls.SelfReadsBack (bootloaderSheet Version.RHEL8) (setToObj RHEL8_Bootloader.info.op.defaults RHEL8_Bootloader.init) :=
  plain_readsBack (o := (FC3_Bootloader.strOut F21_Bootloader.args)) (bootloaderSheet Version.RHEL8) (fun args n => F17_Bootloader.selfed _ _ args n _ (by decide)) (by decide) (fun _ _ => rfl) (by decide +kernel)

theorem selfBack_bootloader : ∀ y ∈ commandMaps, ∀ c, y.2.lookup c!"bootloader" = some c → 0 ≤ y.1 → ¬ Command.IsDeprecated c → ¬ Command.IsRemoved c → ∃ base, c.SelfReadsBack (bootloaderSheet y.1) base := by
  unfold commandMaps
  exact (all_cons (fun c h hv hd hr => by cases h; exact ⟨_, selfBack_F8_Bootloader⟩)
    (all_cons (fun c h hv hd hr => by cases h; exact ⟨_, selfBack_F8_Bootloader⟩)
    (all_cons (fun c h hv hd hr => by cases h; exact ⟨_, selfBack_F12_Bootloader⟩)
    (all_cons (fun c h hv hd hr => by cases h; exact ⟨_, selfBack_F12_Bootloader⟩)
    (all_cons (fun c h hv hd hr => by cases h; exact ⟨_, selfBack_F14_Bootloader⟩)
    (all_cons (fun c h hv hd hr => by cases h; exact ⟨_, selfBack_F15_Bootloader_t⟩)
    (all_cons (fun c h hv hd hr => by cases h; exact ⟨_, selfBack_F15_Bootloader_t⟩)
    (all_cons (fun c h hv hd hr => by cases h; exact ⟨_, selfBack_F17_Bootloader_t⟩)
    (all_cons (fun c h hv hd hr => by cases h; exact ⟨_, selfBack_F18_Bootloader_t⟩)
    (all_cons (fun c h hv hd hr => by cases h; exact ⟨_, selfBack_F19_Bootloader_t⟩)
    (all_cons (fun c h hv hd hr => by cases h; exact ⟨_, selfBack_F19_Bootloader_t⟩)
    (all_cons (fun c h hv hd hr => by cases h; exact ⟨_, selfBack_F21_Bootloader_t⟩)
    (all_cons (fun c h hv hd hr => by cases h; exact ⟨_, selfBack_F21_Bootloader_t⟩)
    (all_cons (fun c h hv hd hr => by cases h; exact ⟨_, selfBack_F21_Bootloader_t⟩)
    (all_cons (fun c h hv hd hr => by cases h; exact ⟨_, selfBack_F21_Bootloader_t⟩)
    (all_cons (fun c h hv hd hr => by cases h; exact ⟨_, selfBack_F21_Bootloader_t⟩)
    (all_cons (fun c h hv hd hr => by cases h; exact ⟨_, selfBack_F21_Bootloader_t⟩)
    (all_cons (fun c h hv hd hr => by cases h; exact ⟨_, selfBack_F21_Bootloader_t⟩)
    (all_cons (fun c h hv hd hr => by cases h; exact ⟨_, selfBack_F21_Bootloader_t⟩)
    (all_cons (fun c h hv hd hr => by cases h; exact ⟨_, selfBack_F29_Bootloader_t⟩)
    (all_cons (fun c h hv hd hr => by cases h; exact ⟨_, selfBack_F29_Bootloader_t⟩)
    (all_cons (fun c h hv hd hr => by cases h; exact ⟨_, selfBack_F29_Bootloader_t⟩)
    (all_cons (fun c h hv hd hr => by cases h; exact ⟨_, selfBack_F29_Bootloader_t⟩)
    (all_cons (fun c h hv hd hr => by cases h; exact ⟨_, selfBack_F29_Bootloader_t⟩)
    (all_cons (fun c h hv hd hr => by cases h; exact ⟨_, selfBack_F34_Bootloader_t⟩)
    (all_cons (fun c h hv hd hr => by cases h; exact ⟨_, selfBack_FC4_Bootloader⟩)
    (all_cons (fun c h hv hd hr => by cases h; exact ⟨_, selfBack_F8_Bootloader⟩)
    (all_cons (fun c h hv hd hr => by cases h; exact ⟨_, selfBack_F8_Bootloader⟩)
    (all_cons (fun c h hv hd hr => by cases h; exact ⟨_, selfBack_FC3_Bootloader⟩)
    (all_cons (fun c h hv hd hr => by cases h; exact ⟨_, selfBack_FC4_Bootloader⟩)
    (all_cons (fun c h hv hd hr => by cases h; exact ⟨_, selfBack_FC4_Bootloader⟩)
    (all_cons (fun c h hv hd hr => by cases h; exact ⟨_, selfBack_FC4_Bootloader⟩)
    (all_cons (fun c h hv hd hr => by cases h; exact ⟨_, selfBack_FC3_Bootloader⟩)
    (all_cons (fun c h hv hd hr => by cases h; exact ⟨_, selfBack_FC3_Bootloader⟩)
    (all_cons (fun c h hv hd hr => by cases h; exact ⟨_, selfBack_RHEL5_Bootloader⟩)
    (all_cons (fun c h hv hd hr => by cases h; exact ⟨_, selfBack_RHEL6_Bootloader_t⟩)
    (all_cons (fun c h hv hd hr => by cases h; exact ⟨_, selfBack_RHEL7_Bootloader_t⟩)
    (all_cons (fun c h hv hd hr => by cases h; exact ⟨_, selfBack_RHEL8_Bootloader_t⟩) (List.forall_mem_nil _)))))))))))))))))))))))))))))))))))))))

end Ks.Cmd
