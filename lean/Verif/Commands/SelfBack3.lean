import Verif.Commands.SelfLogic
import Verif.Commands.SelfSheets
import Verif.Commands.SelfIgnore
import Verif.Commands.StripTexts
import Verif.Commands.StageLogic
/-!
# Commands without data lists read their text back

Written by `scripts/gen_selfback.py`.
-/
namespace Ks.Cmd

set_option linter.unusedVariables false

theorem FC3_NFS.selfed (k : Info) (init : Ns) (args : List Str) (n : Nat) (skip : List Str) (hs : ∀ k ∈ ([] : List Str), k ∈ skip) :
    M.Self n (Before init skip) (FC3_NFS.parse k args) fun _ => ParsedBy k.op init skip n args := by
  unfold FC3_NFS.parse
  repeat' (first | self_step)

theorem selfBack_FC6_NFS_t : FC6_NFS.cls.SelfReadsBack (nfsSheet Version.F10) (setToObj FC6_NFS.info.op.defaults FC6_NFS.init) :=
  plain_readsBack (o := FC6_NFS.out ++ [(.tru c!"seen", [.lit c!"\n"])]) (nfsSheet Version.F10) (fun args n => FC3_NFS.selfed _ _ args n _ (by decide)) (by decide) (fun d hp => FC6_NFS.lined.render ⟨hp.2.2.1, hp.1.present⟩) (by decide +kernel)

theorem selfBack_FC3_NFS : FC3_NFS.cls.SelfReadsBack (nfsSheet Version.FC3) (setToObj FC3_NFS.info.op.defaults FC3_NFS.init) :=
  plain_readsBack (o := FC3_NFS.strOut) (nfsSheet Version.FC3) (fun args n => FC3_NFS.selfed _ _ args n _ (by decide)) (by decide) (fun _ _ => rfl) (by decide +kernel)

theorem selfBack_nfs : ∀ y ∈ commandMaps, ∀ c, y.2.lookup c!"nfs" = some c → 0 ≤ y.1 → ¬ Command.IsDeprecated c → ¬ Command.IsRemoved c → ∃ base, c.SelfReadsBack (nfsSheet y.1) base := by
  unfold commandMaps
  exact (all_cons (fun c h hv hd hr => by cases h; exact ⟨_, selfBack_FC6_NFS_t⟩)
    (all_cons (fun c h hv hd hr => by cases h; exact ⟨_, selfBack_FC6_NFS_t⟩)
    (all_cons (fun c h hv hd hr => by cases h; exact ⟨_, selfBack_FC6_NFS_t⟩)
    (all_cons (fun c h hv hd hr => by cases h; exact ⟨_, selfBack_FC6_NFS_t⟩)
    (all_cons (fun c h hv hd hr => by cases h; exact ⟨_, selfBack_FC6_NFS_t⟩)
    (all_cons (fun c h hv hd hr => by cases h; exact ⟨_, selfBack_FC6_NFS_t⟩)
    (all_cons (fun c h hv hd hr => by cases h; exact ⟨_, selfBack_FC6_NFS_t⟩)
    (all_cons (fun c h hv hd hr => by cases h; exact ⟨_, selfBack_FC6_NFS_t⟩)
    (all_cons (fun c h hv hd hr => by cases h; exact ⟨_, selfBack_FC6_NFS_t⟩)
    (all_cons (fun c h hv hd hr => by cases h; exact ⟨_, selfBack_FC6_NFS_t⟩)
    (all_cons (fun c h hv hd hr => by cases h; exact ⟨_, selfBack_FC6_NFS_t⟩)
    (all_cons (fun c h hv hd hr => by cases h; exact ⟨_, selfBack_FC6_NFS_t⟩)
    (all_cons (fun c h hv hd hr => by cases h; exact ⟨_, selfBack_FC6_NFS_t⟩)
    (all_cons (fun c h hv hd hr => by cases h; exact ⟨_, selfBack_FC6_NFS_t⟩)
    (all_cons (fun c h hv hd hr => by cases h; exact ⟨_, selfBack_FC6_NFS_t⟩)
    (all_cons (fun c h hv hd hr => by cases h; exact ⟨_, selfBack_FC6_NFS_t⟩)
    (all_cons (fun c h hv hd hr => by cases h; exact ⟨_, selfBack_FC6_NFS_t⟩)
    (all_cons (fun c h hv hd hr => by cases h; exact ⟨_, selfBack_FC6_NFS_t⟩)
    (all_cons (fun c h hv hd hr => by cases h; exact ⟨_, selfBack_FC6_NFS_t⟩)
    (all_cons (fun c h hv hd hr => by cases h; exact ⟨_, selfBack_FC6_NFS_t⟩)
    (all_cons (fun c h hv hd hr => by cases h; exact ⟨_, selfBack_FC6_NFS_t⟩)
    (all_cons (fun c h hv hd hr => by cases h; exact ⟨_, selfBack_FC6_NFS_t⟩)
    (all_cons (fun c h hv hd hr => by cases h; exact ⟨_, selfBack_FC6_NFS_t⟩)
    (all_cons (fun c h hv hd hr => by cases h; exact ⟨_, selfBack_FC6_NFS_t⟩)
    (all_cons (fun c h hv hd hr => by cases h; exact ⟨_, selfBack_FC6_NFS_t⟩)
    (all_cons (fun c h hv hd hr => by cases h; exact ⟨_, selfBack_FC6_NFS_t⟩)
    (all_cons (fun c h hv hd hr => by cases h; exact ⟨_, selfBack_FC6_NFS_t⟩)
    (all_cons (fun c h hv hd hr => by cases h; exact ⟨_, selfBack_FC6_NFS_t⟩)
    (all_cons (fun c h hv hd hr => by cases h; exact ⟨_, selfBack_FC3_NFS⟩)
    (all_cons (fun c h hv hd hr => by cases h; exact ⟨_, selfBack_FC3_NFS⟩)
    (all_cons (fun c h hv hd hr => by cases h; exact ⟨_, selfBack_FC3_NFS⟩)
    (all_cons (fun c h hv hd hr => by cases h; exact ⟨_, selfBack_FC6_NFS_t⟩)
    (all_cons (fun c h hv hd hr => by cases h; exact ⟨_, selfBack_FC3_NFS⟩)
    (all_cons (fun c h hv hd hr => by cases h; exact ⟨_, selfBack_FC3_NFS⟩)
    (all_cons (fun c h hv hd hr => by cases h; exact ⟨_, selfBack_FC6_NFS_t⟩)
    (all_cons (fun c h hv hd hr => by cases h; exact ⟨_, selfBack_FC6_NFS_t⟩)
    (all_cons (fun c h hv hd hr => by cases h; exact ⟨_, selfBack_FC6_NFS_t⟩)
    (all_cons (fun c h hv hd hr => by cases h; exact ⟨_, selfBack_FC6_NFS_t⟩) (List.forall_mem_nil _)))))))))))))))))))))))))))))))))))))))

theorem F21_OSTreeSetup.selfed (k : Info) (init : Ns) (args : List Str) (n : Nat) (skip : List Str) (hs : ∀ k ∈ ([c!"remote"] : List Str), k ∈ skip) :
    M.Self n (Before init skip) (F21_OSTreeSetup.parse k args) fun _ => ParsedBy k.op init skip n args := by
  unfold F21_OSTreeSetup.parse
  repeat' (first | self_step)

theorem selfBack_F21_OSTreeSetup : F21_OSTreeSetup.cls.SelfReadsBack (ostreesetupSheet Version.F21) (setToObj F21_OSTreeSetup.info.op.defaults F21_OSTreeSetup.init) :=
  plain_readsBack (o := (F21_OSTreeSetup.strOut F21_OSTreeSetup.args)) (ostreesetupSheet Version.F21) (fun args n => F21_OSTreeSetup.selfed _ _ args n _ (by decide)) (by decide) (fun _ _ => rfl) (by decide +kernel)

theorem selfBack_RHEL7_OSTreeSetup : RHEL7_OSTreeSetup.cls.SelfReadsBack (ostreesetupSheet Version.RHEL7) (setToObj RHEL7_OSTreeSetup.info.op.defaults RHEL7_OSTreeSetup.init) :=
  plain_readsBack (o := (F21_OSTreeSetup.strOut F21_OSTreeSetup.args)) (ostreesetupSheet Version.RHEL7) (fun args n => F21_OSTreeSetup.selfed _ _ args n _ (by decide)) (by decide) (fun _ _ => rfl) (by decide +kernel)

theorem selfBack_RHEL8_OSTreeSetup : RHEL8_OSTreeSetup.cls.SelfReadsBack (ostreesetupSheet Version.RHEL8) (setToObj RHEL8_OSTreeSetup.info.op.defaults RHEL8_OSTreeSetup.init) :=
  plain_readsBack (o := (F21_OSTreeSetup.strOut F21_OSTreeSetup.args)) (ostreesetupSheet Version.RHEL8) (fun args n => F21_OSTreeSetup.selfed _ _ args n _ (by decide)) (by decide) (fun _ _ => rfl) (by decide +kernel)

theorem selfBack_ostreesetup : ∀ y ∈ commandMaps, ∀ c, y.2.lookup c!"ostreesetup" = some c → 0 ≤ y.1 → ¬ Command.IsDeprecated c → ¬ Command.IsRemoved c → ∃ base, c.SelfReadsBack (ostreesetupSheet y.1) base := by
  unfold commandMaps
  exact (all_cons (fun c h hv hd hr => by cases h)
    (all_cons (fun c h hv hd hr => by cases h)
    (all_cons (fun c h hv hd hr => by cases h)
    (all_cons (fun c h hv hd hr => by cases h)
    (all_cons (fun c h hv hd hr => by cases h)
    (all_cons (fun c h hv hd hr => by cases h)
    (all_cons (fun c h hv hd hr => by cases h)
    (all_cons (fun c h hv hd hr => by cases h)
    (all_cons (fun c h hv hd hr => by cases h)
    (all_cons (fun c h hv hd hr => by cases h)
    (all_cons (fun c h hv hd hr => by cases h)
    (all_cons (fun c h hv hd hr => by cases h; exact ⟨_, selfBack_F21_OSTreeSetup⟩)
    (all_cons (fun c h hv hd hr => by cases h; exact ⟨_, selfBack_F21_OSTreeSetup⟩)
    (all_cons (fun c h hv hd hr => by cases h; exact ⟨_, selfBack_F21_OSTreeSetup⟩)
    (all_cons (fun c h hv hd hr => by cases h; exact ⟨_, selfBack_F21_OSTreeSetup⟩)
    (all_cons (fun c h hv hd hr => by cases h; exact ⟨_, selfBack_F21_OSTreeSetup⟩)
    (all_cons (fun c h hv hd hr => by cases h; exact ⟨_, selfBack_F21_OSTreeSetup⟩)
    (all_cons (fun c h hv hd hr => by cases h; exact ⟨_, selfBack_F21_OSTreeSetup⟩)
    (all_cons (fun c h hv hd hr => by cases h; exact ⟨_, selfBack_F21_OSTreeSetup⟩)
    (all_cons (fun c h hv hd hr => by cases h; exact ⟨_, selfBack_F21_OSTreeSetup⟩)
    (all_cons (fun c h hv hd hr => by cases h; exact ⟨_, selfBack_F21_OSTreeSetup⟩)
    (all_cons (fun c h hv hd hr => by cases h; exact ⟨_, selfBack_F21_OSTreeSetup⟩)
    (all_cons (fun c h hv hd hr => by cases h; exact ⟨_, selfBack_F21_OSTreeSetup⟩)
    (all_cons (fun c h hv hd hr => by cases h; exact ⟨_, selfBack_F21_OSTreeSetup⟩)
    (all_cons (fun c h hv hd hr => by cases h; exact ⟨_, selfBack_F21_OSTreeSetup⟩)
    (all_cons (fun c h hv hd hr => by cases h)
    (all_cons (fun c h hv hd hr => by cases h)
    (all_cons (fun c h hv hd hr => by cases h)
    (all_cons (fun c h hv hd hr => by cases h)
    (all_cons (fun c h hv hd hr => by cases h)
    (all_cons (fun c h hv hd hr => by cases h)
    (all_cons (fun c h hv hd hr => by cases h)
    (all_cons (fun c h hv hd hr => by cases h)
    (all_cons (fun c h hv hd hr => by cases h)
    (all_cons (fun c h hv hd hr => by cases h)
    (all_cons (fun c h hv hd hr => by cases h)
    (all_cons (fun c h hv hd hr => by cases h; exact ⟨_, selfBack_RHEL7_OSTreeSetup⟩)
    (all_cons (fun c h hv hd hr => by cases h; exact ⟨_, selfBack_RHEL8_OSTreeSetup⟩) (List.forall_mem_nil _)))))))))))))))))))))))))))))))))))))))

theorem FC3_Reboot.selfed (k : Info) (init : Ns) (args : List Str) (n : Nat) (skip : List Str) (hs : ∀ k ∈ ([c!"action"] : List Str), k ∈ skip) :
    M.Self n (Before init skip) (FC3_Reboot.parse k args) fun _ => Before init skip := by
  unfold FC3_Reboot.parse
  repeat' (first | self_step)

theorem FC6_Reboot.selfed (k : Info) (init : Ns) (args : List Str) (n : Nat) (skip : List Str) (hs : ∀ k ∈ ([c!"action"] : List Str), k ∈ skip) :
    M.Self n (Before init skip) (FC6_Reboot.parse k args) fun _ => ParsedBy k.op init skip n args := by
  unfold FC6_Reboot.parse
  refine self_call (FC3_Reboot.selfed k init args n skip (fun x hx => hs x (by revert x; decide))) fun _ => ?_
  repeat' (first | self_step)

theorem selfBack_FC6_Reboot : FC6_Reboot.cls.SelfReadsBack (rebootSheet Version.F10) (setToObj FC6_Reboot.info.op.defaults FC6_Reboot.init) :=
  plain_readsBack (o := (FC3_Reboot.strOut FC6_Reboot.args)) (rebootSheet Version.F10) (fun args n => FC6_Reboot.selfed _ _ args n _ (by decide)) (by decide) (fun _ _ => rfl) (by decide +kernel)

theorem F18_Reboot.selfed (k : Info) (init : Ns) (args : List Str) (n : Nat) (skip : List Str) (hs : ∀ k ∈ ([c!"action"] : List Str), k ∈ skip) :
    M.Self n (Before init skip) (F18_Reboot.parse k args) fun _ => ParsedBy k.op init skip n args := by
  unfold F18_Reboot.parse
  refine self_call (FC6_Reboot.selfed k init args n skip (fun x hx => hs x (by revert x; decide))) fun _ => ?_
  repeat' (first | self_step)

theorem selfBack_F18_Reboot_t : F18_Reboot.cls.SelfReadsBack (rebootSheet Version.F18) (setToObj F18_Reboot.info.op.defaults F18_Reboot.init) :=
  plain_readsBack (o := (F18_Reboot.strOut FC6_Reboot.args)) (rebootSheet Version.F18) (fun args n => F18_Reboot.selfed _ _ args n _ (by decide)) (by decide) (fun _ _ => rfl) (by decide +kernel)

theorem selfBack_F23_Reboot_t : F23_Reboot.cls.SelfReadsBack (rebootSheet Version.F23) (setToObj F23_Reboot.info.op.defaults F23_Reboot.init) :=
  plain_readsBack (o := (F18_Reboot.strOut F23_Reboot.args)) (rebootSheet Version.F23) (fun args n => F18_Reboot.selfed _ _ args n _ (by decide)) (by decide) (fun _ _ => rfl) (by decide +kernel)

theorem selfBack_reboot : ∀ y ∈ commandMaps, ∀ c, y.2.lookup c!"reboot" = some c → Version.FC6 ≤ y.1 → ¬ Command.IsDeprecated c → ¬ Command.IsRemoved c → ∃ base, c.SelfReadsBack (rebootSheet y.1) base := by
  unfold commandMaps
  exact (all_cons (fun c h hv hd hr => by cases h; exact ⟨_, selfBack_FC6_Reboot⟩)
    (all_cons (fun c h hv hd hr => by cases h; exact ⟨_, selfBack_FC6_Reboot⟩)
    (all_cons (fun c h hv hd hr => by cases h; exact ⟨_, selfBack_FC6_Reboot⟩)
    (all_cons (fun c h hv hd hr => by cases h; exact ⟨_, selfBack_FC6_Reboot⟩)
    (all_cons (fun c h hv hd hr => by cases h; exact ⟨_, selfBack_FC6_Reboot⟩)
    (all_cons (fun c h hv hd hr => by cases h; exact ⟨_, selfBack_FC6_Reboot⟩)
    (all_cons (fun c h hv hd hr => by cases h; exact ⟨_, selfBack_FC6_Reboot⟩)
    (all_cons (fun c h hv hd hr => by cases h; exact ⟨_, selfBack_FC6_Reboot⟩)
    (all_cons (fun c h hv hd hr => by cases h; exact ⟨_, selfBack_F18_Reboot_t⟩)
    (all_cons (fun c h hv hd hr => by cases h; exact ⟨_, selfBack_F18_Reboot_t⟩)
    (all_cons (fun c h hv hd hr => by cases h; exact ⟨_, selfBack_F18_Reboot_t⟩)
    (all_cons (fun c h hv hd hr => by cases h; exact ⟨_, selfBack_F18_Reboot_t⟩)
    (all_cons (fun c h hv hd hr => by cases h; exact ⟨_, selfBack_F18_Reboot_t⟩)
    (all_cons (fun c h hv hd hr => by cases h; exact ⟨_, selfBack_F23_Reboot_t⟩)
    (all_cons (fun c h hv hd hr => by cases h; exact ⟨_, selfBack_F23_Reboot_t⟩)
    (all_cons (fun c h hv hd hr => by cases h; exact ⟨_, selfBack_F23_Reboot_t⟩)
    (all_cons (fun c h hv hd hr => by cases h; exact ⟨_, selfBack_F23_Reboot_t⟩)
    (all_cons (fun c h hv hd hr => by cases h; exact ⟨_, selfBack_F23_Reboot_t⟩)
    (all_cons (fun c h hv hd hr => by cases h; exact ⟨_, selfBack_F23_Reboot_t⟩)
    (all_cons (fun c h hv hd hr => by cases h; exact ⟨_, selfBack_F23_Reboot_t⟩)
    (all_cons (fun c h hv hd hr => by cases h; exact ⟨_, selfBack_F23_Reboot_t⟩)
    (all_cons (fun c h hv hd hr => by cases h; exact ⟨_, selfBack_F23_Reboot_t⟩)
    (all_cons (fun c h hv hd hr => by cases h; exact ⟨_, selfBack_F23_Reboot_t⟩)
    (all_cons (fun c h hv hd hr => by cases h; exact ⟨_, selfBack_F23_Reboot_t⟩)
    (all_cons (fun c h hv hd hr => by cases h; exact ⟨_, selfBack_F23_Reboot_t⟩)
    (all_cons (fun c h hv hd hr => by cases h; exact ⟨_, selfBack_FC6_Reboot⟩)
    (all_cons (fun c h hv hd hr => by cases h; exact ⟨_, selfBack_FC6_Reboot⟩)
    (all_cons (fun c h hv hd hr => by cases h; exact ⟨_, selfBack_FC6_Reboot⟩)
    (all_cons (fun c h hv hd hr => absurd hv (by decide))
    (all_cons (fun c h hv hd hr => absurd hv (by decide))
    (all_cons (fun c h hv hd hr => absurd hv (by decide))
    (all_cons (fun c h hv hd hr => by cases h; exact ⟨_, selfBack_FC6_Reboot⟩)
    (all_cons (fun c h hv hd hr => absurd hv (by decide))
    (all_cons (fun c h hv hd hr => absurd hv (by decide))
    (all_cons (fun c h hv hd hr => by cases h; exact ⟨_, selfBack_FC6_Reboot⟩)
    (all_cons (fun c h hv hd hr => by cases h; exact ⟨_, selfBack_FC6_Reboot⟩)
    (all_cons (fun c h hv hd hr => by cases h; exact ⟨_, selfBack_F18_Reboot_t⟩)
    (all_cons (fun c h hv hd hr => by cases h; exact ⟨_, selfBack_F23_Reboot_t⟩) (List.forall_mem_nil _)))))))))))))))))))))))))))))))))))))))

theorem F23_ReqPart.selfed (k : Info) (init : Ns) (args : List Str) (n : Nat) (skip : List Str) (hs : ∀ k ∈ ([c!"reqpart"] : List Str), k ∈ skip) :
    M.Self n (Before init skip) (F23_ReqPart.parse k args) fun _ => ParsedBy k.op init skip n args := by
  unfold F23_ReqPart.parse
  repeat' (first | self_step)

theorem selfBack_F23_ReqPart : F23_ReqPart.cls.SelfReadsBack (reqpartSheet Version.F23) (setToObj F23_ReqPart.info.op.defaults F23_ReqPart.init) :=
  plain_readsBack (o := (F23_ReqPart.strOut F23_ReqPart.args)) (reqpartSheet Version.F23) (fun args n => F23_ReqPart.selfed _ _ args n _ (by decide)) (by decide) (fun _ _ => rfl) (by decide +kernel)

theorem selfBack_RHEL7_ReqPart : RHEL7_ReqPart.cls.SelfReadsBack (reqpartSheet Version.RHEL7) (setToObj RHEL7_ReqPart.info.op.defaults RHEL7_ReqPart.init) :=
  plain_readsBack (o := (F23_ReqPart.strOut F23_ReqPart.args)) (reqpartSheet Version.RHEL7) (fun args n => F23_ReqPart.selfed _ _ args n _ (by decide)) (by decide) (fun _ _ => rfl) (by decide +kernel)

theorem selfBack_reqpart : ∀ y ∈ commandMaps, ∀ c, y.2.lookup c!"reqpart" = some c → 0 ≤ y.1 → ¬ Command.IsDeprecated c → ¬ Command.IsRemoved c → ∃ base, c.SelfReadsBack (reqpartSheet y.1) base := by
  unfold commandMaps
  exact (all_cons (fun c h hv hd hr => by cases h)
    (all_cons (fun c h hv hd hr => by cases h)
    (all_cons (fun c h hv hd hr => by cases h)
    (all_cons (fun c h hv hd hr => by cases h)
    (all_cons (fun c h hv hd hr => by cases h)
    (all_cons (fun c h hv hd hr => by cases h)
    (all_cons (fun c h hv hd hr => by cases h)
    (all_cons (fun c h hv hd hr => by cases h)
    (all_cons (fun c h hv hd hr => by cases h)
    (all_cons (fun c h hv hd hr => by cases h)
    (all_cons (fun c h hv hd hr => by cases h)
    (all_cons (fun c h hv hd hr => by cases h)
    (all_cons (fun c h hv hd hr => by cases h)
    (all_cons (fun c h hv hd hr => by cases h; exact ⟨_, selfBack_F23_ReqPart⟩)
    (all_cons (fun c h hv hd hr => by cases h; exact ⟨_, selfBack_F23_ReqPart⟩)
    (all_cons (fun c h hv hd hr => by cases h; exact ⟨_, selfBack_F23_ReqPart⟩)
    (all_cons (fun c h hv hd hr => by cases h; exact ⟨_, selfBack_F23_ReqPart⟩)
    (all_cons (fun c h hv hd hr => by cases h; exact ⟨_, selfBack_F23_ReqPart⟩)
    (all_cons (fun c h hv hd hr => by cases h; exact ⟨_, selfBack_F23_ReqPart⟩)
    (all_cons (fun c h hv hd hr => by cases h; exact ⟨_, selfBack_F23_ReqPart⟩)
    (all_cons (fun c h hv hd hr => by cases h; exact ⟨_, selfBack_F23_ReqPart⟩)
    (all_cons (fun c h hv hd hr => by cases h; exact ⟨_, selfBack_F23_ReqPart⟩)
    (all_cons (fun c h hv hd hr => by cases h; exact ⟨_, selfBack_F23_ReqPart⟩)
    (all_cons (fun c h hv hd hr => by cases h; exact ⟨_, selfBack_F23_ReqPart⟩)
    (all_cons (fun c h hv hd hr => by cases h; exact ⟨_, selfBack_F23_ReqPart⟩)
    (all_cons (fun c h hv hd hr => by cases h)
    (all_cons (fun c h hv hd hr => by cases h)
    (all_cons (fun c h hv hd hr => by cases h)
    (all_cons (fun c h hv hd hr => by cases h)
    (all_cons (fun c h hv hd hr => by cases h)
    (all_cons (fun c h hv hd hr => by cases h)
    (all_cons (fun c h hv hd hr => by cases h)
    (all_cons (fun c h hv hd hr => by cases h)
    (all_cons (fun c h hv hd hr => by cases h)
    (all_cons (fun c h hv hd hr => by cases h)
    (all_cons (fun c h hv hd hr => by cases h)
    (all_cons (fun c h hv hd hr => by cases h; exact ⟨_, selfBack_RHEL7_ReqPart⟩)
    (all_cons (fun c h hv hd hr => by cases h; exact ⟨_, selfBack_F23_ReqPart⟩) (List.forall_mem_nil _)))))))))))))))))))))))))))))))))))))))

theorem F10_Rescue.selfed (k : Info) (init : Ns) (args : List Str) (n : Nat) (skip : List Str) (hs : ∀ k ∈ ([c!"rescue"] : List Str), k ∈ skip) :
    M.Self n (Before init skip) (F10_Rescue.parse k args) fun _ => ParsedBy k.op init skip n args := by
  unfold F10_Rescue.parse
  repeat' (first | self_step)

theorem selfBack_F10_Rescue : F10_Rescue.cls.SelfReadsBack (rescueSheet Version.F10) (setToObj F10_Rescue.info.op.defaults F10_Rescue.init) :=
  plain_readsBack (o := F10_Rescue.strOut) (rescueSheet Version.F10) (fun args n => F10_Rescue.selfed _ _ args n _ (by decide)) (by decide) (fun _ _ => rfl) (by decide +kernel)

theorem selfBack_rescue : ∀ y ∈ commandMaps, ∀ c, y.2.lookup c!"rescue" = some c → 0 ≤ y.1 → ¬ Command.IsDeprecated c → ¬ Command.IsRemoved c → ∃ base, c.SelfReadsBack (rescueSheet y.1) base := by
  unfold commandMaps
  exact (all_cons (fun c h hv hd hr => by cases h; exact ⟨_, selfBack_F10_Rescue⟩)
    (all_cons (fun c h hv hd hr => by cases h; exact ⟨_, selfBack_F10_Rescue⟩)
    (all_cons (fun c h hv hd hr => by cases h; exact ⟨_, selfBack_F10_Rescue⟩)
    (all_cons (fun c h hv hd hr => by cases h; exact ⟨_, selfBack_F10_Rescue⟩)
    (all_cons (fun c h hv hd hr => by cases h; exact ⟨_, selfBack_F10_Rescue⟩)
    (all_cons (fun c h hv hd hr => by cases h; exact ⟨_, selfBack_F10_Rescue⟩)
    (all_cons (fun c h hv hd hr => by cases h; exact ⟨_, selfBack_F10_Rescue⟩)
    (all_cons (fun c h hv hd hr => by cases h; exact ⟨_, selfBack_F10_Rescue⟩)
    (all_cons (fun c h hv hd hr => by cases h; exact ⟨_, selfBack_F10_Rescue⟩)
    (all_cons (fun c h hv hd hr => by cases h; exact ⟨_, selfBack_F10_Rescue⟩)
    (all_cons (fun c h hv hd hr => by cases h; exact ⟨_, selfBack_F10_Rescue⟩)
    (all_cons (fun c h hv hd hr => by cases h; exact ⟨_, selfBack_F10_Rescue⟩)
    (all_cons (fun c h hv hd hr => by cases h; exact ⟨_, selfBack_F10_Rescue⟩)
    (all_cons (fun c h hv hd hr => by cases h; exact ⟨_, selfBack_F10_Rescue⟩)
    (all_cons (fun c h hv hd hr => by cases h; exact ⟨_, selfBack_F10_Rescue⟩)
    (all_cons (fun c h hv hd hr => by cases h; exact ⟨_, selfBack_F10_Rescue⟩)
    (all_cons (fun c h hv hd hr => by cases h; exact ⟨_, selfBack_F10_Rescue⟩)
    (all_cons (fun c h hv hd hr => by cases h; exact ⟨_, selfBack_F10_Rescue⟩)
    (all_cons (fun c h hv hd hr => by cases h; exact ⟨_, selfBack_F10_Rescue⟩)
    (all_cons (fun c h hv hd hr => by cases h; exact ⟨_, selfBack_F10_Rescue⟩)
    (all_cons (fun c h hv hd hr => by cases h; exact ⟨_, selfBack_F10_Rescue⟩)
    (all_cons (fun c h hv hd hr => by cases h; exact ⟨_, selfBack_F10_Rescue⟩)
    (all_cons (fun c h hv hd hr => by cases h; exact ⟨_, selfBack_F10_Rescue⟩)
    (all_cons (fun c h hv hd hr => by cases h; exact ⟨_, selfBack_F10_Rescue⟩)
    (all_cons (fun c h hv hd hr => by cases h; exact ⟨_, selfBack_F10_Rescue⟩)
    (all_cons (fun c h hv hd hr => by cases h)
    (all_cons (fun c h hv hd hr => by cases h)
    (all_cons (fun c h hv hd hr => by cases h)
    (all_cons (fun c h hv hd hr => by cases h)
    (all_cons (fun c h hv hd hr => by cases h)
    (all_cons (fun c h hv hd hr => by cases h)
    (all_cons (fun c h hv hd hr => by cases h)
    (all_cons (fun c h hv hd hr => by cases h)
    (all_cons (fun c h hv hd hr => by cases h)
    (all_cons (fun c h hv hd hr => by cases h)
    (all_cons (fun c h hv hd hr => by cases h; exact ⟨_, selfBack_F10_Rescue⟩)
    (all_cons (fun c h hv hd hr => by cases h; exact ⟨_, selfBack_F10_Rescue⟩)
    (all_cons (fun c h hv hd hr => by cases h; exact ⟨_, selfBack_F10_Rescue⟩) (List.forall_mem_nil _)))))))))))))))))))))))))))))))))))))))

theorem FC3_SELinux.selfed (k : Info) (init : Ns) (args : List Str) (n : Nat) (skip : List Str) (hs : ∀ k ∈ ([] : List Str), k ∈ skip) :
    M.Self n (Before init skip) (FC3_SELinux.parse k args) fun _ => ParsedBy k.op init skip n args := by
  unfold FC3_SELinux.parse
  repeat' (first | self_step)

theorem selfBack_FC3_SELinux : FC3_SELinux.cls.SelfReadsBack (selinuxSheet Version.F10) (setToObj FC3_SELinux.info.op.defaults FC3_SELinux.init) :=
  plain_readsBack (o := FC3_SELinux.strOut) (selinuxSheet Version.F10) (fun args n => FC3_SELinux.selfed _ _ args n _ (by decide)) (by decide) (fun _ _ => rfl) (by decide +kernel)

theorem selfBack_selinux : ∀ y ∈ commandMaps, ∀ c, y.2.lookup c!"selinux" = some c → 0 ≤ y.1 → ¬ Command.IsDeprecated c → ¬ Command.IsRemoved c → ∃ base, c.SelfReadsBack (selinuxSheet y.1) base := by
  unfold commandMaps
  exact (all_cons (fun c h hv hd hr => by cases h; exact ⟨_, selfBack_FC3_SELinux⟩)
    (all_cons (fun c h hv hd hr => by cases h; exact ⟨_, selfBack_FC3_SELinux⟩)
    (all_cons (fun c h hv hd hr => by cases h; exact ⟨_, selfBack_FC3_SELinux⟩)
    (all_cons (fun c h hv hd hr => by cases h; exact ⟨_, selfBack_FC3_SELinux⟩)
    (all_cons (fun c h hv hd hr => by cases h; exact ⟨_, selfBack_FC3_SELinux⟩)
    (all_cons (fun c h hv hd hr => by cases h; exact ⟨_, selfBack_FC3_SELinux⟩)
    (all_cons (fun c h hv hd hr => by cases h; exact ⟨_, selfBack_FC3_SELinux⟩)
    (all_cons (fun c h hv hd hr => by cases h; exact ⟨_, selfBack_FC3_SELinux⟩)
    (all_cons (fun c h hv hd hr => by cases h; exact ⟨_, selfBack_FC3_SELinux⟩)
    (all_cons (fun c h hv hd hr => by cases h; exact ⟨_, selfBack_FC3_SELinux⟩)
    (all_cons (fun c h hv hd hr => by cases h; exact ⟨_, selfBack_FC3_SELinux⟩)
    (all_cons (fun c h hv hd hr => by cases h; exact ⟨_, selfBack_FC3_SELinux⟩)
    (all_cons (fun c h hv hd hr => by cases h; exact ⟨_, selfBack_FC3_SELinux⟩)
    (all_cons (fun c h hv hd hr => by cases h; exact ⟨_, selfBack_FC3_SELinux⟩)
    (all_cons (fun c h hv hd hr => by cases h; exact ⟨_, selfBack_FC3_SELinux⟩)
    (all_cons (fun c h hv hd hr => by cases h; exact ⟨_, selfBack_FC3_SELinux⟩)
    (all_cons (fun c h hv hd hr => by cases h; exact ⟨_, selfBack_FC3_SELinux⟩)
    (all_cons (fun c h hv hd hr => by cases h; exact ⟨_, selfBack_FC3_SELinux⟩)
    (all_cons (fun c h hv hd hr => by cases h; exact ⟨_, selfBack_FC3_SELinux⟩)
    (all_cons (fun c h hv hd hr => by cases h; exact ⟨_, selfBack_FC3_SELinux⟩)
    (all_cons (fun c h hv hd hr => by cases h; exact ⟨_, selfBack_FC3_SELinux⟩)
    (all_cons (fun c h hv hd hr => by cases h; exact ⟨_, selfBack_FC3_SELinux⟩)
    (all_cons (fun c h hv hd hr => by cases h; exact ⟨_, selfBack_FC3_SELinux⟩)
    (all_cons (fun c h hv hd hr => by cases h; exact ⟨_, selfBack_FC3_SELinux⟩)
    (all_cons (fun c h hv hd hr => by cases h; exact ⟨_, selfBack_FC3_SELinux⟩)
    (all_cons (fun c h hv hd hr => by cases h; exact ⟨_, selfBack_FC3_SELinux⟩)
    (all_cons (fun c h hv hd hr => by cases h; exact ⟨_, selfBack_FC3_SELinux⟩)
    (all_cons (fun c h hv hd hr => by cases h; exact ⟨_, selfBack_FC3_SELinux⟩)
    (all_cons (fun c h hv hd hr => by cases h; exact ⟨_, selfBack_FC3_SELinux⟩)
    (all_cons (fun c h hv hd hr => by cases h; exact ⟨_, selfBack_FC3_SELinux⟩)
    (all_cons (fun c h hv hd hr => by cases h; exact ⟨_, selfBack_FC3_SELinux⟩)
    (all_cons (fun c h hv hd hr => by cases h; exact ⟨_, selfBack_FC3_SELinux⟩)
    (all_cons (fun c h hv hd hr => by cases h)
    (all_cons (fun c h hv hd hr => by cases h; exact ⟨_, selfBack_FC3_SELinux⟩)
    (all_cons (fun c h hv hd hr => by cases h; exact ⟨_, selfBack_FC3_SELinux⟩)
    (all_cons (fun c h hv hd hr => by cases h; exact ⟨_, selfBack_FC3_SELinux⟩)
    (all_cons (fun c h hv hd hr => by cases h; exact ⟨_, selfBack_FC3_SELinux⟩)
    (all_cons (fun c h hv hd hr => by cases h; exact ⟨_, selfBack_FC3_SELinux⟩) (List.forall_mem_nil _)))))))))))))))))))))))))))))))))))))))

theorem FC6_Services.selfed (k : Info) (init : Ns) (args : List Str) (n : Nat) (skip : List Str) (hs : ∀ k ∈ ([] : List Str), k ∈ skip) :
    M.Self n (Before init skip) (FC6_Services.parse k args) fun _ => ParsedBy k.op init skip n args := by
  unfold FC6_Services.parse
  repeat' (first | self_step)

theorem selfBack_FC6_Services : FC6_Services.cls.SelfReadsBack (servicesSheet Version.F10) (setToObj FC6_Services.info.op.defaults FC6_Services.init) :=
  plain_readsBack (o := FC6_Services.strOut) (servicesSheet Version.F10) (fun args n => FC6_Services.selfed _ _ args n _ (by decide)) (by decide) (fun _ _ => rfl) (by decide +kernel)

theorem selfBack_services : ∀ y ∈ commandMaps, ∀ c, y.2.lookup c!"services" = some c → 0 ≤ y.1 → ¬ Command.IsDeprecated c → ¬ Command.IsRemoved c → ∃ base, c.SelfReadsBack (servicesSheet y.1) base := by
  unfold commandMaps
  exact (all_cons (fun c h hv hd hr => by cases h; exact ⟨_, selfBack_FC6_Services⟩)
    (all_cons (fun c h hv hd hr => by cases h; exact ⟨_, selfBack_FC6_Services⟩)
    (all_cons (fun c h hv hd hr => by cases h; exact ⟨_, selfBack_FC6_Services⟩)
    (all_cons (fun c h hv hd hr => by cases h; exact ⟨_, selfBack_FC6_Services⟩)
    (all_cons (fun c h hv hd hr => by cases h; exact ⟨_, selfBack_FC6_Services⟩)
    (all_cons (fun c h hv hd hr => by cases h; exact ⟨_, selfBack_FC6_Services⟩)
    (all_cons (fun c h hv hd hr => by cases h; exact ⟨_, selfBack_FC6_Services⟩)
    (all_cons (fun c h hv hd hr => by cases h; exact ⟨_, selfBack_FC6_Services⟩)
    (all_cons (fun c h hv hd hr => by cases h; exact ⟨_, selfBack_FC6_Services⟩)
    (all_cons (fun c h hv hd hr => by cases h; exact ⟨_, selfBack_FC6_Services⟩)
    (all_cons (fun c h hv hd hr => by cases h; exact ⟨_, selfBack_FC6_Services⟩)
    (all_cons (fun c h hv hd hr => by cases h; exact ⟨_, selfBack_FC6_Services⟩)
    (all_cons (fun c h hv hd hr => by cases h; exact ⟨_, selfBack_FC6_Services⟩)
    (all_cons (fun c h hv hd hr => by cases h; exact ⟨_, selfBack_FC6_Services⟩)
    (all_cons (fun c h hv hd hr => by cases h; exact ⟨_, selfBack_FC6_Services⟩)
    (all_cons (fun c h hv hd hr => by cases h; exact ⟨_, selfBack_FC6_Services⟩)
    (all_cons (fun c h hv hd hr => by cases h; exact ⟨_, selfBack_FC6_Services⟩)
    (all_cons (fun c h hv hd hr => by cases h; exact ⟨_, selfBack_FC6_Services⟩)
    (all_cons (fun c h hv hd hr => by cases h; exact ⟨_, selfBack_FC6_Services⟩)
    (all_cons (fun c h hv hd hr => by cases h; exact ⟨_, selfBack_FC6_Services⟩)
    (all_cons (fun c h hv hd hr => by cases h; exact ⟨_, selfBack_FC6_Services⟩)
    (all_cons (fun c h hv hd hr => by cases h; exact ⟨_, selfBack_FC6_Services⟩)
    (all_cons (fun c h hv hd hr => by cases h; exact ⟨_, selfBack_FC6_Services⟩)
    (all_cons (fun c h hv hd hr => by cases h; exact ⟨_, selfBack_FC6_Services⟩)
    (all_cons (fun c h hv hd hr => by cases h; exact ⟨_, selfBack_FC6_Services⟩)
    (all_cons (fun c h hv hd hr => by cases h; exact ⟨_, selfBack_FC6_Services⟩)
    (all_cons (fun c h hv hd hr => by cases h; exact ⟨_, selfBack_FC6_Services⟩)
    (all_cons (fun c h hv hd hr => by cases h; exact ⟨_, selfBack_FC6_Services⟩)
    (all_cons (fun c h hv hd hr => by cases h)
    (all_cons (fun c h hv hd hr => by cases h)
    (all_cons (fun c h hv hd hr => by cases h)
    (all_cons (fun c h hv hd hr => by cases h; exact ⟨_, selfBack_FC6_Services⟩)
    (all_cons (fun c h hv hd hr => by cases h)
    (all_cons (fun c h hv hd hr => by cases h)
    (all_cons (fun c h hv hd hr => by cases h; exact ⟨_, selfBack_FC6_Services⟩)
    (all_cons (fun c h hv hd hr => by cases h; exact ⟨_, selfBack_FC6_Services⟩)
    (all_cons (fun c h hv hd hr => by cases h; exact ⟨_, selfBack_FC6_Services⟩)
    (all_cons (fun c h hv hd hr => by cases h; exact ⟨_, selfBack_FC6_Services⟩) (List.forall_mem_nil _)))))))))))))))))))))))))))))))))))))))

theorem FC3_Timezone.selfed (k : Info) (init : Ns) (args : List Str) (n : Nat) (skip : List Str) (hs : ∀ k ∈ ([c!"timezone"] : List Str), k ∈ skip) :
    M.Self n (Before init skip) (FC3_Timezone.parse k args) fun _ => ParsedBy k.op init skip n args := by
  unfold FC3_Timezone.parse
  repeat' (first | self_step | extract_lets)

theorem selfBack_FC6_Timezone_t : FC6_Timezone.cls.SelfReadsBack (timezoneSheet Version.F10) (setToObj FC6_Timezone.info.op.defaults FC6_Timezone.init) :=
  plain_readsBack (o := FC6_Timezone.strOut) (timezoneSheet Version.F10) (fun args n => FC3_Timezone.selfed _ _ args n _ (by decide)) (by decide) (fun _ _ => rfl) (by decide +kernel)

theorem F18_Timezone.selfed (k : Info) (init : Ns) (args : List Str) (n : Nat) (skip : List Str) (hs : ∀ k ∈ ([c!"ntpservers", c!"timezone"] : List Str), k ∈ skip) :
    M.Self n (Before init skip) (F18_Timezone.parse k args) fun _ => ParsedBy k.op init skip n args := by
  unfold F18_Timezone.parse
  refine self_call (FC3_Timezone.selfed k init args n skip (fun x hx => hs x (by revert x; decide))) fun _ => ?_
  repeat' (first | self_step)

theorem selfBack_F18_Timezone_t : F18_Timezone.cls.SelfReadsBack (timezoneSheet Version.F18) (setToObj F18_Timezone.info.op.defaults F18_Timezone.init) :=
  plain_readsBack (o := (F18_Timezone.strOut F18_Timezone.args)) (timezoneSheet Version.F18) (fun args n => F18_Timezone.selfed _ _ args n _ (by decide)) (by decide) (fun _ _ => rfl) (by decide +kernel)

theorem F23_Timezone.selfed (k : Info) (init : Ns) (args : List Str) (n : Nat) (skip : List Str) (hs : ∀ k ∈ ([c!"timezone"] : List Str), k ∈ skip) :
    M.Self n (Before init skip) (F23_Timezone.parse k args) fun _ => ParsedBy k.op init skip n args := by
  unfold F23_Timezone.parse
  refine self_call (FC3_Timezone.selfed k init args n skip (fun x hx => hs x (by revert x; decide))) fun _ => ?_
  repeat' (first | self_step)

theorem selfBack_F23_Timezone : F23_Timezone.cls.SelfReadsBack (timezoneSheet Version.F23) (setToObj F23_Timezone.info.op.defaults F23_Timezone.init) :=
  plain_readsBack (o := (F18_Timezone.strOut F18_Timezone.args)) (timezoneSheet Version.F23) (fun args n => F23_Timezone.selfed _ _ args n _ (by decide)) (by decide) (fun _ _ => rfl) (by decide +kernel)

theorem F25_Timezone.selfed (k : Info) (init : Ns) (args : List Str) (n : Nat) (skip : List Str) (hs : ∀ k ∈ ([c!"timezone"] : List Str), k ∈ skip) :
    M.Self n (Before init skip) (F25_Timezone.parse k args) fun _ => ParsedBy k.op init skip n args := by
  unfold F25_Timezone.parse
  repeat' (first | self_step)

theorem selfBack_F25_Timezone : F25_Timezone.cls.SelfReadsBack (timezoneSheet Version.F25) (setToObj F25_Timezone.info.op.defaults F25_Timezone.init) :=
  plain_readsBack (o := (F25_Timezone.strOut F25_Timezone.args)) (timezoneSheet Version.F25) (fun args n => F25_Timezone.selfed _ _ args n _ (by decide)) (by decide) (fun _ _ => rfl) (by decide +kernel)

theorem F32_Timezone.selfed (k : Info) (init : Ns) (args : List Str) (n : Nat) (skip : List Str) (hs : ∀ k ∈ ([c!"timezone"] : List Str), k ∈ skip) :
    M.Self n (Before init skip) (F32_Timezone.parse k args) fun _ => ParsedBy k.op init skip n args := by
  unfold F32_Timezone.parse
  refine self_call (F25_Timezone.selfed k init args n skip (fun x hx => hs x (by revert x; decide))) fun _ => ?_
  repeat' (first | self_step)

theorem selfBack_F32_Timezone : F32_Timezone.cls.SelfReadsBack (timezoneSheet Version.F32) (setToObj F32_Timezone.info.op.defaults F32_Timezone.init) :=
  plain_readsBack (o := (F25_Timezone.strOut F32_Timezone.args)) (timezoneSheet Version.F32) (fun args n => F32_Timezone.selfed _ _ args n _ (by decide)) (by decide) (fun _ _ => rfl) (by decide +kernel)

theorem F33_Timezone.selfed (k : Info) (init : Ns) (args : List Str) (n : Nat) (skip : List Str) (hs : ∀ k ∈ ([c!"timezone"] : List Str), k ∈ skip) :
    M.Self n (Before init skip) (F33_Timezone.parse k args) fun _ => ParsedBy k.op init skip n args := by
  unfold F33_Timezone.parse
  refine self_call (F32_Timezone.selfed k init args n skip (fun x hx => hs x (by revert x; decide))) fun _ => ?_
  repeat' (first | self_step)

theorem selfBack_F33_Timezone : F33_Timezone.cls.SelfReadsBack (timezoneSheet Version.F33) (setToObj F33_Timezone.info.op.defaults F33_Timezone.init) :=
  plain_readsBack (o := (F25_Timezone.strOut F32_Timezone.args)) (timezoneSheet Version.F33) (fun args n => F33_Timezone.selfed _ _ args n _ (by decide)) (by decide) (fun _ _ => rfl) (by decide +kernel)

theorem selfBack_FC3_Timezone_t : FC3_Timezone.cls.SelfReadsBack (timezoneSheet Version.FC3) (setToObj FC3_Timezone.info.op.defaults FC3_Timezone.init) :=
  plain_readsBack (o := FC3_Timezone.strOut) (timezoneSheet Version.FC3) (fun args n => FC3_Timezone.selfed _ _ args n _ (by decide)) (by decide) (fun _ _ => rfl) (by decide +kernel)

theorem RHEL7_Timezone.selfed (k : Info) (init : Ns) (args : List Str) (n : Nat) (skip : List Str) (hs : ∀ k ∈ ([c!"timezone"] : List Str), k ∈ skip) :
    M.Self n (Before init skip) (RHEL7_Timezone.parse k args) fun _ => ParsedBy k.op init skip n args := by
  unfold RHEL7_Timezone.parse
  repeat' (first | self_step)

theorem selfBack_RHEL7_Timezone_t : RHEL7_Timezone.cls.SelfReadsBack (timezoneSheet Version.RHEL7) (setToObj RHEL7_Timezone.info.op.defaults RHEL7_Timezone.init) :=
  plain_readsBack (o := (F18_Timezone.strOut F18_Timezone.args)) (timezoneSheet Version.RHEL7) (fun args n => RHEL7_Timezone.selfed _ _ args n _ (by decide)) (by decide) (fun _ _ => rfl) (by decide +kernel)

theorem selfBack_timezone : ∀ y ∈ commandMaps, ∀ c, y.2.lookup c!"timezone" = some c → 0 ≤ y.1 → ¬ Command.IsDeprecated c → ¬ Command.IsRemoved c → ∃ base, c.SelfReadsBack (timezoneSheet y.1) base := by
  unfold commandMaps
  exact (all_cons (fun c h hv hd hr => by cases h; exact ⟨_, selfBack_FC6_Timezone_t⟩)
    (all_cons (fun c h hv hd hr => by cases h; exact ⟨_, selfBack_FC6_Timezone_t⟩)
    (all_cons (fun c h hv hd hr => by cases h; exact ⟨_, selfBack_FC6_Timezone_t⟩)
    (all_cons (fun c h hv hd hr => by cases h; exact ⟨_, selfBack_FC6_Timezone_t⟩)
    (all_cons (fun c h hv hd hr => by cases h; exact ⟨_, selfBack_FC6_Timezone_t⟩)
    (all_cons (fun c h hv hd hr => by cases h; exact ⟨_, selfBack_FC6_Timezone_t⟩)
    (all_cons (fun c h hv hd hr => by cases h; exact ⟨_, selfBack_FC6_Timezone_t⟩)
    (all_cons (fun c h hv hd hr => by cases h; exact ⟨_, selfBack_FC6_Timezone_t⟩)
    (all_cons (fun c h hv hd hr => by cases h; exact ⟨_, selfBack_F18_Timezone_t⟩)
    (all_cons (fun c h hv hd hr => by cases h; exact ⟨_, selfBack_F18_Timezone_t⟩)
    (all_cons (fun c h hv hd hr => by cases h; exact ⟨_, selfBack_F18_Timezone_t⟩)
    (all_cons (fun c h hv hd hr => by cases h; exact ⟨_, selfBack_F18_Timezone_t⟩)
    (all_cons (fun c h hv hd hr => by cases h; exact ⟨_, selfBack_F18_Timezone_t⟩)
    (all_cons (fun c h hv hd hr => by cases h; exact ⟨_, selfBack_F23_Timezone⟩)
    (all_cons (fun c h hv hd hr => by cases h; exact ⟨_, selfBack_F23_Timezone⟩)
    (all_cons (fun c h hv hd hr => by cases h; exact ⟨_, selfBack_F25_Timezone⟩)
    (all_cons (fun c h hv hd hr => by cases h; exact ⟨_, selfBack_F25_Timezone⟩)
    (all_cons (fun c h hv hd hr => by cases h; exact ⟨_, selfBack_F25_Timezone⟩)
    (all_cons (fun c h hv hd hr => by cases h; exact ⟨_, selfBack_F25_Timezone⟩)
    (all_cons (fun c h hv hd hr => by cases h; exact ⟨_, selfBack_F25_Timezone⟩)
    (all_cons (fun c h hv hd hr => by cases h; exact ⟨_, selfBack_F25_Timezone⟩)
    (all_cons (fun c h hv hd hr => by cases h; exact ⟨_, selfBack_F25_Timezone⟩)
    (all_cons (fun c h hv hd hr => by cases h; exact ⟨_, selfBack_F32_Timezone⟩)
    (all_cons (fun c h hv hd hr => by cases h; exact ⟨_, selfBack_F33_Timezone⟩)
    (all_cons (fun c h hv hd hr => by cases h; exact ⟨_, selfBack_F33_Timezone⟩)
    (all_cons (fun c h hv hd hr => by cases h; exact ⟨_, selfBack_FC6_Timezone_t⟩)
    (all_cons (fun c h hv hd hr => by cases h; exact ⟨_, selfBack_FC6_Timezone_t⟩)
    (all_cons (fun c h hv hd hr => by cases h; exact ⟨_, selfBack_FC6_Timezone_t⟩)
    (all_cons (fun c h hv hd hr => by cases h; exact ⟨_, selfBack_FC3_Timezone_t⟩)
    (all_cons (fun c h hv hd hr => by cases h; exact ⟨_, selfBack_FC3_Timezone_t⟩)
    (all_cons (fun c h hv hd hr => by cases h; exact ⟨_, selfBack_FC3_Timezone_t⟩)
    (all_cons (fun c h hv hd hr => by cases h; exact ⟨_, selfBack_FC6_Timezone_t⟩)
    (all_cons (fun c h hv hd hr => by cases h; exact ⟨_, selfBack_FC3_Timezone_t⟩)
    (all_cons (fun c h hv hd hr => by cases h; exact ⟨_, selfBack_FC3_Timezone_t⟩)
    (all_cons (fun c h hv hd hr => by cases h; exact ⟨_, selfBack_FC6_Timezone_t⟩)
    (all_cons (fun c h hv hd hr => by cases h; exact ⟨_, selfBack_FC6_Timezone_t⟩)
    (all_cons (fun c h hv hd hr => by cases h; exact ⟨_, selfBack_RHEL7_Timezone_t⟩)
    (all_cons (fun c h hv hd hr => by cases h; exact ⟨_, selfBack_F25_Timezone⟩) (List.forall_mem_nil _)))))))))))))))))))))))))))))))))))))))

theorem FC3_Url.selfed (k : Info) (init : Ns) (args : List Str) (n : Nat) (skip : List Str) (hs : ∀ k ∈ ([] : List Str), k ∈ skip) :
    M.Self n (Before init skip) (FC3_Url.parse k args) fun _ => ParsedBy k.op init skip n args := by
  unfold FC3_Url.parse
  repeat' (first | self_step)

theorem selfBack_FC3_Url_t : FC3_Url.cls.SelfReadsBack (urlSheet Version.F10) (setToObj FC3_Url.info.op.defaults FC3_Url.init) :=
  plain_readsBack (o := FC3_Url.strOut) (urlSheet Version.F10) (fun args n => FC3_Url.selfed _ _ args n _ (by decide)) (by decide) (fun _ _ => rfl) (by decide +kernel)

theorem selfBack_F13_Url_t : F13_Url.cls.SelfReadsBack (urlSheet Version.F13) (setToObj F13_Url.info.op.defaults F13_Url.init) :=
  plain_readsBack (o := F13_Url.out ++ [(.tru c!"seen", [.lit c!"\n"])]) (urlSheet Version.F13) (fun args n => FC3_Url.selfed _ _ args n _ (by decide)) (by decide) (fun d hp => F13_Url.lined.render ⟨hp.2.2.1, hp.1.present⟩) (by decide +kernel)

theorem selfBack_F14_Url_t : F14_Url.cls.SelfReadsBack (urlSheet Version.F14) (setToObj F14_Url.info.op.defaults F14_Url.init) :=
  plain_readsBack (o := F14_Url.out ++ [(.tru c!"seen", [.lit c!"\n"])]) (urlSheet Version.F14) (fun args n => FC3_Url.selfed _ _ args n _ (by decide)) (by decide) (fun d hp => F14_Url.lined.render ⟨hp.2.2.1, hp.1.present⟩) (by decide +kernel)

theorem F18_Url.selfed (k : Info) (init : Ns) (args : List Str) (n : Nat) (skip : List Str) (hs : ∀ k ∈ ([] : List Str), k ∈ skip) :
    M.Self n (Before init skip) (F18_Url.parse k args) fun _ => ParsedBy k.op init skip n args := by
  unfold F18_Url.parse
  refine self_call (FC3_Url.selfed k init args n skip (fun x hx => hs x (by revert x; decide))) fun _ => ?_
  repeat' (first | self_step | extract_lets)

theorem selfBack_F18_Url : F18_Url.cls.SelfReadsBack (urlSheet Version.F18) (setToObj F18_Url.info.op.defaults F18_Url.init) :=
  plain_readsBack (o := urlBy c!"url" (F18_Url.strOut.drop 3)) (urlSheet Version.F18) (fun args n => F18_Url.selfed _ _ args n _ (by decide)) (by decide) (fun d hp => F18_Url.byUrl d (hp.2.2.2 _ (.head _))) (by decide +kernel)

theorem selfBack_F27_Url : F27_Url.cls.SelfReadsBack (urlSheet Version.F27) (setToObj F27_Url.info.op.defaults F27_Url.init) :=
  plain_readsBack (o := urlBy c!"url" (F27_Url.strOut.drop 4)) (urlSheet Version.F27) (fun args n => F18_Url.selfed _ _ args n _ (by decide)) (by decide) (fun d hp => F27_Url.byUrl d (hp.2.2.2 _ (.head _))) (by decide +kernel)

theorem selfBack_F30_Url : F30_Url.cls.SelfReadsBack (urlSheet Version.F30) (setToObj F30_Url.info.op.defaults F30_Url.init) :=
  plain_readsBack (o := urlBy c!"url" (F30_Url.out.drop 4)) (urlSheet Version.F30) (fun args n => F18_Url.selfed _ _ args n _ (by decide)) (by decide) (fun d hp => F30_Url.byUrl d (hp.2.2.2 _ (.head _))) (by decide +kernel)

theorem selfBack_RHEL6_Url_t : RHEL6_Url.cls.SelfReadsBack (urlSheet Version.RHEL6) (setToObj RHEL6_Url.info.op.defaults RHEL6_Url.init) :=
  plain_readsBack (o := F14_Url.out ++ [(.tru c!"seen", [.lit c!"\n"])]) (urlSheet Version.RHEL6) (fun args n => FC3_Url.selfed _ _ args n _ (by decide)) (by decide) (fun d hp => F14_Url.lined.render ⟨hp.2.2.1, hp.1.present⟩) (by decide +kernel)

theorem selfBack_RHEL8_Url : RHEL8_Url.cls.SelfReadsBack (urlSheet Version.RHEL8) (setToObj RHEL8_Url.info.op.defaults RHEL8_Url.init) :=
  plain_readsBack (o := urlBy c!"url" (F30_Url.out.drop 4)) (urlSheet Version.RHEL8) (fun args n => F18_Url.selfed _ _ args n _ (by decide)) (by decide) (fun d hp => F30_Url.byUrl d (hp.2.2.2 _ (.head _))) (by decide +kernel)

theorem selfBack_url : ∀ y ∈ commandMaps, ∀ c, y.2.lookup c!"url" = some c → 0 ≤ y.1 → ¬ Command.IsDeprecated c → ¬ Command.IsRemoved c → ∃ base, c.SelfReadsBack (urlSheet y.1) base := by
  unfold commandMaps
  exact (all_cons (fun c h hv hd hr => by cases h; exact ⟨_, selfBack_FC3_Url_t⟩)
    (all_cons (fun c h hv hd hr => by cases h; exact ⟨_, selfBack_FC3_Url_t⟩)
    (all_cons (fun c h hv hd hr => by cases h; exact ⟨_, selfBack_FC3_Url_t⟩)
    (all_cons (fun c h hv hd hr => by cases h; exact ⟨_, selfBack_F13_Url_t⟩)
    (all_cons (fun c h hv hd hr => by cases h; exact ⟨_, selfBack_F14_Url_t⟩)
    (all_cons (fun c h hv hd hr => by cases h; exact ⟨_, selfBack_F14_Url_t⟩)
    (all_cons (fun c h hv hd hr => by cases h; exact ⟨_, selfBack_F14_Url_t⟩)
    (all_cons (fun c h hv hd hr => by cases h; exact ⟨_, selfBack_F14_Url_t⟩)
    (all_cons (fun c h hv hd hr => by cases h; exact ⟨_, selfBack_F18_Url⟩)
    (all_cons (fun c h hv hd hr => by cases h; exact ⟨_, selfBack_F18_Url⟩)
    (all_cons (fun c h hv hd hr => by cases h; exact ⟨_, selfBack_F18_Url⟩)
    (all_cons (fun c h hv hd hr => by cases h; exact ⟨_, selfBack_F18_Url⟩)
    (all_cons (fun c h hv hd hr => by cases h; exact ⟨_, selfBack_F18_Url⟩)
    (all_cons (fun c h hv hd hr => by cases h; exact ⟨_, selfBack_F18_Url⟩)
    (all_cons (fun c h hv hd hr => by cases h; exact ⟨_, selfBack_F18_Url⟩)
    (all_cons (fun c h hv hd hr => by cases h; exact ⟨_, selfBack_F18_Url⟩)
    (all_cons (fun c h hv hd hr => by cases h; exact ⟨_, selfBack_F18_Url⟩)
    (all_cons (fun c h hv hd hr => by cases h; exact ⟨_, selfBack_F27_Url⟩)
    (all_cons (fun c h hv hd hr => by cases h; exact ⟨_, selfBack_F27_Url⟩)
    (all_cons (fun c h hv hd hr => by cases h; exact ⟨_, selfBack_F27_Url⟩)
    (all_cons (fun c h hv hd hr => by cases h; exact ⟨_, selfBack_F30_Url⟩)
    (all_cons (fun c h hv hd hr => by cases h; exact ⟨_, selfBack_F30_Url⟩)
    (all_cons (fun c h hv hd hr => by cases h; exact ⟨_, selfBack_F30_Url⟩)
    (all_cons (fun c h hv hd hr => by cases h; exact ⟨_, selfBack_F30_Url⟩)
    (all_cons (fun c h hv hd hr => by cases h; exact ⟨_, selfBack_F30_Url⟩)
    (all_cons (fun c h hv hd hr => by cases h; exact ⟨_, selfBack_FC3_Url_t⟩)
    (all_cons (fun c h hv hd hr => by cases h; exact ⟨_, selfBack_FC3_Url_t⟩)
    (all_cons (fun c h hv hd hr => by cases h; exact ⟨_, selfBack_FC3_Url_t⟩)
    (all_cons (fun c h hv hd hr => by cases h; exact ⟨_, selfBack_FC3_Url_t⟩)
    (all_cons (fun c h hv hd hr => by cases h; exact ⟨_, selfBack_FC3_Url_t⟩)
    (all_cons (fun c h hv hd hr => by cases h; exact ⟨_, selfBack_FC3_Url_t⟩)
    (all_cons (fun c h hv hd hr => by cases h; exact ⟨_, selfBack_FC3_Url_t⟩)
    (all_cons (fun c h hv hd hr => by cases h; exact ⟨_, selfBack_FC3_Url_t⟩)
    (all_cons (fun c h hv hd hr => by cases h; exact ⟨_, selfBack_FC3_Url_t⟩)
    (all_cons (fun c h hv hd hr => by cases h; exact ⟨_, selfBack_FC3_Url_t⟩)
    (all_cons (fun c h hv hd hr => by cases h; exact ⟨_, selfBack_RHEL6_Url_t⟩)
    (all_cons (fun c h hv hd hr => by cases h; exact ⟨_, selfBack_F18_Url⟩)
    (all_cons (fun c h hv hd hr => by cases h; exact ⟨_, selfBack_RHEL8_Url⟩) (List.forall_mem_nil _)))))))))))))))))))))))))))))))))))))))

theorem selfBack_F18_Url_urlMirror : F18_Url.cls.SelfReadsBack (urlMirrorSheet Version.F18) (setToObj F18_Url.info.op.defaults F18_Url.init) :=
  plain_readsBack (o := urlBy c!"mirrorlist" (F18_Url.strOut.drop 3)) (urlMirrorSheet Version.F18) (fun args n => F18_Url.selfed _ _ args n _ (by decide)) (by decide) (fun d hp => F18_Url.byMirror d (hp.2.2.2 _ (.head _)) (hp.2.2.2 _ (.tail _ (.head _)))) (by decide +kernel)

theorem selfBack_F27_Url_urlMirror : F27_Url.cls.SelfReadsBack (urlMirrorSheet Version.F27) (setToObj F27_Url.info.op.defaults F27_Url.init) :=
  plain_readsBack (o := urlBy c!"mirrorlist" (F27_Url.strOut.drop 4)) (urlMirrorSheet Version.F27) (fun args n => F18_Url.selfed _ _ args n _ (by decide)) (by decide) (fun d hp => F27_Url.byMirror d (hp.2.2.2 _ (.head _)) (hp.2.2.2 _ (.tail _ (.head _)))) (by decide +kernel)

theorem selfBack_F30_Url_urlMirror : F30_Url.cls.SelfReadsBack (urlMirrorSheet Version.F30) (setToObj F30_Url.info.op.defaults F30_Url.init) :=
  plain_readsBack (o := urlBy c!"mirrorlist" (F30_Url.out.drop 4)) (urlMirrorSheet Version.F30) (fun args n => F18_Url.selfed _ _ args n _ (by decide)) (by decide) (fun d hp => F30_Url.byMirror d (hp.2.2.2 _ (.head _)) (hp.2.2.2 _ (.tail _ (.head _)))) (by decide +kernel)

theorem selfBack_RHEL8_Url_urlMirror : RHEL8_Url.cls.SelfReadsBack (urlMirrorSheet Version.RHEL8) (setToObj RHEL8_Url.info.op.defaults RHEL8_Url.init) :=
  plain_readsBack (o := urlBy c!"mirrorlist" (F30_Url.out.drop 4)) (urlMirrorSheet Version.RHEL8) (fun args n => F18_Url.selfed _ _ args n _ (by decide)) (by decide) (fun d hp => F30_Url.byMirror d (hp.2.2.2 _ (.head _)) (hp.2.2.2 _ (.tail _ (.head _)))) (by decide +kernel)

theorem selfBack_urlMirror : ∀ y ∈ commandMaps, ∀ c, y.2.lookup c!"url" = some c → Version.F18 ≤ y.1 → ¬ Command.IsDeprecated c → ¬ Command.IsRemoved c → ∃ base, c.SelfReadsBack (urlMirrorSheet y.1) base := by
  unfold commandMaps
  exact (all_cons (fun c h hv hd hr => absurd hv (by decide))
    (all_cons (fun c h hv hd hr => absurd hv (by decide))
    (all_cons (fun c h hv hd hr => absurd hv (by decide))
    (all_cons (fun c h hv hd hr => absurd hv (by decide))
    (all_cons (fun c h hv hd hr => absurd hv (by decide))
    (all_cons (fun c h hv hd hr => absurd hv (by decide))
    (all_cons (fun c h hv hd hr => absurd hv (by decide))
    (all_cons (fun c h hv hd hr => absurd hv (by decide))
    (all_cons (fun c h hv hd hr => by cases h; exact ⟨_, selfBack_F18_Url_urlMirror⟩)
    (all_cons (fun c h hv hd hr => by cases h; exact ⟨_, selfBack_F18_Url_urlMirror⟩)
    (all_cons (fun c h hv hd hr => by cases h; exact ⟨_, selfBack_F18_Url_urlMirror⟩)
    (all_cons (fun c h hv hd hr => by cases h; exact ⟨_, selfBack_F18_Url_urlMirror⟩)
    (all_cons (fun c h hv hd hr => by cases h; exact ⟨_, selfBack_F18_Url_urlMirror⟩)
    (all_cons (fun c h hv hd hr => by cases h; exact ⟨_, selfBack_F18_Url_urlMirror⟩)
    (all_cons (fun c h hv hd hr => by cases h; exact ⟨_, selfBack_F18_Url_urlMirror⟩)
    (all_cons (fun c h hv hd hr => by cases h; exact ⟨_, selfBack_F18_Url_urlMirror⟩)
    (all_cons (fun c h hv hd hr => by cases h; exact ⟨_, selfBack_F18_Url_urlMirror⟩)
    (all_cons (fun c h hv hd hr => by cases h; exact ⟨_, selfBack_F27_Url_urlMirror⟩)
    (all_cons (fun c h hv hd hr => by cases h; exact ⟨_, selfBack_F27_Url_urlMirror⟩)
    (all_cons (fun c h hv hd hr => by cases h; exact ⟨_, selfBack_F27_Url_urlMirror⟩)
    (all_cons (fun c h hv hd hr => by cases h; exact ⟨_, selfBack_F30_Url_urlMirror⟩)
    (all_cons (fun c h hv hd hr => by cases h; exact ⟨_, selfBack_F30_Url_urlMirror⟩)
    (all_cons (fun c h hv hd hr => by cases h; exact ⟨_, selfBack_F30_Url_urlMirror⟩)
    (all_cons (fun c h hv hd hr => by cases h; exact ⟨_, selfBack_F30_Url_urlMirror⟩)
    (all_cons (fun c h hv hd hr => by cases h; exact ⟨_, selfBack_F30_Url_urlMirror⟩)
    (all_cons (fun c h hv hd hr => absurd hv (by decide))
    (all_cons (fun c h hv hd hr => absurd hv (by decide))
    (all_cons (fun c h hv hd hr => absurd hv (by decide))
    (all_cons (fun c h hv hd hr => absurd hv (by decide))
    (all_cons (fun c h hv hd hr => absurd hv (by decide))
    (all_cons (fun c h hv hd hr => absurd hv (by decide))
    (all_cons (fun c h hv hd hr => absurd hv (by decide))
    (all_cons (fun c h hv hd hr => absurd hv (by decide))
    (all_cons (fun c h hv hd hr => absurd hv (by decide))
    (all_cons (fun c h hv hd hr => absurd hv (by decide))
    (all_cons (fun c h hv hd hr => absurd hv (by decide))
    (all_cons (fun c h hv hd hr => by cases h; exact ⟨_, selfBack_F18_Url_urlMirror⟩)
    (all_cons (fun c h hv hd hr => by cases h; exact ⟨_, selfBack_RHEL8_Url_urlMirror⟩) (List.forall_mem_nil _)))))))))))))))))))))))))))))))))))))))

theorem selfBack_F27_Url_urlMeta : F27_Url.cls.SelfReadsBack (urlMetaSheet Version.F27) (setToObj F27_Url.info.op.defaults F27_Url.init) :=
  plain_readsBack (o := urlBy c!"metalink" (F27_Url.strOut.drop 4)) (urlMetaSheet Version.F27) (fun args n => F18_Url.selfed _ _ args n _ (by decide)) (by decide) (fun d hp => F27_Url.byMeta d (hp.2.2.2 _ (.head _)) (hp.2.2.2 _ (.tail _ (.head _))) (hp.2.2.2 _ (.tail _ (.tail _ (.head _))))) (by decide +kernel)

theorem selfBack_F30_Url_urlMeta : F30_Url.cls.SelfReadsBack (urlMetaSheet Version.F30) (setToObj F30_Url.info.op.defaults F30_Url.init) :=
  plain_readsBack (o := urlBy c!"metalink" (F30_Url.out.drop 4)) (urlMetaSheet Version.F30) (fun args n => F18_Url.selfed _ _ args n _ (by decide)) (by decide) (fun d hp => F30_Url.byMeta d (hp.2.2.2 _ (.head _)) (hp.2.2.2 _ (.tail _ (.head _))) (hp.2.2.2 _ (.tail _ (.tail _ (.head _))))) (by decide +kernel)

theorem selfBack_RHEL8_Url_urlMeta : RHEL8_Url.cls.SelfReadsBack (urlMetaSheet Version.RHEL8) (setToObj RHEL8_Url.info.op.defaults RHEL8_Url.init) :=
  plain_readsBack (o := urlBy c!"metalink" (F30_Url.out.drop 4)) (urlMetaSheet Version.RHEL8) (fun args n => F18_Url.selfed _ _ args n _ (by decide)) (by decide) (fun d hp => F30_Url.byMeta d (hp.2.2.2 _ (.head _)) (hp.2.2.2 _ (.tail _ (.head _))) (hp.2.2.2 _ (.tail _ (.tail _ (.head _))))) (by decide +kernel)

theorem selfBack_urlMeta : ∀ y ∈ commandMaps, ∀ c, y.2.lookup c!"url" = some c → Version.F27 ≤ y.1 → ¬ Command.IsDeprecated c → ¬ Command.IsRemoved c → ∃ base, c.SelfReadsBack (urlMetaSheet y.1) base := by
  unfold commandMaps
  exact (all_cons (fun c h hv hd hr => absurd hv (by decide))
    (all_cons (fun c h hv hd hr => absurd hv (by decide))
    (all_cons (fun c h hv hd hr => absurd hv (by decide))
    (all_cons (fun c h hv hd hr => absurd hv (by decide))
    (all_cons (fun c h hv hd hr => absurd hv (by decide))
    (all_cons (fun c h hv hd hr => absurd hv (by decide))
    (all_cons (fun c h hv hd hr => absurd hv (by decide))
    (all_cons (fun c h hv hd hr => absurd hv (by decide))
    (all_cons (fun c h hv hd hr => absurd hv (by decide))
    (all_cons (fun c h hv hd hr => absurd hv (by decide))
    (all_cons (fun c h hv hd hr => absurd hv (by decide))
    (all_cons (fun c h hv hd hr => absurd hv (by decide))
    (all_cons (fun c h hv hd hr => absurd hv (by decide))
    (all_cons (fun c h hv hd hr => absurd hv (by decide))
    (all_cons (fun c h hv hd hr => absurd hv (by decide))
    (all_cons (fun c h hv hd hr => absurd hv (by decide))
    (all_cons (fun c h hv hd hr => absurd hv (by decide))
    (all_cons (fun c h hv hd hr => by cases h; exact ⟨_, selfBack_F27_Url_urlMeta⟩)
    (all_cons (fun c h hv hd hr => by cases h; exact ⟨_, selfBack_F27_Url_urlMeta⟩)
    (all_cons (fun c h hv hd hr => by cases h; exact ⟨_, selfBack_F27_Url_urlMeta⟩)
    (all_cons (fun c h hv hd hr => by cases h; exact ⟨_, selfBack_F30_Url_urlMeta⟩)
    (all_cons (fun c h hv hd hr => by cases h; exact ⟨_, selfBack_F30_Url_urlMeta⟩)
    (all_cons (fun c h hv hd hr => by cases h; exact ⟨_, selfBack_F30_Url_urlMeta⟩)
    (all_cons (fun c h hv hd hr => by cases h; exact ⟨_, selfBack_F30_Url_urlMeta⟩)
    (all_cons (fun c h hv hd hr => by cases h; exact ⟨_, selfBack_F30_Url_urlMeta⟩)
    (all_cons (fun c h hv hd hr => absurd hv (by decide))
    (all_cons (fun c h hv hd hr => absurd hv (by decide))
    (all_cons (fun c h hv hd hr => absurd hv (by decide))
    (all_cons (fun c h hv hd hr => absurd hv (by decide))
    (all_cons (fun c h hv hd hr => absurd hv (by decide))
    (all_cons (fun c h hv hd hr => absurd hv (by decide))
    (all_cons (fun c h hv hd hr => absurd hv (by decide))
    (all_cons (fun c h hv hd hr => absurd hv (by decide))
    (all_cons (fun c h hv hd hr => absurd hv (by decide))
    (all_cons (fun c h hv hd hr => absurd hv (by decide))
    (all_cons (fun c h hv hd hr => absurd hv (by decide))
    (all_cons (fun c h hv hd hr => absurd hv (by decide))
    (all_cons (fun c h hv hd hr => by cases h; exact ⟨_, selfBack_RHEL8_Url_urlMeta⟩) (List.forall_mem_nil _)))))))))))))))))))))))))))))))))))))))

theorem FC3_Vnc.selfed (k : Info) (init : Ns) (args : List Str) (n : Nat) (skip : List Str) (hs : ∀ k ∈ ([c!"enabled"] : List Str), k ∈ skip) :
    M.Self n (Before init skip) (FC3_Vnc.parse k args) fun _ => ParsedBy k.op init skip n args := by
  unfold FC3_Vnc.parse
  repeat' (first | self_step)

theorem FC6_Vnc.selfed (k : Info) (init : Ns) (args : List Str) (n : Nat) (skip : List Str) (hs : ∀ k ∈ ([c!"_connect", c!"enabled", c!"host", c!"port"] : List Str), k ∈ skip) :
    M.Self n (Before init skip) (FC6_Vnc.parse k args) fun _ => ParsedBy k.op init skip n args := by
  unfold FC6_Vnc.parse
  refine self_call (FC3_Vnc.selfed k init args n skip (fun x hx => hs x (by revert x; decide))) fun _ => ?_
  repeat' (first | self_step | extract_lets)

theorem selfBack_F9_Vnc : F9_Vnc.cls.SelfReadsBack (vncSheet Version.F10) (setToObj F9_Vnc.info.op.defaults F9_Vnc.init) :=
  plain_readsBack (o := FC6_Vnc.strOut) (vncSheet Version.F10) (fun args n => FC6_Vnc.selfed _ _ args n _ (by decide)) (by decide) (fun _ _ => rfl) (by decide +kernel)

theorem selfBack_FC6_Vnc : FC6_Vnc.cls.SelfReadsBack (vncSheet Version.F7) (setToObj FC6_Vnc.info.op.defaults FC6_Vnc.init) :=
  plain_readsBack (o := FC6_Vnc.strOut) (vncSheet Version.F7) (fun args n => FC6_Vnc.selfed _ _ args n _ (by decide)) (by decide) (fun _ _ => rfl) (by decide +kernel)

theorem selfBack_FC3_Vnc_t : FC3_Vnc.cls.SelfReadsBack (vncSheet Version.FC3) (setToObj FC3_Vnc.info.op.defaults FC3_Vnc.init) :=
  plain_readsBack (o := FC3_Vnc.strOut) (vncSheet Version.FC3) (fun args n => FC3_Vnc.selfed _ _ args n _ (by decide)) (by decide) (fun _ _ => rfl) (by decide +kernel)

theorem selfBack_vnc : ∀ y ∈ commandMaps, ∀ c, y.2.lookup c!"vnc" = some c → 0 ≤ y.1 → ¬ Command.IsDeprecated c → ¬ Command.IsRemoved c → ∃ base, c.SelfReadsBack (vncSheet y.1) base := by
  unfold commandMaps
  exact (all_cons (fun c h hv hd hr => by cases h; exact ⟨_, selfBack_F9_Vnc⟩)
    (all_cons (fun c h hv hd hr => by cases h; exact ⟨_, selfBack_F9_Vnc⟩)
    (all_cons (fun c h hv hd hr => by cases h; exact ⟨_, selfBack_F9_Vnc⟩)
    (all_cons (fun c h hv hd hr => by cases h; exact ⟨_, selfBack_F9_Vnc⟩)
    (all_cons (fun c h hv hd hr => by cases h; exact ⟨_, selfBack_F9_Vnc⟩)
    (all_cons (fun c h hv hd hr => by cases h; exact ⟨_, selfBack_F9_Vnc⟩)
    (all_cons (fun c h hv hd hr => by cases h; exact ⟨_, selfBack_F9_Vnc⟩)
    (all_cons (fun c h hv hd hr => by cases h; exact ⟨_, selfBack_F9_Vnc⟩)
    (all_cons (fun c h hv hd hr => by cases h; exact ⟨_, selfBack_F9_Vnc⟩)
    (all_cons (fun c h hv hd hr => by cases h; exact ⟨_, selfBack_F9_Vnc⟩)
    (all_cons (fun c h hv hd hr => by cases h; exact ⟨_, selfBack_F9_Vnc⟩)
    (all_cons (fun c h hv hd hr => by cases h; exact ⟨_, selfBack_F9_Vnc⟩)
    (all_cons (fun c h hv hd hr => by cases h; exact ⟨_, selfBack_F9_Vnc⟩)
    (all_cons (fun c h hv hd hr => by cases h; exact ⟨_, selfBack_F9_Vnc⟩)
    (all_cons (fun c h hv hd hr => by cases h; exact ⟨_, selfBack_F9_Vnc⟩)
    (all_cons (fun c h hv hd hr => by cases h; exact ⟨_, selfBack_F9_Vnc⟩)
    (all_cons (fun c h hv hd hr => by cases h; exact ⟨_, selfBack_F9_Vnc⟩)
    (all_cons (fun c h hv hd hr => by cases h; exact ⟨_, selfBack_F9_Vnc⟩)
    (all_cons (fun c h hv hd hr => by cases h; exact ⟨_, selfBack_F9_Vnc⟩)
    (all_cons (fun c h hv hd hr => by cases h; exact ⟨_, selfBack_F9_Vnc⟩)
    (all_cons (fun c h hv hd hr => by cases h; exact ⟨_, selfBack_F9_Vnc⟩)
    (all_cons (fun c h hv hd hr => by cases h; exact ⟨_, selfBack_F9_Vnc⟩)
    (all_cons (fun c h hv hd hr => by cases h; exact ⟨_, selfBack_F9_Vnc⟩)
    (all_cons (fun c h hv hd hr => by cases h; exact ⟨_, selfBack_F9_Vnc⟩)
    (all_cons (fun c h hv hd hr => by cases h; exact ⟨_, selfBack_F9_Vnc⟩)
    (all_cons (fun c h hv hd hr => by cases h; exact ⟨_, selfBack_FC6_Vnc⟩)
    (all_cons (fun c h hv hd hr => by cases h; exact ⟨_, selfBack_FC6_Vnc⟩)
    (all_cons (fun c h hv hd hr => by cases h; exact ⟨_, selfBack_F9_Vnc⟩)
    (all_cons (fun c h hv hd hr => by cases h; exact ⟨_, selfBack_FC3_Vnc_t⟩)
    (all_cons (fun c h hv hd hr => by cases h; exact ⟨_, selfBack_FC3_Vnc_t⟩)
    (all_cons (fun c h hv hd hr => by cases h; exact ⟨_, selfBack_FC3_Vnc_t⟩)
    (all_cons (fun c h hv hd hr => by cases h; exact ⟨_, selfBack_FC6_Vnc⟩)
    (all_cons (fun c h hv hd hr => by cases h; exact ⟨_, selfBack_FC3_Vnc_t⟩)
    (all_cons (fun c h hv hd hr => by cases h; exact ⟨_, selfBack_FC3_Vnc_t⟩)
    (all_cons (fun c h hv hd hr => by cases h; exact ⟨_, selfBack_FC6_Vnc⟩)
    (all_cons (fun c h hv hd hr => by cases h; exact ⟨_, selfBack_F9_Vnc⟩)
    (all_cons (fun c h hv hd hr => by cases h; exact ⟨_, selfBack_F9_Vnc⟩)
    (all_cons (fun c h hv hd hr => by cases h; exact ⟨_, selfBack_F9_Vnc⟩) (List.forall_mem_nil _)))))))))))))))))))))))))))))))))))))))

theorem FC3_XConfig.selfed (k : Info) (init : Ns) (args : List Str) (n : Nat) (skip : List Str) (hs : ∀ k ∈ ([] : List Str), k ∈ skip) :
    M.Self n (Before init skip) (FC3_XConfig.parse k args) fun _ => ParsedBy k.op init skip n args := by
  unfold FC3_XConfig.parse
  repeat' (first | self_step)

theorem selfBack_F10_XConfig : F10_XConfig.cls.SelfReadsBack (xconfigSheet Version.F10) (setToObj F10_XConfig.info.op.defaults F10_XConfig.init) :=
  plain_readsBack (o := FC6_XConfig.strOut) (xconfigSheet Version.F10) (fun args n => FC3_XConfig.selfed _ _ args n _ (by decide)) (by decide) (fun _ _ => rfl) (by decide +kernel)

theorem selfBack_F14_XConfig : F14_XConfig.cls.SelfReadsBack (xconfigSheet Version.F14) (setToObj F14_XConfig.info.op.defaults F14_XConfig.init) :=
  plain_readsBack (o := FC6_XConfig.strOut) (xconfigSheet Version.F14) (fun args n => FC3_XConfig.selfed _ _ args n _ (by decide)) (by decide) (fun _ _ => rfl) (by decide +kernel)

theorem selfBack_FC6_XConfig_t : FC6_XConfig.cls.SelfReadsBack (xconfigSheet Version.F7) (setToObj FC6_XConfig.info.op.defaults FC6_XConfig.init) :=
  plain_readsBack (o := FC6_XConfig.strOut) (xconfigSheet Version.F7) (fun args n => FC3_XConfig.selfed _ _ args n _ (by decide)) (by decide) (fun _ _ => rfl) (by decide +kernel)

theorem selfBack_F9_XConfig : F9_XConfig.cls.SelfReadsBack (xconfigSheet Version.F9) (setToObj F9_XConfig.info.op.defaults F9_XConfig.init) :=
  plain_readsBack (o := FC6_XConfig.strOut) (xconfigSheet Version.F9) (fun args n => FC3_XConfig.selfed _ _ args n _ (by decide)) (by decide) (fun _ _ => rfl) (by decide +kernel)

theorem selfBack_FC3_XConfig : FC3_XConfig.cls.SelfReadsBack (xconfigSheet Version.FC3) (setToObj FC3_XConfig.info.op.defaults FC3_XConfig.init) :=
  plain_readsBack (o := FC3_XConfig.strOut) (xconfigSheet Version.FC3) (fun args n => FC3_XConfig.selfed _ _ args n _ (by decide)) (by decide) (fun _ _ => rfl) (by decide +kernel)

theorem selfBack_xconfig : ∀ y ∈ commandMaps, ∀ c, y.2.lookup c!"xconfig" = some c → 0 ≤ y.1 → ¬ Command.IsDeprecated c → ¬ Command.IsRemoved c → ∃ base, c.SelfReadsBack (xconfigSheet y.1) base := by
  unfold commandMaps
  exact (all_cons (fun c h hv hd hr => by cases h; exact ⟨_, selfBack_F10_XConfig⟩)
    (all_cons (fun c h hv hd hr => by cases h; exact ⟨_, selfBack_F10_XConfig⟩)
    (all_cons (fun c h hv hd hr => by cases h; exact ⟨_, selfBack_F10_XConfig⟩)
    (all_cons (fun c h hv hd hr => by cases h; exact ⟨_, selfBack_F10_XConfig⟩)
    (all_cons (fun c h hv hd hr => by cases h; exact ⟨_, selfBack_F14_XConfig⟩)
    (all_cons (fun c h hv hd hr => by cases h; exact ⟨_, selfBack_F14_XConfig⟩)
    (all_cons (fun c h hv hd hr => by cases h; exact ⟨_, selfBack_F14_XConfig⟩)
    (all_cons (fun c h hv hd hr => by cases h; exact ⟨_, selfBack_F14_XConfig⟩)
    (all_cons (fun c h hv hd hr => by cases h; exact ⟨_, selfBack_F14_XConfig⟩)
    (all_cons (fun c h hv hd hr => by cases h; exact ⟨_, selfBack_F14_XConfig⟩)
    (all_cons (fun c h hv hd hr => by cases h; exact ⟨_, selfBack_F14_XConfig⟩)
    (all_cons (fun c h hv hd hr => by cases h; exact ⟨_, selfBack_F14_XConfig⟩)
    (all_cons (fun c h hv hd hr => by cases h; exact ⟨_, selfBack_F14_XConfig⟩)
    (all_cons (fun c h hv hd hr => by cases h; exact ⟨_, selfBack_F14_XConfig⟩)
    (all_cons (fun c h hv hd hr => by cases h; exact ⟨_, selfBack_F14_XConfig⟩)
    (all_cons (fun c h hv hd hr => by cases h; exact ⟨_, selfBack_F14_XConfig⟩)
    (all_cons (fun c h hv hd hr => by cases h; exact ⟨_, selfBack_F14_XConfig⟩)
    (all_cons (fun c h hv hd hr => by cases h; exact ⟨_, selfBack_F14_XConfig⟩)
    (all_cons (fun c h hv hd hr => by cases h; exact ⟨_, selfBack_F14_XConfig⟩)
    (all_cons (fun c h hv hd hr => by cases h; exact ⟨_, selfBack_F14_XConfig⟩)
    (all_cons (fun c h hv hd hr => by cases h; exact ⟨_, selfBack_F14_XConfig⟩)
    (all_cons (fun c h hv hd hr => by cases h; exact ⟨_, selfBack_F14_XConfig⟩)
    (all_cons (fun c h hv hd hr => by cases h; exact ⟨_, selfBack_F14_XConfig⟩)
    (all_cons (fun c h hv hd hr => by cases h; exact ⟨_, selfBack_F14_XConfig⟩)
    (all_cons (fun c h hv hd hr => by cases h; exact ⟨_, selfBack_F14_XConfig⟩)
    (all_cons (fun c h hv hd hr => by cases h; exact ⟨_, selfBack_FC6_XConfig_t⟩)
    (all_cons (fun c h hv hd hr => by cases h; exact ⟨_, selfBack_FC6_XConfig_t⟩)
    (all_cons (fun c h hv hd hr => by cases h; exact ⟨_, selfBack_F9_XConfig⟩)
    (all_cons (fun c h hv hd hr => by cases h; exact ⟨_, selfBack_FC3_XConfig⟩)
    (all_cons (fun c h hv hd hr => by cases h; exact ⟨_, selfBack_FC3_XConfig⟩)
    (all_cons (fun c h hv hd hr => by cases h; exact ⟨_, selfBack_FC3_XConfig⟩)
    (all_cons (fun c h hv hd hr => by cases h; exact ⟨_, selfBack_FC6_XConfig_t⟩)
    (all_cons (fun c h hv hd hr => by cases h; exact ⟨_, selfBack_FC3_XConfig⟩)
    (all_cons (fun c h hv hd hr => by cases h; exact ⟨_, selfBack_FC3_XConfig⟩)
    (all_cons (fun c h hv hd hr => by cases h; exact ⟨_, selfBack_FC6_XConfig_t⟩)
    (all_cons (fun c h hv hd hr => by cases h; exact ⟨_, selfBack_F10_XConfig⟩)
    (all_cons (fun c h hv hd hr => by cases h; exact ⟨_, selfBack_F14_XConfig⟩)
    (all_cons (fun c h hv hd hr => by cases h; exact ⟨_, selfBack_F14_XConfig⟩) (List.forall_mem_nil _)))))))))))))))))))))))))))))))))))))))

theorem F32_Zipl.selfed (k : Info) (init : Ns) (args : List Str) (n : Nat) (skip : List Str) (hs : ∀ k ∈ ([] : List Str), k ∈ skip) :
    M.Self n (Before init skip) (F32_Zipl.parse k args) fun _ => ParsedBy k.op init skip n args := by
  unfold F32_Zipl.parse
  repeat' (first | self_step)

theorem selfBack_F32_Zipl : F32_Zipl.cls.SelfReadsBack (ziplSheet Version.F32) (setToObj F32_Zipl.info.op.defaults F32_Zipl.init) :=
  plain_readsBack (o := (F32_Zipl.strOut F32_Zipl.args)) (ziplSheet Version.F32) (fun args n => F32_Zipl.selfed _ _ args n _ (by decide)) (by decide) (fun _ _ => rfl) (by decide +kernel)

theorem selfBack_RHEL8_Zipl : RHEL8_Zipl.cls.SelfReadsBack (ziplSheet Version.RHEL8) (setToObj RHEL8_Zipl.info.op.defaults RHEL8_Zipl.init) :=
  plain_readsBack (o := (F32_Zipl.strOut F32_Zipl.args)) (ziplSheet Version.RHEL8) (fun args n => F32_Zipl.selfed _ _ args n _ (by decide)) (by decide) (fun _ _ => rfl) (by decide +kernel)

theorem selfBack_zipl : ∀ y ∈ commandMaps, ∀ c, y.2.lookup c!"zipl" = some c → 0 ≤ y.1 → ¬ Command.IsDeprecated c → ¬ Command.IsRemoved c → ∃ base, c.SelfReadsBack (ziplSheet y.1) base := by
  unfold commandMaps
  exact (all_cons (fun c h hv hd hr => by cases h)
    (all_cons (fun c h hv hd hr => by cases h)
    (all_cons (fun c h hv hd hr => by cases h)
    (all_cons (fun c h hv hd hr => by cases h)
    (all_cons (fun c h hv hd hr => by cases h)
    (all_cons (fun c h hv hd hr => by cases h)
    (all_cons (fun c h hv hd hr => by cases h)
    (all_cons (fun c h hv hd hr => by cases h)
    (all_cons (fun c h hv hd hr => by cases h)
    (all_cons (fun c h hv hd hr => by cases h)
    (all_cons (fun c h hv hd hr => by cases h)
    (all_cons (fun c h hv hd hr => by cases h)
    (all_cons (fun c h hv hd hr => by cases h)
    (all_cons (fun c h hv hd hr => by cases h)
    (all_cons (fun c h hv hd hr => by cases h)
    (all_cons (fun c h hv hd hr => by cases h)
    (all_cons (fun c h hv hd hr => by cases h)
    (all_cons (fun c h hv hd hr => by cases h)
    (all_cons (fun c h hv hd hr => by cases h)
    (all_cons (fun c h hv hd hr => by cases h)
    (all_cons (fun c h hv hd hr => by cases h)
    (all_cons (fun c h hv hd hr => by cases h)
    (all_cons (fun c h hv hd hr => by cases h; exact ⟨_, selfBack_F32_Zipl⟩)
    (all_cons (fun c h hv hd hr => by cases h; exact ⟨_, selfBack_F32_Zipl⟩)
    (all_cons (fun c h hv hd hr => by cases h; exact ⟨_, selfBack_F32_Zipl⟩)
    (all_cons (fun c h hv hd hr => by cases h)
    (all_cons (fun c h hv hd hr => by cases h)
    (all_cons (fun c h hv hd hr => by cases h)
    (all_cons (fun c h hv hd hr => by cases h)
    (all_cons (fun c h hv hd hr => by cases h)
    (all_cons (fun c h hv hd hr => by cases h)
    (all_cons (fun c h hv hd hr => by cases h)
    (all_cons (fun c h hv hd hr => by cases h)
    (all_cons (fun c h hv hd hr => by cases h)
    (all_cons (fun c h hv hd hr => by cases h)
    (all_cons (fun c h hv hd hr => by cases h)
    (all_cons (fun c h hv hd hr => by cases h)
    (all_cons (fun c h hv hd hr => by cases h; exact ⟨_, selfBack_RHEL8_Zipl⟩) (List.forall_mem_nil _)))))))))))))))))))))))))))))))))))))))

end Ks.Cmd
