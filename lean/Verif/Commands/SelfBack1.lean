import Verif.Commands.SelfLogic
import Verif.Commands.SelfSheets
import Verif.Commands.SelfIgnore
import Verif.Commands.StripTexts
import Verif.Commands.StageLogic
/-!
# Commands without data lists read their text back

Written by `scripts/gen_selfback.py`.
-/
namespace Ks.Cmd

set_option linter.unusedVariables false

theorem F9_AutoPart.selfed (k : Info) (init : Ns) (args : List Str) (n : Nat) (skip : List Str) (hs : ∀ k ∈ ([c!"autopart"] : List Str), k ∈ skip) :
    M.Self n (Before init skip) (F9_AutoPart.parse k args) fun _ => ParsedBy k.op init skip n args := by
  unfold F9_AutoPart.parse
  repeat' (first | self_step)

theorem selfBack_F9_AutoPart : F9_AutoPart.cls.SelfReadsBack (autopartSheet Version.F10) (setToObj F9_AutoPart.info.op.defaults F9_AutoPart.init) :=
  plain_readsBack (o := F9_AutoPart.strOut) (autopartSheet Version.F10) (fun args n => F9_AutoPart.selfed _ _ args n _ (by decide)) (by decide) (fun _ _ => rfl) (by decide +kernel)

theorem selfBack_F12_AutoPart : F12_AutoPart.cls.SelfReadsBack (autopartSheet Version.F12) (setToObj F12_AutoPart.info.op.defaults F12_AutoPart.init) :=
  plain_readsBack (o := F12_AutoPart.out ++ [(apOn, [.lit c!"\n"])]) (autopartSheet Version.F12) (fun args n => F9_AutoPart.selfed _ _ args n _ (by decide)) (by decide) (fun d hp => F12_AutoPart.lined.render ⟨hp.2.2.1, hp.1.present⟩) (by decide +kernel)

theorem selfBack_F16_AutoPart : F16_AutoPart.cls.SelfReadsBack (autopartSheet Version.F16) (setToObj F16_AutoPart.info.op.defaults F16_AutoPart.init) :=
  plain_readsBack (o := F16_AutoPart.out ++ [(apOn, [.lit c!"\n"])]) (autopartSheet Version.F16) (fun args n => F9_AutoPart.selfed _ _ args n _ (by decide)) (by decide) (fun d hp => F16_AutoPart.lined.render ⟨hp.2.2.1, hp.1.present⟩) (by decide +kernel)

theorem F17_AutoPart.selfed (k : Info) (init : Ns) (args : List Str) (n : Nat) (skip : List Str) (hs : ∀ k ∈ ([c!"autopart"] : List Str), k ∈ skip) (hn : k.op.never c!"lvm" = true) (hl : init.get c!"lvm" = some (.bool true)) :
    M.Self n (Before init skip) (F17_AutoPart.parse k args) fun _ => ParsedBy k.op init skip n args := by
  unfold F17_AutoPart.parse
  exact self_call (F9_AutoPart.selfed k init args n skip (by intro x hx; exact hs x (by revert x; decide))) fun _ => self_set_same hn hl

theorem selfBack_F17_AutoPart : F17_AutoPart.cls.SelfReadsBack (autopartSheet Version.F17) (setToObj F17_AutoPart.info.op.defaults F17_AutoPart.init) :=
  plain_readsBack (o := F17_AutoPart.out ++ [(apOn, [.lit c!"\n"])]) (autopartSheet Version.F17) (fun args n => F17_AutoPart.selfed _ _ args n _ (by decide) (by decide +kernel) (by decide +kernel)) (by decide) (fun d hp => F17_AutoPart.lined.render ⟨hp.2.2.1, hp.1.present⟩) (by decide +kernel)

theorem selfBack_F18_AutoPart : F18_AutoPart.cls.SelfReadsBack (autopartSheet Version.F18) (setToObj F18_AutoPart.info.op.defaults F18_AutoPart.init) :=
  plain_readsBack (o := F18_AutoPart.out ++ [(apOn, [.lit c!"\n"])]) (autopartSheet Version.F18) (fun args n => F17_AutoPart.selfed _ _ args n _ (by decide) (by decide +kernel) (by decide +kernel)) (by decide) (fun d hp => F18_AutoPart.lined.render ⟨hp.2.2.1, hp.1.present⟩) (by decide +kernel)

theorem F20_AutoPart.selfed (k : Info) (init : Ns) (args : List Str) (n : Nat) (skip : List Str) (hs : ∀ k ∈ ([c!"autopart"] : List Str), k ∈ skip) (hn : k.op.never c!"lvm" = true) (hl : init.get c!"lvm" = some (.bool true)) :
    M.Self n (Before init skip) (F20_AutoPart.parse k args) fun _ => ParsedBy k.op init skip n args := by
  unfold F20_AutoPart.parse
  refine self_call (F17_AutoPart.selfed k init args n skip (fun x hx => hs x (by revert x; decide)) hn hl) fun _ => ?_
  repeat' (first | self_step)

theorem selfBack_F20_AutoPart : F20_AutoPart.cls.SelfReadsBack (autopartSheet Version.F20) (setToObj F20_AutoPart.info.op.defaults F20_AutoPart.init) :=
  plain_readsBack (o := F18_AutoPart.T.out ++ [(apOn, [.lit c!"\n"])]) (autopartSheet Version.F20) (fun args n => F20_AutoPart.selfed _ _ args n _ (by decide) (by decide +kernel) (by decide +kernel)) (by decide) (fun d hp => F18_AutoPart.T.lined.render ⟨hp.2.2.1, hp.1.present⟩) (by decide +kernel)

theorem F21_AutoPart.selfed (k : Info) (init : Ns) (args : List Str) (n : Nat) (skip : List Str) (hs : ∀ k ∈ ([c!"autopart"] : List Str), k ∈ skip) (hn : k.op.never c!"lvm" = true) (hl : init.get c!"lvm" = some (.bool true)) :
    M.Self n (Before init skip) (F21_AutoPart.parse k args) fun _ => ParsedBy k.op init skip n args := by
  unfold F21_AutoPart.parse
  refine self_call (F20_AutoPart.selfed k init args n skip (fun x hx => hs x (by revert x; decide)) hn hl) fun _ => ?_
  repeat' (first | self_step)

theorem selfBack_F21_AutoPart : F21_AutoPart.cls.SelfReadsBack (autopartSheet Version.F21) (setToObj F21_AutoPart.info.op.defaults F21_AutoPart.init) :=
  plain_readsBack (o := F21_AutoPart.out ++ [(apOn, [.lit c!"\n"])]) (autopartSheet Version.F21) (fun args n => F21_AutoPart.selfed _ _ args n _ (by decide) (by decide +kernel) (by decide +kernel)) (by decide) (fun d hp => F21_AutoPart.lined.render ⟨hp.2.2.1, hp.1.present⟩) (by decide +kernel)

theorem F23_AutoPart.selfed (k : Info) (init : Ns) (args : List Str) (n : Nat) (skip : List Str) (hs : ∀ k ∈ ([c!"autopart"] : List Str), k ∈ skip) (hn : k.op.never c!"lvm" = true) (hl : init.get c!"lvm" = some (.bool true)) :
    M.Self n (Before init skip) (F23_AutoPart.parse k args) fun _ => ParsedBy k.op init skip n args := by
  unfold F23_AutoPart.parse
  refine self_call (F21_AutoPart.selfed k init args n skip (fun x hx => hs x (by revert x; decide)) hn hl) fun _ => ?_
  repeat' (first | self_step)

theorem selfBack_F23_AutoPart : F23_AutoPart.cls.SelfReadsBack (autopartSheet Version.F23) (setToObj F23_AutoPart.info.op.defaults F23_AutoPart.init) :=
  plain_readsBack (o := F21_AutoPart.out ++ [(apOn, [.lit c!"\n"])]) (autopartSheet Version.F23) (fun args n => F23_AutoPart.selfed _ _ args n _ (by decide) (by decide +kernel) (by decide +kernel)) (by decide) (fun d hp => F21_AutoPart.lined.render ⟨hp.2.2.1, hp.1.present⟩) (by decide +kernel)

theorem selfBack_F26_AutoPart : F26_AutoPart.cls.SelfReadsBack (autopartSheet Version.F26) (setToObj F26_AutoPart.info.op.defaults F26_AutoPart.init) :=
  plain_readsBack (o := F26_AutoPart.out ++ [(apOn, [.lit c!"\n"])]) (autopartSheet Version.F26) (fun args n => F23_AutoPart.selfed _ _ args n _ (by decide) (by decide +kernel) (by decide +kernel)) (by decide) (fun d hp => F26_AutoPart.lined.render ⟨hp.2.2.1, hp.1.present⟩) (by decide +kernel)

theorem F29_AutoPart.selfed (k : Info) (init : Ns) (args : List Str) (n : Nat) (skip : List Str) (hs : ∀ k ∈ ([c!"autopart"] : List Str), k ∈ skip) (hn : k.op.never c!"lvm" = true) (hl : init.get c!"lvm" = some (.bool true)) :
    M.Self n (Before init skip) (F29_AutoPart.parse k args) fun _ => ParsedBy k.op init skip n args := by
  unfold F29_AutoPart.parse
  refine self_call (F23_AutoPart.selfed k init args n skip (fun x hx => hs x (by revert x; decide)) hn hl) fun _ => ?_
  repeat' (first | self_step)

theorem selfBack_F29_AutoPart : F29_AutoPart.cls.SelfReadsBack (autopartSheet Version.F29) (setToObj F29_AutoPart.info.op.defaults F29_AutoPart.init) :=
  plain_readsBack (o := F29_AutoPart.out ++ [(apOn, [.lit c!"\n"])]) (autopartSheet Version.F29) (fun args n => F29_AutoPart.selfed _ _ args n _ (by decide) (by decide +kernel) (by decide +kernel)) (by decide) (fun d hp => F29_AutoPart.lined.render ⟨hp.2.2.1, hp.1.present⟩) (by decide +kernel)

theorem RHEL6_AutoPart.selfed (k : Info) (init : Ns) (args : List Str) (n : Nat) (skip : List Str) (hs : ∀ k ∈ ([c!"autopart"] : List Str), k ∈ skip) :
    M.Self n (Before init skip) (RHEL6_AutoPart.parse k args) fun _ => ParsedBy k.op init skip n args := by
  unfold RHEL6_AutoPart.parse
  refine self_call (F9_AutoPart.selfed k init args n skip (fun x hx => hs x (by revert x; decide))) fun _ => ?_
  repeat' (first | self_step)

theorem selfBack_RHEL6_AutoPart : RHEL6_AutoPart.cls.SelfReadsBack (autopartSheet Version.RHEL6) (setToObj RHEL6_AutoPart.info.op.defaults RHEL6_AutoPart.init) :=
  plain_readsBack (o := RHEL6_AutoPart.out ++ [(apOn, [.lit c!"\n"])]) (autopartSheet Version.RHEL6) (fun args n => RHEL6_AutoPart.selfed _ _ args n _ (by decide)) (by decide) (fun d hp => RHEL6_AutoPart.lined.render ⟨hp.2.2.1, hp.1.present⟩) (by decide +kernel)

theorem RHEL7_AutoPart.selfed (k : Info) (init : Ns) (args : List Str) (n : Nat) (skip : List Str) (hs : ∀ k ∈ ([c!"autopart"] : List Str), k ∈ skip) (hn : k.op.never c!"lvm" = true) (hl : init.get c!"lvm" = some (.bool true)) :
    M.Self n (Before init skip) (RHEL7_AutoPart.parse k args) fun _ => ParsedBy k.op init skip n args := by
  unfold RHEL7_AutoPart.parse
  refine self_call (F21_AutoPart.selfed k init args n skip (fun x hx => hs x (by revert x; decide)) hn hl) fun _ => ?_
  repeat' (first | self_step)

theorem selfBack_RHEL7_AutoPart : RHEL7_AutoPart.cls.SelfReadsBack (autopartSheet Version.RHEL7) (setToObj RHEL7_AutoPart.info.op.defaults RHEL7_AutoPart.init) :=
  plain_readsBack (o := RHEL7_AutoPart.out ++ [(apOn, [.lit c!"\n"])]) (autopartSheet Version.RHEL7) (fun args n => RHEL7_AutoPart.selfed _ _ args n _ (by decide) (by decide +kernel) (by decide +kernel)) (by decide) (fun d hp => RHEL7_AutoPart.lined.render ⟨hp.2.2.1, hp.1.present⟩) (by decide +kernel)

theorem RHEL8_AutoPart.selfed (k : Info) (init : Ns) (args : List Str) (n : Nat) (skip : List Str) (hs : ∀ k ∈ ([c!"autopart"] : List Str), k ∈ skip) (hn : k.op.never c!"lvm" = true) (hl : init.get c!"lvm" = some (.bool true)) :
    M.Self n (Before init skip) (RHEL8_AutoPart.parse k args) fun _ => ParsedBy k.op init skip n args := by
  unfold RHEL8_AutoPart.parse
  refine self_call (F29_AutoPart.selfed k init args n skip (fun x hx => hs x (by revert x; decide)) hn hl) fun _ => ?_
  repeat' (first | self_step)

theorem selfBack_RHEL8_AutoPart : RHEL8_AutoPart.cls.SelfReadsBack (autopartSheet Version.RHEL8) (setToObj RHEL8_AutoPart.info.op.defaults RHEL8_AutoPart.init) :=
  plain_readsBack (o := F29_AutoPart.out ++ [(apOn, [.lit c!"\n"])]) (autopartSheet Version.RHEL8) (fun args n => RHEL8_AutoPart.selfed _ _ args n _ (by decide) (by decide +kernel) (by decide +kernel)) (by decide) (fun d hp => F29_AutoPart.lined.render ⟨hp.2.2.1, hp.1.present⟩) (by decide +kernel)

theorem selfBack_autopart : ∀ y ∈ commandMaps, ∀ c, y.2.lookup c!"autopart" = some c → Version.F9 ≤ y.1 → ¬ Command.IsDeprecated c → ¬ Command.IsRemoved c → ∃ base, c.SelfReadsBack (autopartSheet y.1) base := by
  unfold commandMaps
  exact (all_cons (fun c h hv hd hr => by cases h; exact ⟨_, selfBack_F9_AutoPart⟩)
    (all_cons (fun c h hv hd hr => by cases h; exact ⟨_, selfBack_F9_AutoPart⟩)
    (all_cons (fun c h hv hd hr => by cases h; exact ⟨_, selfBack_F12_AutoPart⟩)
    (all_cons (fun c h hv hd hr => by cases h; exact ⟨_, selfBack_F12_AutoPart⟩)
    (all_cons (fun c h hv hd hr => by cases h; exact ⟨_, selfBack_F12_AutoPart⟩)
    (all_cons (fun c h hv hd hr => by cases h; exact ⟨_, selfBack_F12_AutoPart⟩)
    (all_cons (fun c h hv hd hr => by cases h; exact ⟨_, selfBack_F16_AutoPart⟩)
    (all_cons (fun c h hv hd hr => by cases h; exact ⟨_, selfBack_F17_AutoPart⟩)
    (all_cons (fun c h hv hd hr => by cases h; exact ⟨_, selfBack_F18_AutoPart⟩)
    (all_cons (fun c h hv hd hr => by cases h; exact ⟨_, selfBack_F18_AutoPart⟩)
    (all_cons (fun c h hv hd hr => by cases h; exact ⟨_, selfBack_F20_AutoPart⟩)
    (all_cons (fun c h hv hd hr => by cases h; exact ⟨_, selfBack_F21_AutoPart⟩)
    (all_cons (fun c h hv hd hr => by cases h; exact ⟨_, selfBack_F21_AutoPart⟩)
    (all_cons (fun c h hv hd hr => by cases h; exact ⟨_, selfBack_F23_AutoPart⟩)
    (all_cons (fun c h hv hd hr => by cases h; exact ⟨_, selfBack_F23_AutoPart⟩)
    (all_cons (fun c h hv hd hr => by cases h; exact ⟨_, selfBack_F23_AutoPart⟩)
    (all_cons (fun c h hv hd hr => by cases h; exact ⟨_, selfBack_F26_AutoPart⟩)
    (all_cons (fun c h hv hd hr => by cases h; exact ⟨_, selfBack_F26_AutoPart⟩)
    (all_cons (fun c h hv hd hr => by cases h; exact ⟨_, selfBack_F26_AutoPart⟩)
    (all_cons (fun c h hv hd hr => by cases h; exact ⟨_, selfBack_F29_AutoPart⟩)
    (all_cons (fun c h hv hd hr => by cases h; exact ⟨_, selfBack_F29_AutoPart⟩)
    (all_cons (fun c h hv hd hr => by cases h; exact ⟨_, selfBack_F29_AutoPart⟩)
    (all_cons (fun c h hv hd hr => by cases h; exact ⟨_, selfBack_F29_AutoPart⟩)
    (all_cons (fun c h hv hd hr => by cases h; exact ⟨_, selfBack_F29_AutoPart⟩)
    (all_cons (fun c h hv hd hr => by cases h; exact ⟨_, selfBack_F29_AutoPart⟩)
    (all_cons (fun c h hv hd hr => absurd hv (by decide))
    (all_cons (fun c h hv hd hr => absurd hv (by decide))
    (all_cons (fun c h hv hd hr => by cases h; exact ⟨_, selfBack_F9_AutoPart⟩)
    (all_cons (fun c h hv hd hr => absurd hv (by decide))
    (all_cons (fun c h hv hd hr => absurd hv (by decide))
    (all_cons (fun c h hv hd hr => absurd hv (by decide))
    (all_cons (fun c h hv hd hr => absurd hv (by decide))
    (all_cons (fun c h hv hd hr => absurd hv (by decide))
    (all_cons (fun c h hv hd hr => absurd hv (by decide))
    (all_cons (fun c h hv hd hr => absurd hv (by decide))
    (all_cons (fun c h hv hd hr => by cases h; exact ⟨_, selfBack_RHEL6_AutoPart⟩)
    (all_cons (fun c h hv hd hr => by cases h; exact ⟨_, selfBack_RHEL7_AutoPart⟩)
    (all_cons (fun c h hv hd hr => by cases h; exact ⟨_, selfBack_RHEL8_AutoPart⟩) (List.forall_mem_nil _)))))))))))))))))))))))))))))))))))))))

theorem FC3_AutoStep.selfed (k : Info) (init : Ns) (args : List Str) (n : Nat) (skip : List Str) (hs : ∀ k ∈ ([c!"autostep"] : List Str), k ∈ skip) :
    M.Self n (Before init skip) (FC3_AutoStep.parse k args) fun _ => ParsedBy k.op init skip n args := by
  unfold FC3_AutoStep.parse
  repeat' (first | self_step)

theorem selfBack_FC3_AutoStep : FC3_AutoStep.cls.SelfReadsBack (autostepSheet Version.F10) (setToObj FC3_AutoStep.info.op.defaults FC3_AutoStep.init) :=
  plain_readsBack (o := FC3_AutoStep.strOut) (autostepSheet Version.F10) (fun args n => FC3_AutoStep.selfed _ _ args n _ (by decide)) (by decide) (fun _ _ => rfl) (by decide +kernel)

theorem selfBack_autostep : ∀ y ∈ commandMaps, ∀ c, y.2.lookup c!"autostep" = some c → 0 ≤ y.1 → ¬ Command.IsDeprecated c → ¬ Command.IsRemoved c → ∃ base, c.SelfReadsBack (autostepSheet y.1) base := by
  unfold commandMaps
  exact (all_cons (fun c h hv hd hr => by cases h; exact ⟨_, selfBack_FC3_AutoStep⟩)
    (all_cons (fun c h hv hd hr => by cases h; exact ⟨_, selfBack_FC3_AutoStep⟩)
    (all_cons (fun c h hv hd hr => by cases h; exact ⟨_, selfBack_FC3_AutoStep⟩)
    (all_cons (fun c h hv hd hr => by cases h; exact ⟨_, selfBack_FC3_AutoStep⟩)
    (all_cons (fun c h hv hd hr => by cases h; exact ⟨_, selfBack_FC3_AutoStep⟩)
    (all_cons (fun c h hv hd hr => by cases h; exact ⟨_, selfBack_FC3_AutoStep⟩)
    (all_cons (fun c h hv hd hr => by cases h; exact ⟨_, selfBack_FC3_AutoStep⟩)
    (all_cons (fun c h hv hd hr => by cases h; exact ⟨_, selfBack_FC3_AutoStep⟩)
    (all_cons (fun c h hv hd hr => by cases h; exact ⟨_, selfBack_FC3_AutoStep⟩)
    (all_cons (fun c h hv hd hr => by cases h; exact ⟨_, selfBack_FC3_AutoStep⟩)
    (all_cons (fun c h hv hd hr => by cases h; exact ⟨_, selfBack_FC3_AutoStep⟩)
    (all_cons (fun c h hv hd hr => by cases h; exact ⟨_, selfBack_FC3_AutoStep⟩)
    (all_cons (fun c h hv hd hr => by cases h; exact ⟨_, selfBack_FC3_AutoStep⟩)
    (all_cons (fun c h hv hd hr => by cases h; exact ⟨_, selfBack_FC3_AutoStep⟩)
    (all_cons (fun c h hv hd hr => by cases h; exact ⟨_, selfBack_FC3_AutoStep⟩)
    (all_cons (fun c h hv hd hr => by cases h; exact ⟨_, selfBack_FC3_AutoStep⟩)
    (all_cons (fun c h hv hd hr => by cases h; exact ⟨_, selfBack_FC3_AutoStep⟩)
    (all_cons (fun c h hv hd hr => by cases h; exact ⟨_, selfBack_FC3_AutoStep⟩)
    (all_cons (fun c h hv hd hr => by cases h; exact ⟨_, selfBack_FC3_AutoStep⟩)
    (all_cons (fun c h hv hd hr => by cases h; exact ⟨_, selfBack_FC3_AutoStep⟩)
    (all_cons (fun c h hv hd hr => by cases h; exact ⟨_, selfBack_FC3_AutoStep⟩)
    (all_cons (fun c h hv hd hr => by cases h; exact ⟨_, selfBack_FC3_AutoStep⟩)
    (all_cons (fun c h hv hd hr => by cases h; exact ⟨_, selfBack_FC3_AutoStep⟩)
    (all_cons (fun c h hv hd hr => by cases h; exact ⟨_, selfBack_FC3_AutoStep⟩)
    (all_cons (fun c h hv hd hr => by cases h; exact absurd ⟨_, _, rfl⟩ hd)
    (all_cons (fun c h hv hd hr => by cases h; exact ⟨_, selfBack_FC3_AutoStep⟩)
    (all_cons (fun c h hv hd hr => by cases h; exact ⟨_, selfBack_FC3_AutoStep⟩)
    (all_cons (fun c h hv hd hr => by cases h; exact ⟨_, selfBack_FC3_AutoStep⟩)
    (all_cons (fun c h hv hd hr => by cases h; exact ⟨_, selfBack_FC3_AutoStep⟩)
    (all_cons (fun c h hv hd hr => by cases h; exact ⟨_, selfBack_FC3_AutoStep⟩)
    (all_cons (fun c h hv hd hr => by cases h; exact ⟨_, selfBack_FC3_AutoStep⟩)
    (all_cons (fun c h hv hd hr => by cases h; exact ⟨_, selfBack_FC3_AutoStep⟩)
    (all_cons (fun c h hv hd hr => by cases h; exact ⟨_, selfBack_FC3_AutoStep⟩)
    (all_cons (fun c h hv hd hr => by cases h; exact ⟨_, selfBack_FC3_AutoStep⟩)
    (all_cons (fun c h hv hd hr => by cases h; exact ⟨_, selfBack_FC3_AutoStep⟩)
    (all_cons (fun c h hv hd hr => by cases h; exact ⟨_, selfBack_FC3_AutoStep⟩)
    (all_cons (fun c h hv hd hr => by cases h; exact ⟨_, selfBack_FC3_AutoStep⟩)
    (all_cons (fun c h hv hd hr => by cases h; exact ⟨_, selfBack_FC3_AutoStep⟩) (List.forall_mem_nil _)))))))))))))))))))))))))))))))))))))))

theorem FC3_ClearPart.selfed (k : Info) (init : Ns) (args : List Str) (n : Nat) (skip : List Str) (hs : ∀ k ∈ ([] : List Str), k ∈ skip) :
    M.Self n (Before init skip) (FC3_ClearPart.parse k args) fun _ => ParsedBy k.op init skip n args := by
  unfold FC3_ClearPart.parse
  repeat' (first | self_step)

theorem selfBack_FC3_ClearPart : FC3_ClearPart.cls.SelfReadsBack (clearpartSheet Version.F10) (setToObj FC3_ClearPart.info.op.defaults FC3_ClearPart.init) :=
  plain_readsBack (o := FC3_ClearPart.strOut) (clearpartSheet Version.F10) (fun args n => FC3_ClearPart.selfed _ _ args n _ (by decide)) (by decide) (fun _ _ => rfl) (by decide +kernel)

theorem F17_ClearPart.selfed (k : Info) (init : Ns) (args : List Str) (n : Nat) (skip : List Str) (hs : ∀ k ∈ ([c!"type"] : List Str), k ∈ skip) :
    M.Self n (Before init skip) (F17_ClearPart.parse k args) fun _ => ParsedBy k.op init skip n args := by
  unfold F17_ClearPart.parse
  refine self_call (FC3_ClearPart.selfed k init args n skip (fun x hx => hs x (by revert x; decide))) fun _ => ?_
  repeat' (first | self_step)

theorem selfBack_F17_ClearPart_t : F17_ClearPart.cls.SelfReadsBack (clearpartSheet Version.F17) (setToObj F17_ClearPart.info.op.defaults F17_ClearPart.init) :=
  plain_readsBack (o := F17_ClearPart.out ++ [(.not (.eq c!"type" .none), [.lit c!"\n"])]) (clearpartSheet Version.F17) (fun args n => F17_ClearPart.selfed _ _ args n _ (by decide)) (by decide) (fun d hp => F17_ClearPart.lined.render ⟨hp.2.2.1, hp.1.present⟩) (by decide +kernel)

theorem selfBack_F21_ClearPart_t : F21_ClearPart.cls.SelfReadsBack (clearpartSheet Version.F21) (setToObj F21_ClearPart.info.op.defaults F21_ClearPart.init) :=
  plain_readsBack (o := F21_ClearPart.out ++ [(.not (.eq c!"type" .none), [.lit c!"\n"])]) (clearpartSheet Version.F21) (fun args n => F17_ClearPart.selfed _ _ args n _ (by decide)) (by decide) (fun d hp => F21_ClearPart.lined.render ⟨hp.2.2.1, hp.1.present⟩) (by decide +kernel)

theorem selfBack_F28_ClearPart_t : F28_ClearPart.cls.SelfReadsBack (clearpartSheet Version.F28) (setToObj F28_ClearPart.info.op.defaults F28_ClearPart.init) :=
  plain_readsBack (o := F28_ClearPart.out ++ [(.not (.eq c!"type" .none), [.lit c!"\n"])]) (clearpartSheet Version.F28) (fun args n => F17_ClearPart.selfed _ _ args n _ (by decide)) (by decide) (fun d hp => F28_ClearPart.lined.render ⟨hp.2.2.1, hp.1.present⟩) (by decide +kernel)

theorem selfBack_RHEL7_ClearPart_t : RHEL7_ClearPart.cls.SelfReadsBack (clearpartSheet Version.RHEL7) (setToObj RHEL7_ClearPart.info.op.defaults RHEL7_ClearPart.init) :=
  plain_readsBack (o := F28_ClearPart.out ++ [(.not (.eq c!"type" .none), [.lit c!"\n"])]) (clearpartSheet Version.RHEL7) (fun args n => F17_ClearPart.selfed _ _ args n _ (by decide)) (by decide) (fun d hp => F28_ClearPart.lined.render ⟨hp.2.2.1, hp.1.present⟩) (by decide +kernel)

theorem selfBack_clearpart : ∀ y ∈ commandMaps, ∀ c, y.2.lookup c!"clearpart" = some c → 0 ≤ y.1 → ¬ Command.IsDeprecated c → ¬ Command.IsRemoved c → ∃ base, c.SelfReadsBack (clearpartSheet y.1) base := by
  unfold commandMaps
  exact (all_cons (fun c h hv hd hr => by cases h; exact ⟨_, selfBack_FC3_ClearPart⟩)
    (all_cons (fun c h hv hd hr => by cases h; exact ⟨_, selfBack_FC3_ClearPart⟩)
    (all_cons (fun c h hv hd hr => by cases h; exact ⟨_, selfBack_FC3_ClearPart⟩)
    (all_cons (fun c h hv hd hr => by cases h; exact ⟨_, selfBack_FC3_ClearPart⟩)
    (all_cons (fun c h hv hd hr => by cases h; exact ⟨_, selfBack_FC3_ClearPart⟩)
    (all_cons (fun c h hv hd hr => by cases h; exact ⟨_, selfBack_FC3_ClearPart⟩)
    (all_cons (fun c h hv hd hr => by cases h; exact ⟨_, selfBack_FC3_ClearPart⟩)
    (all_cons (fun c h hv hd hr => by cases h; exact ⟨_, selfBack_F17_ClearPart_t⟩)
    (all_cons (fun c h hv hd hr => by cases h; exact ⟨_, selfBack_F17_ClearPart_t⟩)
    (all_cons (fun c h hv hd hr => by cases h; exact ⟨_, selfBack_F17_ClearPart_t⟩)
    (all_cons (fun c h hv hd hr => by cases h; exact ⟨_, selfBack_F17_ClearPart_t⟩)
    (all_cons (fun c h hv hd hr => by cases h; exact ⟨_, selfBack_F21_ClearPart_t⟩)
    (all_cons (fun c h hv hd hr => by cases h; exact ⟨_, selfBack_F21_ClearPart_t⟩)
    (all_cons (fun c h hv hd hr => by cases h; exact ⟨_, selfBack_F21_ClearPart_t⟩)
    (all_cons (fun c h hv hd hr => by cases h; exact ⟨_, selfBack_F21_ClearPart_t⟩)
    (all_cons (fun c h hv hd hr => by cases h; exact ⟨_, selfBack_F21_ClearPart_t⟩)
    (all_cons (fun c h hv hd hr => by cases h; exact ⟨_, selfBack_F21_ClearPart_t⟩)
    (all_cons (fun c h hv hd hr => by cases h; exact ⟨_, selfBack_F21_ClearPart_t⟩)
    (all_cons (fun c h hv hd hr => by cases h; exact ⟨_, selfBack_F28_ClearPart_t⟩)
    (all_cons (fun c h hv hd hr => by cases h; exact ⟨_, selfBack_F28_ClearPart_t⟩)
    (all_cons (fun c h hv hd hr => by cases h; exact ⟨_, selfBack_F28_ClearPart_t⟩)
    (all_cons (fun c h hv hd hr => by cases h; exact ⟨_, selfBack_F28_ClearPart_t⟩)
    (all_cons (fun c h hv hd hr => by cases h; exact ⟨_, selfBack_F28_ClearPart_t⟩)
    (all_cons (fun c h hv hd hr => by cases h; exact ⟨_, selfBack_F28_ClearPart_t⟩)
    (all_cons (fun c h hv hd hr => by cases h; exact ⟨_, selfBack_F28_ClearPart_t⟩)
    (all_cons (fun c h hv hd hr => by cases h; exact ⟨_, selfBack_FC3_ClearPart⟩)
    (all_cons (fun c h hv hd hr => by cases h; exact ⟨_, selfBack_FC3_ClearPart⟩)
    (all_cons (fun c h hv hd hr => by cases h; exact ⟨_, selfBack_FC3_ClearPart⟩)
    (all_cons (fun c h hv hd hr => by cases h; exact ⟨_, selfBack_FC3_ClearPart⟩)
    (all_cons (fun c h hv hd hr => by cases h; exact ⟨_, selfBack_FC3_ClearPart⟩)
    (all_cons (fun c h hv hd hr => by cases h; exact ⟨_, selfBack_FC3_ClearPart⟩)
    (all_cons (fun c h hv hd hr => by cases h; exact ⟨_, selfBack_FC3_ClearPart⟩)
    (all_cons (fun c h hv hd hr => by cases h; exact ⟨_, selfBack_FC3_ClearPart⟩)
    (all_cons (fun c h hv hd hr => by cases h; exact ⟨_, selfBack_FC3_ClearPart⟩)
    (all_cons (fun c h hv hd hr => by cases h; exact ⟨_, selfBack_FC3_ClearPart⟩)
    (all_cons (fun c h hv hd hr => by cases h; exact ⟨_, selfBack_FC3_ClearPart⟩)
    (all_cons (fun c h hv hd hr => by cases h; exact ⟨_, selfBack_RHEL7_ClearPart_t⟩)
    (all_cons (fun c h hv hd hr => by cases h; exact ⟨_, selfBack_F28_ClearPart_t⟩) (List.forall_mem_nil _)))))))))))))))))))))))))))))))))))))))

theorem F20_Eula.selfed (k : Info) (init : Ns) (args : List Str) (n : Nat) (skip : List Str) (hs : ∀ k ∈ ([] : List Str), k ∈ skip) :
    M.Self n (Before init skip) (F20_Eula.parse k args) fun _ => ParsedBy k.op init skip n args := by
  unfold F20_Eula.parse
  repeat' (first | self_step | extract_lets)

theorem selfBack_F20_Eula : F20_Eula.cls.SelfReadsBack (eulaSheet Version.F20) (setToObj F20_Eula.info.op.defaults F20_Eula.init) :=
  plain_readsBack (o := (F20_Eula.strOut F20_Eula.args)) (eulaSheet Version.F20) (fun args n => F20_Eula.selfed _ _ args n _ (by decide)) (by decide) (fun _ _ => rfl) (by decide +kernel)

theorem selfBack_eula : ∀ y ∈ commandMaps, ∀ c, y.2.lookup c!"eula" = some c → 0 ≤ y.1 → ¬ Command.IsDeprecated c → ¬ Command.IsRemoved c → ∃ base, c.SelfReadsBack (eulaSheet y.1) base := by
  unfold commandMaps
  exact (all_cons (fun c h hv hd hr => by cases h)
    (all_cons (fun c h hv hd hr => by cases h)
    (all_cons (fun c h hv hd hr => by cases h)
    (all_cons (fun c h hv hd hr => by cases h)
    (all_cons (fun c h hv hd hr => by cases h)
    (all_cons (fun c h hv hd hr => by cases h)
    (all_cons (fun c h hv hd hr => by cases h)
    (all_cons (fun c h hv hd hr => by cases h)
    (all_cons (fun c h hv hd hr => by cases h)
    (all_cons (fun c h hv hd hr => by cases h)
    (all_cons (fun c h hv hd hr => by cases h; exact ⟨_, selfBack_F20_Eula⟩)
    (all_cons (fun c h hv hd hr => by cases h; exact ⟨_, selfBack_F20_Eula⟩)
    (all_cons (fun c h hv hd hr => by cases h; exact ⟨_, selfBack_F20_Eula⟩)
    (all_cons (fun c h hv hd hr => by cases h; exact ⟨_, selfBack_F20_Eula⟩)
    (all_cons (fun c h hv hd hr => by cases h; exact ⟨_, selfBack_F20_Eula⟩)
    (all_cons (fun c h hv hd hr => by cases h; exact ⟨_, selfBack_F20_Eula⟩)
    (all_cons (fun c h hv hd hr => by cases h; exact ⟨_, selfBack_F20_Eula⟩)
    (all_cons (fun c h hv hd hr => by cases h; exact ⟨_, selfBack_F20_Eula⟩)
    (all_cons (fun c h hv hd hr => by cases h; exact ⟨_, selfBack_F20_Eula⟩)
    (all_cons (fun c h hv hd hr => by cases h; exact ⟨_, selfBack_F20_Eula⟩)
    (all_cons (fun c h hv hd hr => by cases h; exact ⟨_, selfBack_F20_Eula⟩)
    (all_cons (fun c h hv hd hr => by cases h; exact ⟨_, selfBack_F20_Eula⟩)
    (all_cons (fun c h hv hd hr => by cases h; exact ⟨_, selfBack_F20_Eula⟩)
    (all_cons (fun c h hv hd hr => by cases h; exact ⟨_, selfBack_F20_Eula⟩)
    (all_cons (fun c h hv hd hr => by cases h; exact ⟨_, selfBack_F20_Eula⟩)
    (all_cons (fun c h hv hd hr => by cases h)
    (all_cons (fun c h hv hd hr => by cases h)
    (all_cons (fun c h hv hd hr => by cases h)
    (all_cons (fun c h hv hd hr => by cases h)
    (all_cons (fun c h hv hd hr => by cases h)
    (all_cons (fun c h hv hd hr => by cases h)
    (all_cons (fun c h hv hd hr => by cases h)
    (all_cons (fun c h hv hd hr => by cases h)
    (all_cons (fun c h hv hd hr => by cases h)
    (all_cons (fun c h hv hd hr => by cases h)
    (all_cons (fun c h hv hd hr => by cases h)
    (all_cons (fun c h hv hd hr => by cases h; exact ⟨_, selfBack_F20_Eula⟩)
    (all_cons (fun c h hv hd hr => by cases h; exact ⟨_, selfBack_F20_Eula⟩) (List.forall_mem_nil _)))))))))))))))))))))))))))))))))))))))

theorem FC3_HardDrive.selfed (k : Info) (init : Ns) (args : List Str) (n : Nat) (skip : List Str) (hs : ∀ k ∈ ([] : List Str), k ∈ skip) :
    M.Self n (Before init skip) (FC3_HardDrive.parse k args) fun _ => ParsedBy k.op init skip n args := by
  unfold FC3_HardDrive.parse
  repeat' (first | self_step)

theorem selfBack_FC3_HardDrive_t : FC3_HardDrive.cls.SelfReadsBack (harddriveSheet Version.F10) (setToObj FC3_HardDrive.info.op.defaults FC3_HardDrive.init) :=
  plain_readsBack (o := FC3_HardDrive.strOut) (harddriveSheet Version.F10) (fun args n => FC3_HardDrive.selfed _ _ args n _ (by decide)) (by decide) (fun _ _ => rfl) (by decide +kernel)

theorem F33_HardDrive.selfed (k : Info) (init : Ns) (args : List Str) (n : Nat) (skip : List Str) (hs : ∀ k ∈ ([] : List Str), k ∈ skip) :
    M.Self n (Before init skip) (F33_HardDrive.parse k args) fun _ => ParsedBy k.op init skip n args := by
  unfold F33_HardDrive.parse
  repeat' (first | self_step)

theorem selfBack_F33_HardDrive : F33_HardDrive.cls.SelfReadsBack (harddriveSheet Version.F33) (setToObj F33_HardDrive.info.op.defaults F33_HardDrive.init) :=
  plain_readsBack (o := F33_HardDrive.strOut) (harddriveSheet Version.F33) (fun args n => F33_HardDrive.selfed _ _ args n _ (by decide)) (by decide) (fun _ _ => rfl) (by decide +kernel)

theorem selfBack_harddrive : ∀ y ∈ commandMaps, ∀ c, y.2.lookup c!"harddrive" = some c → 0 ≤ y.1 → ¬ Command.IsDeprecated c → ¬ Command.IsRemoved c → ∃ base, c.SelfReadsBack (harddriveSheet y.1) base := by
  unfold commandMaps
  exact (all_cons (fun c h hv hd hr => by cases h; exact ⟨_, selfBack_FC3_HardDrive_t⟩)
    (all_cons (fun c h hv hd hr => by cases h; exact ⟨_, selfBack_FC3_HardDrive_t⟩)
    (all_cons (fun c h hv hd hr => by cases h; exact ⟨_, selfBack_FC3_HardDrive_t⟩)
    (all_cons (fun c h hv hd hr => by cases h; exact ⟨_, selfBack_FC3_HardDrive_t⟩)
    (all_cons (fun c h hv hd hr => by cases h; exact ⟨_, selfBack_FC3_HardDrive_t⟩)
    (all_cons (fun c h hv hd hr => by cases h; exact ⟨_, selfBack_FC3_HardDrive_t⟩)
    (all_cons (fun c h hv hd hr => by cases h; exact ⟨_, selfBack_FC3_HardDrive_t⟩)
    (all_cons (fun c h hv hd hr => by cases h; exact ⟨_, selfBack_FC3_HardDrive_t⟩)
    (all_cons (fun c h hv hd hr => by cases h; exact ⟨_, selfBack_FC3_HardDrive_t⟩)
    (all_cons (fun c h hv hd hr => by cases h; exact ⟨_, selfBack_FC3_HardDrive_t⟩)
    (all_cons (fun c h hv hd hr => by cases h; exact ⟨_, selfBack_FC3_HardDrive_t⟩)
    (all_cons (fun c h hv hd hr => by cases h; exact ⟨_, selfBack_FC3_HardDrive_t⟩)
    (all_cons (fun c h hv hd hr => by cases h; exact ⟨_, selfBack_FC3_HardDrive_t⟩)
    (all_cons (fun c h hv hd hr => by cases h; exact ⟨_, selfBack_FC3_HardDrive_t⟩)
    (all_cons (fun c h hv hd hr => by cases h; exact ⟨_, selfBack_FC3_HardDrive_t⟩)
    (all_cons (fun c h hv hd hr => by cases h; exact ⟨_, selfBack_FC3_HardDrive_t⟩)
    (all_cons (fun c h hv hd hr => by cases h; exact ⟨_, selfBack_FC3_HardDrive_t⟩)
    (all_cons (fun c h hv hd hr => by cases h; exact ⟨_, selfBack_FC3_HardDrive_t⟩)
    (all_cons (fun c h hv hd hr => by cases h; exact ⟨_, selfBack_FC3_HardDrive_t⟩)
    (all_cons (fun c h hv hd hr => by cases h; exact ⟨_, selfBack_FC3_HardDrive_t⟩)
    (all_cons (fun c h hv hd hr => by cases h; exact ⟨_, selfBack_FC3_HardDrive_t⟩)
    (all_cons (fun c h hv hd hr => by cases h; exact ⟨_, selfBack_FC3_HardDrive_t⟩)
    (all_cons (fun c h hv hd hr => by cases h; exact ⟨_, selfBack_FC3_HardDrive_t⟩)
    (all_cons (fun c h hv hd hr => by cases h; exact ⟨_, selfBack_F33_HardDrive⟩)
    (all_cons (fun c h hv hd hr => by cases h; exact ⟨_, selfBack_F33_HardDrive⟩)
    (all_cons (fun c h hv hd hr => by cases h; exact ⟨_, selfBack_FC3_HardDrive_t⟩)
    (all_cons (fun c h hv hd hr => by cases h; exact ⟨_, selfBack_FC3_HardDrive_t⟩)
    (all_cons (fun c h hv hd hr => by cases h; exact ⟨_, selfBack_FC3_HardDrive_t⟩)
    (all_cons (fun c h hv hd hr => by cases h; exact ⟨_, selfBack_FC3_HardDrive_t⟩)
    (all_cons (fun c h hv hd hr => by cases h; exact ⟨_, selfBack_FC3_HardDrive_t⟩)
    (all_cons (fun c h hv hd hr => by cases h; exact ⟨_, selfBack_FC3_HardDrive_t⟩)
    (all_cons (fun c h hv hd hr => by cases h; exact ⟨_, selfBack_FC3_HardDrive_t⟩)
    (all_cons (fun c h hv hd hr => by cases h; exact ⟨_, selfBack_FC3_HardDrive_t⟩)
    (all_cons (fun c h hv hd hr => by cases h; exact ⟨_, selfBack_FC3_HardDrive_t⟩)
    (all_cons (fun c h hv hd hr => by cases h; exact ⟨_, selfBack_FC3_HardDrive_t⟩)
    (all_cons (fun c h hv hd hr => by cases h; exact ⟨_, selfBack_FC3_HardDrive_t⟩)
    (all_cons (fun c h hv hd hr => by cases h; exact ⟨_, selfBack_FC3_HardDrive_t⟩)
    (all_cons (fun c h hv hd hr => by cases h; exact ⟨_, selfBack_FC3_HardDrive_t⟩) (List.forall_mem_nil _)))))))))))))))))))))))))))))))))))))))

theorem FC3_IgnoreDisk.selfed (k : Info) (init : Ns) (args : List Str) (n : Nat) (skip : List Str) (hs : ∀ k ∈ ([] : List Str), k ∈ skip) :
    M.Self n (Before init skip) (FC3_IgnoreDisk.parse k args) fun _ => ParsedBy k.op init skip n args := by
  unfold FC3_IgnoreDisk.parse
  repeat' (first | self_step)

theorem F8_IgnoreDisk.selfed (k : Info) (init : Ns) (args : List Str) (n : Nat) (skip : List Str) (hs : ∀ k ∈ ([] : List Str), k ∈ skip) :
    M.Self n (Before init skip) (F8_IgnoreDisk.parse k args) fun _ => ParsedBy k.op init skip n args := by
  unfold F8_IgnoreDisk.parse
  refine self_call (FC3_IgnoreDisk.selfed k init args n skip (fun x hx => hs x (by revert x; decide))) fun _ => ?_
  repeat' (first | self_step | extract_lets)

theorem selfBack_F8_IgnoreDisk : F8_IgnoreDisk.cls.SelfReadsBack (ignorediskSheet Version.F10) (setToObj F8_IgnoreDisk.info.op.defaults F8_IgnoreDisk.init) :=
  plain_readsBack (o := F8_IgnoreDisk.strOut) (ignorediskSheet Version.F10) (fun args n => F8_IgnoreDisk.selfed _ _ args n _ (by decide)) (by decide) (fun _ _ => rfl) (by decide +kernel)

theorem selfBack_F14_IgnoreDisk : F14_IgnoreDisk.cls.SelfReadsBack (ignorediskSheet Version.F14) (setToObj F14_IgnoreDisk.info.op.defaults F14_IgnoreDisk.init) :=
  plain_readsBack (o := RHEL6_IgnoreDisk.strOut) (ignorediskSheet Version.F14) (fun args n => RHEL6_IgnoreDisk.selfed _ _ args n _ (by decide) (by decide +kernel) (by decide +kernel) (by decide)) (by decide) (fun _ _ => rfl) (by decide +kernel)

theorem F29_IgnoreDisk.selfed (k : Info) (init : Ns) (args : List Str) (n : Nat) (skip : List Str) (hs : ∀ k ∈ ([] : List Str), k ∈ skip) :
    M.Self n (Before init skip) (F29_IgnoreDisk.parse k args) fun _ => ParsedBy k.op init skip n args := by
  unfold F29_IgnoreDisk.parse
  exact F8_IgnoreDisk.selfed k init args n skip (fun x hx => hs x (by revert x; decide))

theorem selfBack_F29_IgnoreDisk : F29_IgnoreDisk.cls.SelfReadsBack (ignorediskSheet Version.F29) (setToObj F29_IgnoreDisk.info.op.defaults F29_IgnoreDisk.init) :=
  plain_readsBack (o := RHEL6_IgnoreDisk.strOut) (ignorediskSheet Version.F29) (fun args n => F29_IgnoreDisk.selfed _ _ args n _ (by decide)) (by decide) (fun _ _ => rfl) (by decide +kernel)

theorem selfBack_F34_IgnoreDisk : F34_IgnoreDisk.cls.SelfReadsBack (ignorediskSheet Version.F34) (setToObj F34_IgnoreDisk.info.op.defaults F34_IgnoreDisk.init) :=
  plain_readsBack (o := RHEL6_IgnoreDisk.strOut) (ignorediskSheet Version.F34) (fun args n => F29_IgnoreDisk.selfed _ _ args n _ (by decide)) (by decide) (fun _ _ => rfl) (by decide +kernel)

theorem selfBack_FC3_IgnoreDisk : FC3_IgnoreDisk.cls.SelfReadsBack (ignorediskSheet Version.F7) (setToObj FC3_IgnoreDisk.info.op.defaults FC3_IgnoreDisk.init) :=
  plain_readsBack (o := FC3_IgnoreDisk.strOut) (ignorediskSheet Version.F7) (fun args n => FC3_IgnoreDisk.selfed _ _ args n _ (by decide)) (by decide) (fun _ _ => rfl) (by decide +kernel)

theorem selfBack_RHEL6_IgnoreDisk : RHEL6_IgnoreDisk.cls.SelfReadsBack (ignorediskSheet Version.RHEL6) (setToObj RHEL6_IgnoreDisk.info.op.defaults RHEL6_IgnoreDisk.init) :=
  plain_readsBack (o := RHEL6_IgnoreDisk.strOut) (ignorediskSheet Version.RHEL6) (fun args n => RHEL6_IgnoreDisk.selfed _ _ args n _ (by decide) (by decide +kernel) (by decide +kernel) (by decide)) (by decide) (fun _ _ => rfl) (by decide +kernel)

theorem selfBack_ignoredisk : ∀ y ∈ commandMaps, ∀ c, y.2.lookup c!"ignoredisk" = some c → 0 ≤ y.1 → ¬ Command.IsDeprecated c → ¬ Command.IsRemoved c → ∃ base, c.SelfReadsBack (ignorediskSheet y.1) base := by
  unfold commandMaps
  exact (all_cons (fun c h hv hd hr => by cases h; exact ⟨_, selfBack_F8_IgnoreDisk⟩)
    (all_cons (fun c h hv hd hr => by cases h; exact ⟨_, selfBack_F8_IgnoreDisk⟩)
    (all_cons (fun c h hv hd hr => by cases h; exact ⟨_, selfBack_F8_IgnoreDisk⟩)
    (all_cons (fun c h hv hd hr => by cases h; exact ⟨_, selfBack_F8_IgnoreDisk⟩)
    (all_cons (fun c h hv hd hr => by cases h; exact ⟨_, selfBack_F14_IgnoreDisk⟩)
    (all_cons (fun c h hv hd hr => by cases h; exact ⟨_, selfBack_F14_IgnoreDisk⟩)
    (all_cons (fun c h hv hd hr => by cases h; exact ⟨_, selfBack_F14_IgnoreDisk⟩)
    (all_cons (fun c h hv hd hr => by cases h; exact ⟨_, selfBack_F14_IgnoreDisk⟩)
    (all_cons (fun c h hv hd hr => by cases h; exact ⟨_, selfBack_F14_IgnoreDisk⟩)
    (all_cons (fun c h hv hd hr => by cases h; exact ⟨_, selfBack_F14_IgnoreDisk⟩)
    (all_cons (fun c h hv hd hr => by cases h; exact ⟨_, selfBack_F14_IgnoreDisk⟩)
    (all_cons (fun c h hv hd hr => by cases h; exact ⟨_, selfBack_F14_IgnoreDisk⟩)
    (all_cons (fun c h hv hd hr => by cases h; exact ⟨_, selfBack_F14_IgnoreDisk⟩)
    (all_cons (fun c h hv hd hr => by cases h; exact ⟨_, selfBack_F14_IgnoreDisk⟩)
    (all_cons (fun c h hv hd hr => by cases h; exact ⟨_, selfBack_F14_IgnoreDisk⟩)
    (all_cons (fun c h hv hd hr => by cases h; exact ⟨_, selfBack_F14_IgnoreDisk⟩)
    (all_cons (fun c h hv hd hr => by cases h; exact ⟨_, selfBack_F14_IgnoreDisk⟩)
    (all_cons (fun c h hv hd hr => by cases h; exact ⟨_, selfBack_F14_IgnoreDisk⟩)
    (all_cons (fun c h hv hd hr => by cases h; exact ⟨_, selfBack_F14_IgnoreDisk⟩)
    (all_cons (fun c h hv hd hr => by cases h; exact ⟨_, selfBack_F29_IgnoreDisk⟩)
    (all_cons (fun c h hv hd hr => by cases h; exact ⟨_, selfBack_F29_IgnoreDisk⟩)
    (all_cons (fun c h hv hd hr => by cases h; exact ⟨_, selfBack_F29_IgnoreDisk⟩)
    (all_cons (fun c h hv hd hr => by cases h; exact ⟨_, selfBack_F29_IgnoreDisk⟩)
    (all_cons (fun c h hv hd hr => by cases h; exact ⟨_, selfBack_F29_IgnoreDisk⟩)
    (all_cons (fun c h hv hd hr => by cases h; exact ⟨_, selfBack_F34_IgnoreDisk⟩)
    (all_cons (fun c h hv hd hr => by cases h; exact ⟨_, selfBack_FC3_IgnoreDisk⟩)
    (all_cons (fun c h hv hd hr => by cases h; exact ⟨_, selfBack_F8_IgnoreDisk⟩)
    (all_cons (fun c h hv hd hr => by cases h; exact ⟨_, selfBack_F8_IgnoreDisk⟩)
    (all_cons (fun c h hv hd hr => by cases h; exact ⟨_, selfBack_FC3_IgnoreDisk⟩)
    (all_cons (fun c h hv hd hr => by cases h; exact ⟨_, selfBack_FC3_IgnoreDisk⟩)
    (all_cons (fun c h hv hd hr => by cases h; exact ⟨_, selfBack_FC3_IgnoreDisk⟩)
    (all_cons (fun c h hv hd hr => by cases h; exact ⟨_, selfBack_FC3_IgnoreDisk⟩)
    (all_cons (fun c h hv hd hr => by cases h; exact ⟨_, selfBack_FC3_IgnoreDisk⟩)
    (all_cons (fun c h hv hd hr => by cases h; exact ⟨_, selfBack_F8_IgnoreDisk⟩)
    (all_cons (fun c h hv hd hr => by cases h; exact ⟨_, selfBack_F8_IgnoreDisk⟩)
    (all_cons (fun c h hv hd hr => by cases h; exact ⟨_, selfBack_RHEL6_IgnoreDisk⟩)
    (all_cons (fun c h hv hd hr => by cases h; exact ⟨_, selfBack_F14_IgnoreDisk⟩)
    (all_cons (fun c h hv hd hr => by cases h; exact ⟨_, selfBack_F29_IgnoreDisk⟩) (List.forall_mem_nil _)))))))))))))))))))))))))))))))))))))))

theorem FC3_Lang.selfed (k : Info) (init : Ns) (args : List Str) (n : Nat) (skip : List Str) (hs : ∀ k ∈ ([c!"lang"] : List Str), k ∈ skip) :
    M.Self n (Before init skip) (FC3_Lang.parse k args) fun _ => ParsedBy k.op init skip n args := by
  unfold FC3_Lang.parse
  repeat' (first | self_step | extract_lets)

theorem selfBack_F19_Lang : F19_Lang.cls.SelfReadsBack (langSheet Version.F19) (setToObj F19_Lang.info.op.defaults F19_Lang.init) :=
  plain_readsBack (o := F19_Lang.out ++ [(.tru c!"lang", [.lit c!"\n"])]) (langSheet Version.F19) (fun args n => FC3_Lang.selfed _ _ args n _ (by decide)) (by decide) (fun d hp => F19_Lang.lined.render ⟨hp.2.2.1, hp.1.present⟩) (by decide +kernel)

theorem selfBack_lang : ∀ y ∈ commandMaps, ∀ c, y.2.lookup c!"lang" = some c → Version.F19 ≤ y.1 → ¬ Command.IsDeprecated c → ¬ Command.IsRemoved c → ∃ base, c.SelfReadsBack (langSheet y.1) base := by
  unfold commandMaps
  exact (all_cons (fun c h hv hd hr => absurd hv (by decide))
    (all_cons (fun c h hv hd hr => absurd hv (by decide))
    (all_cons (fun c h hv hd hr => absurd hv (by decide))
    (all_cons (fun c h hv hd hr => absurd hv (by decide))
    (all_cons (fun c h hv hd hr => absurd hv (by decide))
    (all_cons (fun c h hv hd hr => absurd hv (by decide))
    (all_cons (fun c h hv hd hr => absurd hv (by decide))
    (all_cons (fun c h hv hd hr => absurd hv (by decide))
    (all_cons (fun c h hv hd hr => absurd hv (by decide))
    (all_cons (fun c h hv hd hr => by cases h; exact ⟨_, selfBack_F19_Lang⟩)
    (all_cons (fun c h hv hd hr => by cases h; exact ⟨_, selfBack_F19_Lang⟩)
    (all_cons (fun c h hv hd hr => by cases h; exact ⟨_, selfBack_F19_Lang⟩)
    (all_cons (fun c h hv hd hr => by cases h; exact ⟨_, selfBack_F19_Lang⟩)
    (all_cons (fun c h hv hd hr => by cases h; exact ⟨_, selfBack_F19_Lang⟩)
    (all_cons (fun c h hv hd hr => by cases h; exact ⟨_, selfBack_F19_Lang⟩)
    (all_cons (fun c h hv hd hr => by cases h; exact ⟨_, selfBack_F19_Lang⟩)
    (all_cons (fun c h hv hd hr => by cases h; exact ⟨_, selfBack_F19_Lang⟩)
    (all_cons (fun c h hv hd hr => by cases h; exact ⟨_, selfBack_F19_Lang⟩)
    (all_cons (fun c h hv hd hr => by cases h; exact ⟨_, selfBack_F19_Lang⟩)
    (all_cons (fun c h hv hd hr => by cases h; exact ⟨_, selfBack_F19_Lang⟩)
    (all_cons (fun c h hv hd hr => by cases h; exact ⟨_, selfBack_F19_Lang⟩)
    (all_cons (fun c h hv hd hr => by cases h; exact ⟨_, selfBack_F19_Lang⟩)
    (all_cons (fun c h hv hd hr => by cases h; exact ⟨_, selfBack_F19_Lang⟩)
    (all_cons (fun c h hv hd hr => by cases h; exact ⟨_, selfBack_F19_Lang⟩)
    (all_cons (fun c h hv hd hr => by cases h; exact ⟨_, selfBack_F19_Lang⟩)
    (all_cons (fun c h hv hd hr => absurd hv (by decide))
    (all_cons (fun c h hv hd hr => absurd hv (by decide))
    (all_cons (fun c h hv hd hr => absurd hv (by decide))
    (all_cons (fun c h hv hd hr => absurd hv (by decide))
    (all_cons (fun c h hv hd hr => absurd hv (by decide))
    (all_cons (fun c h hv hd hr => absurd hv (by decide))
    (all_cons (fun c h hv hd hr => absurd hv (by decide))
    (all_cons (fun c h hv hd hr => absurd hv (by decide))
    (all_cons (fun c h hv hd hr => absurd hv (by decide))
    (all_cons (fun c h hv hd hr => absurd hv (by decide))
    (all_cons (fun c h hv hd hr => absurd hv (by decide))
    (all_cons (fun c h hv hd hr => by cases h; exact ⟨_, selfBack_F19_Lang⟩)
    (all_cons (fun c h hv hd hr => by cases h; exact ⟨_, selfBack_F19_Lang⟩) (List.forall_mem_nil _)))))))))))))))))))))))))))))))))))))))

theorem F19_Liveimg.selfed (k : Info) (init : Ns) (args : List Str) (n : Nat) (skip : List Str) (hs : ∀ k ∈ ([] : List Str), k ∈ skip) :
    M.Self n (Before init skip) (F19_Liveimg.parse k args) fun _ => ParsedBy k.op init skip n args := by
  unfold F19_Liveimg.parse
  repeat' (first | self_step)

theorem selfBack_F19_Liveimg : F19_Liveimg.cls.SelfReadsBack (liveimgSheet Version.F19) (setToObj F19_Liveimg.info.op.defaults F19_Liveimg.init) :=
  plain_readsBack (o := F19_Liveimg.strOut) (liveimgSheet Version.F19) (fun args n => F19_Liveimg.selfed _ _ args n _ (by decide)) (by decide) (fun _ _ => rfl) (by decide +kernel)

theorem selfBack_liveimg : ∀ y ∈ commandMaps, ∀ c, y.2.lookup c!"liveimg" = some c → 0 ≤ y.1 → ¬ Command.IsDeprecated c → ¬ Command.IsRemoved c → ∃ base, c.SelfReadsBack (liveimgSheet y.1) base := by
  unfold commandMaps
  exact (all_cons (fun c h hv hd hr => by cases h)
    (all_cons (fun c h hv hd hr => by cases h)
    (all_cons (fun c h hv hd hr => by cases h)
    (all_cons (fun c h hv hd hr => by cases h)
    (all_cons (fun c h hv hd hr => by cases h)
    (all_cons (fun c h hv hd hr => by cases h)
    (all_cons (fun c h hv hd hr => by cases h)
    (all_cons (fun c h hv hd hr => by cases h)
    (all_cons (fun c h hv hd hr => by cases h)
    (all_cons (fun c h hv hd hr => by cases h; exact ⟨_, selfBack_F19_Liveimg⟩)
    (all_cons (fun c h hv hd hr => by cases h; exact ⟨_, selfBack_F19_Liveimg⟩)
    (all_cons (fun c h hv hd hr => by cases h; exact ⟨_, selfBack_F19_Liveimg⟩)
    (all_cons (fun c h hv hd hr => by cases h; exact ⟨_, selfBack_F19_Liveimg⟩)
    (all_cons (fun c h hv hd hr => by cases h; exact ⟨_, selfBack_F19_Liveimg⟩)
    (all_cons (fun c h hv hd hr => by cases h; exact ⟨_, selfBack_F19_Liveimg⟩)
    (all_cons (fun c h hv hd hr => by cases h; exact ⟨_, selfBack_F19_Liveimg⟩)
    (all_cons (fun c h hv hd hr => by cases h; exact ⟨_, selfBack_F19_Liveimg⟩)
    (all_cons (fun c h hv hd hr => by cases h; exact ⟨_, selfBack_F19_Liveimg⟩)
    (all_cons (fun c h hv hd hr => by cases h; exact ⟨_, selfBack_F19_Liveimg⟩)
    (all_cons (fun c h hv hd hr => by cases h; exact ⟨_, selfBack_F19_Liveimg⟩)
    (all_cons (fun c h hv hd hr => by cases h; exact ⟨_, selfBack_F19_Liveimg⟩)
    (all_cons (fun c h hv hd hr => by cases h; exact ⟨_, selfBack_F19_Liveimg⟩)
    (all_cons (fun c h hv hd hr => by cases h; exact ⟨_, selfBack_F19_Liveimg⟩)
    (all_cons (fun c h hv hd hr => by cases h; exact ⟨_, selfBack_F19_Liveimg⟩)
    (all_cons (fun c h hv hd hr => by cases h; exact ⟨_, selfBack_F19_Liveimg⟩)
    (all_cons (fun c h hv hd hr => by cases h)
    (all_cons (fun c h hv hd hr => by cases h)
    (all_cons (fun c h hv hd hr => by cases h)
    (all_cons (fun c h hv hd hr => by cases h)
    (all_cons (fun c h hv hd hr => by cases h)
    (all_cons (fun c h hv hd hr => by cases h)
    (all_cons (fun c h hv hd hr => by cases h)
    (all_cons (fun c h hv hd hr => by cases h)
    (all_cons (fun c h hv hd hr => by cases h)
    (all_cons (fun c h hv hd hr => by cases h)
    (all_cons (fun c h hv hd hr => by cases h)
    (all_cons (fun c h hv hd hr => by cases h; exact ⟨_, selfBack_F19_Liveimg⟩)
    (all_cons (fun c h hv hd hr => by cases h; exact ⟨_, selfBack_F19_Liveimg⟩) (List.forall_mem_nil _)))))))))))))))))))))))))))))))))))))))

theorem FC6_Logging.selfed (k : Info) (init : Ns) (args : List Str) (n : Nat) (skip : List Str) (hs : ∀ k ∈ ([c!"_level_provided"] : List Str), k ∈ skip) :
    M.Self n (Before init skip) (FC6_Logging.parse k args) fun _ => ParsedBy k.op init skip n args := by
  unfold FC6_Logging.parse
  repeat' (first | self_step)

theorem selfBack_FC6_Logging_t : FC6_Logging.cls.SelfReadsBack (loggingSheet Version.F10) (setToObj FC6_Logging.info.op.defaults FC6_Logging.init) :=
  plain_readsBack (o := FC6_Logging.strOut) (loggingSheet Version.F10) (fun args n => FC6_Logging.selfed _ _ args n _ (by decide)) (by decide) (fun _ _ => rfl) (by decide +kernel)

theorem selfBack_F34_Logging : F34_Logging.cls.SelfReadsBack (loggingSheet Version.F34) (setToObj F34_Logging.info.op.defaults F34_Logging.init) :=
  plain_readsBack (o := F34_Logging.strOut) (loggingSheet Version.F34) (fun args n => FC6_Logging.selfed _ _ args n _ (by decide)) (by decide) (fun _ _ => rfl) (by decide +kernel)

theorem selfBack_logging : ∀ y ∈ commandMaps, ∀ c, y.2.lookup c!"logging" = some c → 0 ≤ y.1 → ¬ Command.IsDeprecated c → ¬ Command.IsRemoved c → ∃ base, c.SelfReadsBack (loggingSheet y.1) base := by
  unfold commandMaps
  exact (all_cons (fun c h hv hd hr => by cases h; exact ⟨_, selfBack_FC6_Logging_t⟩)
    (all_cons (fun c h hv hd hr => by cases h; exact ⟨_, selfBack_FC6_Logging_t⟩)
    (all_cons (fun c h hv hd hr => by cases h; exact ⟨_, selfBack_FC6_Logging_t⟩)
    (all_cons (fun c h hv hd hr => by cases h; exact ⟨_, selfBack_FC6_Logging_t⟩)
    (all_cons (fun c h hv hd hr => by cases h; exact ⟨_, selfBack_FC6_Logging_t⟩)
    (all_cons (fun c h hv hd hr => by cases h; exact ⟨_, selfBack_FC6_Logging_t⟩)
    (all_cons (fun c h hv hd hr => by cases h; exact ⟨_, selfBack_FC6_Logging_t⟩)
    (all_cons (fun c h hv hd hr => by cases h; exact ⟨_, selfBack_FC6_Logging_t⟩)
    (all_cons (fun c h hv hd hr => by cases h; exact ⟨_, selfBack_FC6_Logging_t⟩)
    (all_cons (fun c h hv hd hr => by cases h; exact ⟨_, selfBack_FC6_Logging_t⟩)
    (all_cons (fun c h hv hd hr => by cases h; exact ⟨_, selfBack_FC6_Logging_t⟩)
    (all_cons (fun c h hv hd hr => by cases h; exact ⟨_, selfBack_FC6_Logging_t⟩)
    (all_cons (fun c h hv hd hr => by cases h; exact ⟨_, selfBack_FC6_Logging_t⟩)
    (all_cons (fun c h hv hd hr => by cases h; exact ⟨_, selfBack_FC6_Logging_t⟩)
    (all_cons (fun c h hv hd hr => by cases h; exact ⟨_, selfBack_FC6_Logging_t⟩)
    (all_cons (fun c h hv hd hr => by cases h; exact ⟨_, selfBack_FC6_Logging_t⟩)
    (all_cons (fun c h hv hd hr => by cases h; exact ⟨_, selfBack_FC6_Logging_t⟩)
    (all_cons (fun c h hv hd hr => by cases h; exact ⟨_, selfBack_FC6_Logging_t⟩)
    (all_cons (fun c h hv hd hr => by cases h; exact ⟨_, selfBack_FC6_Logging_t⟩)
    (all_cons (fun c h hv hd hr => by cases h; exact ⟨_, selfBack_FC6_Logging_t⟩)
    (all_cons (fun c h hv hd hr => by cases h; exact ⟨_, selfBack_FC6_Logging_t⟩)
    (all_cons (fun c h hv hd hr => by cases h; exact ⟨_, selfBack_FC6_Logging_t⟩)
    (all_cons (fun c h hv hd hr => by cases h; exact ⟨_, selfBack_FC6_Logging_t⟩)
    (all_cons (fun c h hv hd hr => by cases h; exact ⟨_, selfBack_FC6_Logging_t⟩)
    (all_cons (fun c h hv hd hr => by cases h; exact ⟨_, selfBack_F34_Logging⟩)
    (all_cons (fun c h hv hd hr => by cases h; exact ⟨_, selfBack_FC6_Logging_t⟩)
    (all_cons (fun c h hv hd hr => by cases h; exact ⟨_, selfBack_FC6_Logging_t⟩)
    (all_cons (fun c h hv hd hr => by cases h; exact ⟨_, selfBack_FC6_Logging_t⟩)
    (all_cons (fun c h hv hd hr => by cases h)
    (all_cons (fun c h hv hd hr => by cases h)
    (all_cons (fun c h hv hd hr => by cases h)
    (all_cons (fun c h hv hd hr => by cases h; exact ⟨_, selfBack_FC6_Logging_t⟩)
    (all_cons (fun c h hv hd hr => by cases h)
    (all_cons (fun c h hv hd hr => by cases h)
    (all_cons (fun c h hv hd hr => by cases h; exact ⟨_, selfBack_FC6_Logging_t⟩)
    (all_cons (fun c h hv hd hr => by cases h; exact ⟨_, selfBack_FC6_Logging_t⟩)
    (all_cons (fun c h hv hd hr => by cases h; exact ⟨_, selfBack_FC6_Logging_t⟩)
    (all_cons (fun c h hv hd hr => by cases h; exact ⟨_, selfBack_FC6_Logging_t⟩) (List.forall_mem_nil _)))))))))))))))))))))))))))))))))))))))

theorem FC3_Monitor.selfed (k : Info) (init : Ns) (args : List Str) (n : Nat) (skip : List Str) (hs : ∀ k ∈ ([] : List Str), k ∈ skip) :
    M.Self n (Before init skip) (FC3_Monitor.parse k args) fun _ => ParsedBy k.op init skip n args := by
  unfold FC3_Monitor.parse
  repeat' (first | self_step)

theorem selfBack_FC6_Monitor : FC6_Monitor.cls.SelfReadsBack (monitorSheet Version.F7) (setToObj FC6_Monitor.info.op.defaults FC6_Monitor.init) :=
  plain_readsBack (o := FC6_Monitor.strOut) (monitorSheet Version.F7) (fun args n => FC3_Monitor.selfed _ _ args n _ (by decide)) (by decide) (fun _ _ => rfl) (by decide +kernel)

theorem selfBack_FC3_Monitor : FC3_Monitor.cls.SelfReadsBack (monitorSheet Version.FC3) (setToObj FC3_Monitor.info.op.defaults FC3_Monitor.init) :=
  plain_readsBack (o := FC3_Monitor.strOut) (monitorSheet Version.FC3) (fun args n => FC3_Monitor.selfed _ _ args n _ (by decide)) (by decide) (fun _ _ => rfl) (by decide +kernel)

theorem selfBack_monitor : ∀ y ∈ commandMaps, ∀ c, y.2.lookup c!"monitor" = some c → 0 ≤ y.1 → ¬ Command.IsDeprecated c → ¬ Command.IsRemoved c → ∃ base, c.SelfReadsBack (monitorSheet y.1) base := by
  unfold commandMaps
  exact (all_cons (fun c h hv hd hr => by cases h; exact absurd ⟨_, _, rfl⟩ hd)
    (all_cons (fun c h hv hd hr => by cases h; exact absurd ⟨_, _, rfl⟩ hd)
    (all_cons (fun c h hv hd hr => by cases h; exact absurd ⟨_, _, rfl⟩ hd)
    (all_cons (fun c h hv hd hr => by cases h; exact absurd ⟨_, _, rfl⟩ hd)
    (all_cons (fun c h hv hd hr => by cases h; exact absurd ⟨_, _, rfl⟩ hd)
    (all_cons (fun c h hv hd hr => by cases h; exact absurd ⟨_, _, rfl⟩ hd)
    (all_cons (fun c h hv hd hr => by cases h; exact absurd ⟨_, _, rfl⟩ hd)
    (all_cons (fun c h hv hd hr => by cases h; exact absurd ⟨_, _, rfl⟩ hd)
    (all_cons (fun c h hv hd hr => by cases h; exact absurd ⟨_, _, rfl⟩ hr)
    (all_cons (fun c h hv hd hr => by cases h)
    (all_cons (fun c h hv hd hr => by cases h)
    (all_cons (fun c h hv hd hr => by cases h)
    (all_cons (fun c h hv hd hr => by cases h)
    (all_cons (fun c h hv hd hr => by cases h)
    (all_cons (fun c h hv hd hr => by cases h)
    (all_cons (fun c h hv hd hr => by cases h)
    (all_cons (fun c h hv hd hr => by cases h)
    (all_cons (fun c h hv hd hr => by cases h)
    (all_cons (fun c h hv hd hr => by cases h)
    (all_cons (fun c h hv hd hr => by cases h)
    (all_cons (fun c h hv hd hr => by cases h)
    (all_cons (fun c h hv hd hr => by cases h)
    (all_cons (fun c h hv hd hr => by cases h)
    (all_cons (fun c h hv hd hr => by cases h)
    (all_cons (fun c h hv hd hr => by cases h)
    (all_cons (fun c h hv hd hr => by cases h; exact ⟨_, selfBack_FC6_Monitor⟩)
    (all_cons (fun c h hv hd hr => by cases h; exact ⟨_, selfBack_FC6_Monitor⟩)
    (all_cons (fun c h hv hd hr => by cases h; exact ⟨_, selfBack_FC6_Monitor⟩)
    (all_cons (fun c h hv hd hr => by cases h; exact ⟨_, selfBack_FC3_Monitor⟩)
    (all_cons (fun c h hv hd hr => by cases h; exact ⟨_, selfBack_FC3_Monitor⟩)
    (all_cons (fun c h hv hd hr => by cases h; exact ⟨_, selfBack_FC3_Monitor⟩)
    (all_cons (fun c h hv hd hr => by cases h; exact ⟨_, selfBack_FC6_Monitor⟩)
    (all_cons (fun c h hv hd hr => by cases h; exact ⟨_, selfBack_FC3_Monitor⟩)
    (all_cons (fun c h hv hd hr => by cases h; exact ⟨_, selfBack_FC3_Monitor⟩)
    (all_cons (fun c h hv hd hr => by cases h; exact ⟨_, selfBack_FC6_Monitor⟩)
    (all_cons (fun c h hv hd hr => by cases h; exact absurd ⟨_, _, rfl⟩ hd)
    (all_cons (fun c h hv hd hr => by cases h)
    (all_cons (fun c h hv hd hr => by cases h) (List.forall_mem_nil _)))))))))))))))))))))))))))))))))))))))

theorem RHEL3_Mouse.selfed (k : Info) (init : Ns) (args : List Str) (n : Nat) (skip : List Str) (hs : ∀ k ∈ ([c!"mouse"] : List Str), k ∈ skip) :
    M.Self n (Before init skip) (RHEL3_Mouse.parse k args) fun _ => ParsedBy k.op init skip n args := by
  unfold RHEL3_Mouse.parse
  repeat' (first | self_step | extract_lets)

theorem selfBack_RHEL3_Mouse : RHEL3_Mouse.cls.SelfReadsBack (mouseSheet Version.RHEL3) (setToObj RHEL3_Mouse.info.op.defaults RHEL3_Mouse.init) :=
  plain_readsBack (o := RHEL3_Mouse.strOut) (mouseSheet Version.RHEL3) (fun args n => RHEL3_Mouse.selfed _ _ args n _ (by decide)) (by decide) (fun _ _ => rfl) (by decide +kernel)

theorem selfBack_mouse : ∀ y ∈ commandMaps, ∀ c, y.2.lookup c!"mouse" = some c → 0 ≤ y.1 → ¬ Command.IsDeprecated c → ¬ Command.IsRemoved c → ∃ base, c.SelfReadsBack (mouseSheet y.1) base := by
  unfold commandMaps
  exact (all_cons (fun c h hv hd hr => by cases h)
    (all_cons (fun c h hv hd hr => by cases h)
    (all_cons (fun c h hv hd hr => by cases h)
    (all_cons (fun c h hv hd hr => by cases h)
    (all_cons (fun c h hv hd hr => by cases h)
    (all_cons (fun c h hv hd hr => by cases h)
    (all_cons (fun c h hv hd hr => by cases h)
    (all_cons (fun c h hv hd hr => by cases h)
    (all_cons (fun c h hv hd hr => by cases h)
    (all_cons (fun c h hv hd hr => by cases h)
    (all_cons (fun c h hv hd hr => by cases h)
    (all_cons (fun c h hv hd hr => by cases h)
    (all_cons (fun c h hv hd hr => by cases h)
    (all_cons (fun c h hv hd hr => by cases h)
    (all_cons (fun c h hv hd hr => by cases h)
    (all_cons (fun c h hv hd hr => by cases h)
    (all_cons (fun c h hv hd hr => by cases h)
    (all_cons (fun c h hv hd hr => by cases h)
    (all_cons (fun c h hv hd hr => by cases h)
    (all_cons (fun c h hv hd hr => by cases h)
    (all_cons (fun c h hv hd hr => by cases h)
    (all_cons (fun c h hv hd hr => by cases h)
    (all_cons (fun c h hv hd hr => by cases h)
    (all_cons (fun c h hv hd hr => by cases h)
    (all_cons (fun c h hv hd hr => by cases h)
    (all_cons (fun c h hv hd hr => by cases h; exact absurd ⟨_, _, rfl⟩ hr)
    (all_cons (fun c h hv hd hr => by cases h)
    (all_cons (fun c h hv hd hr => by cases h)
    (all_cons (fun c h hv hd hr => by cases h; exact absurd ⟨_, _, rfl⟩ hd)
    (all_cons (fun c h hv hd hr => by cases h; exact absurd ⟨_, _, rfl⟩ hd)
    (all_cons (fun c h hv hd hr => by cases h; exact absurd ⟨_, _, rfl⟩ hd)
    (all_cons (fun c h hv hd hr => by cases h; exact absurd ⟨_, _, rfl⟩ hd)
    (all_cons (fun c h hv hd hr => by cases h; exact ⟨_, selfBack_RHEL3_Mouse⟩)
    (all_cons (fun c h hv hd hr => by cases h; exact absurd ⟨_, _, rfl⟩ hd)
    (all_cons (fun c h hv hd hr => by cases h; exact absurd ⟨_, _, rfl⟩ hd)
    (all_cons (fun c h hv hd hr => by cases h)
    (all_cons (fun c h hv hd hr => by cases h)
    (all_cons (fun c h hv hd hr => by cases h) (List.forall_mem_nil _)))))))))))))))))))))))))))))))))))))))

end Ks.Cmd
