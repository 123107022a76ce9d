import Verif.Commands.OwnRuleLogic
import Verif.Commands.Maps
import Verif.Commands.ListLogic
/-!
# The rules for the classes of the command maps

Written by `scripts/gen_ownrules.py`.
-/
namespace Ks

open Cmd

/-- The command of the rule keeps it, in every version that has it. -/
def OwnRule.Kept (r : OwnRule) : Prop := ∀ y ∈ commandMaps, r.versions y.1 = true → ∀ c, y.2.lookup r.cmd = some c → Command.Ruled c r.holds

/-- The command of the rule keeps it in its first line. -/
def OwnRule.KeptFirst (r : OwnRule) : Prop := ∀ y ∈ commandMaps, r.versions y.1 = true → ∀ c, y.2.lookup r.cmd = some c → Command.FirstRuled c r.holds

theorem ownRules_0_FC3_AutoPart : Command.Ruled FC3_AutoPart.cls (ownRules[0]'(by decide)).holds :=
  plain_ruled fun args n => FC3_AutoPart.noArgs _ args n

theorem ownRules_0 : (ownRules[0]'(by decide)).Kept := by
  unfold OwnRule.Kept commandMaps
  exact (all_cons (fun hv => absurd hv (by decide))
    (all_cons (fun hv => absurd hv (by decide))
    (all_cons (fun hv => absurd hv (by decide))
    (all_cons (fun hv => absurd hv (by decide))
    (all_cons (fun hv => absurd hv (by decide))
    (all_cons (fun hv => absurd hv (by decide))
    (all_cons (fun hv => absurd hv (by decide))
    (all_cons (fun hv => absurd hv (by decide))
    (all_cons (fun hv => absurd hv (by decide))
    (all_cons (fun hv => absurd hv (by decide))
    (all_cons (fun hv => absurd hv (by decide))
    (all_cons (fun hv => absurd hv (by decide))
    (all_cons (fun hv => absurd hv (by decide))
    (all_cons (fun hv => absurd hv (by decide))
    (all_cons (fun hv => absurd hv (by decide))
    (all_cons (fun hv => absurd hv (by decide))
    (all_cons (fun hv => absurd hv (by decide))
    (all_cons (fun hv => absurd hv (by decide))
    (all_cons (fun hv => absurd hv (by decide))
    (all_cons (fun hv => absurd hv (by decide))
    (all_cons (fun hv => absurd hv (by decide))
    (all_cons (fun hv => absurd hv (by decide))
    (all_cons (fun hv => absurd hv (by decide))
    (all_cons (fun hv => absurd hv (by decide))
    (all_cons (fun hv => absurd hv (by decide))
    (all_cons (fun _ c h => by cases h; exact ownRules_0_FC3_AutoPart)
    (all_cons (fun _ c h => by cases h; exact ownRules_0_FC3_AutoPart)
    (all_cons (fun hv => absurd hv (by decide))
    (all_cons (fun _ c h => by cases h; exact ownRules_0_FC3_AutoPart)
    (all_cons (fun _ c h => by cases h; exact ownRules_0_FC3_AutoPart)
    (all_cons (fun _ c h => by cases h; exact ownRules_0_FC3_AutoPart)
    (all_cons (fun _ c h => by cases h; exact ownRules_0_FC3_AutoPart)
    (all_cons (fun _ c h => by cases h; exact ownRules_0_FC3_AutoPart)
    (all_cons (fun _ c h => by cases h; exact ownRules_0_FC3_AutoPart)
    (all_cons (fun hv => absurd hv (by decide))
    (all_cons (fun hv => absurd hv (by decide))
    (all_cons (fun hv => absurd hv (by decide))
    (all_cons (fun hv => absurd hv (by decide)) (List.forall_mem_nil _)))))))))))))))))))))))))))))))))))))))

theorem ownRules_1_F9_AutoPart : Command.Ruled F9_AutoPart.cls (ownRules[1]'(by decide)).holds :=
  plain_ruled fun args n => F9_AutoPart.on _ args n

theorem ownRules_1_F12_AutoPart : Command.Ruled F12_AutoPart.cls (ownRules[1]'(by decide)).holds :=
  plain_ruled fun args n => F9_AutoPart.on _ args n

theorem ownRules_1_F16_AutoPart : Command.Ruled F16_AutoPart.cls (ownRules[1]'(by decide)).holds :=
  plain_ruled fun args n => F9_AutoPart.on _ args n

theorem ownRules_1_F17_AutoPart : Command.Ruled F17_AutoPart.cls (ownRules[1]'(by decide)).holds :=
  plain_ruled fun args n => F17_AutoPart.on _ args n

theorem ownRules_1_F18_AutoPart : Command.Ruled F18_AutoPart.cls (ownRules[1]'(by decide)).holds :=
  plain_ruled fun args n => F17_AutoPart.on _ args n

theorem ownRules_1_F20_AutoPart : Command.Ruled F20_AutoPart.cls (ownRules[1]'(by decide)).holds :=
  plain_ruled fun args n => F20_AutoPart.on _ args n

theorem ownRules_1_F21_AutoPart : Command.Ruled F21_AutoPart.cls (ownRules[1]'(by decide)).holds :=
  plain_ruled fun args n => F21_AutoPart.on _ args n

theorem ownRules_1_F23_AutoPart : Command.Ruled F23_AutoPart.cls (ownRules[1]'(by decide)).holds :=
  plain_ruled fun args n => F23_AutoPart.on _ args n

theorem ownRules_1_F26_AutoPart : Command.Ruled F26_AutoPart.cls (ownRules[1]'(by decide)).holds :=
  plain_ruled fun args n => F23_AutoPart.on _ args n

theorem ownRules_1_F29_AutoPart : Command.Ruled F29_AutoPart.cls (ownRules[1]'(by decide)).holds :=
  plain_ruled fun args n => F29_AutoPart.on _ args n

theorem ownRules_1_FC3_AutoPart : Command.Ruled FC3_AutoPart.cls (ownRules[1]'(by decide)).holds :=
  plain_ruled fun args n => FC3_AutoPart.on _ args n

theorem ownRules_1_RHEL6_AutoPart : Command.Ruled RHEL6_AutoPart.cls (ownRules[1]'(by decide)).holds :=
  plain_ruled fun args n => RHEL6_AutoPart.on _ args n

theorem ownRules_1_RHEL7_AutoPart : Command.Ruled RHEL7_AutoPart.cls (ownRules[1]'(by decide)).holds :=
  plain_ruled fun args n => RHEL7_AutoPart.on _ args n

theorem ownRules_1_RHEL8_AutoPart : Command.Ruled RHEL8_AutoPart.cls (ownRules[1]'(by decide)).holds :=
  plain_ruled fun args n => RHEL8_AutoPart.on _ args n

theorem ownRules_1 : (ownRules[1]'(by decide)).Kept := by
  unfold OwnRule.Kept commandMaps
  exact (all_cons (fun _ c h => by cases h; exact ownRules_1_F9_AutoPart)
    (all_cons (fun _ c h => by cases h; exact ownRules_1_F9_AutoPart)
    (all_cons (fun _ c h => by cases h; exact ownRules_1_F12_AutoPart)
    (all_cons (fun _ c h => by cases h; exact ownRules_1_F12_AutoPart)
    (all_cons (fun _ c h => by cases h; exact ownRules_1_F12_AutoPart)
    (all_cons (fun _ c h => by cases h; exact ownRules_1_F12_AutoPart)
    (all_cons (fun _ c h => by cases h; exact ownRules_1_F16_AutoPart)
    (all_cons (fun _ c h => by cases h; exact ownRules_1_F17_AutoPart)
    (all_cons (fun _ c h => by cases h; exact ownRules_1_F18_AutoPart)
    (all_cons (fun _ c h => by cases h; exact ownRules_1_F18_AutoPart)
    (all_cons (fun _ c h => by cases h; exact ownRules_1_F20_AutoPart)
    (all_cons (fun _ c h => by cases h; exact ownRules_1_F21_AutoPart)
    (all_cons (fun _ c h => by cases h; exact ownRules_1_F21_AutoPart)
    (all_cons (fun _ c h => by cases h; exact ownRules_1_F23_AutoPart)
    (all_cons (fun _ c h => by cases h; exact ownRules_1_F23_AutoPart)
    (all_cons (fun _ c h => by cases h; exact ownRules_1_F23_AutoPart)
    (all_cons (fun _ c h => by cases h; exact ownRules_1_F26_AutoPart)
    (all_cons (fun _ c h => by cases h; exact ownRules_1_F26_AutoPart)
    (all_cons (fun _ c h => by cases h; exact ownRules_1_F26_AutoPart)
    (all_cons (fun _ c h => by cases h; exact ownRules_1_F29_AutoPart)
    (all_cons (fun _ c h => by cases h; exact ownRules_1_F29_AutoPart)
    (all_cons (fun _ c h => by cases h; exact ownRules_1_F29_AutoPart)
    (all_cons (fun _ c h => by cases h; exact ownRules_1_F29_AutoPart)
    (all_cons (fun _ c h => by cases h; exact ownRules_1_F29_AutoPart)
    (all_cons (fun _ c h => by cases h; exact ownRules_1_F29_AutoPart)
    (all_cons (fun _ c h => by cases h; exact ownRules_1_FC3_AutoPart)
    (all_cons (fun _ c h => by cases h; exact ownRules_1_FC3_AutoPart)
    (all_cons (fun _ c h => by cases h; exact ownRules_1_F9_AutoPart)
    (all_cons (fun _ c h => by cases h; exact ownRules_1_FC3_AutoPart)
    (all_cons (fun _ c h => by cases h; exact ownRules_1_FC3_AutoPart)
    (all_cons (fun _ c h => by cases h; exact ownRules_1_FC3_AutoPart)
    (all_cons (fun _ c h => by cases h; exact ownRules_1_FC3_AutoPart)
    (all_cons (fun _ c h => by cases h; exact ownRules_1_FC3_AutoPart)
    (all_cons (fun _ c h => by cases h; exact ownRules_1_FC3_AutoPart)
    (all_cons (fun _ c h => by cases h; exact ownRules_1_F9_AutoPart)
    (all_cons (fun _ c h => by cases h; exact ownRules_1_RHEL6_AutoPart)
    (all_cons (fun _ c h => by cases h; exact ownRules_1_RHEL7_AutoPart)
    (all_cons (fun _ c h => by cases h; exact ownRules_1_RHEL8_AutoPart) (List.forall_mem_nil _)))))))))))))))))))))))))))))))))))))))

theorem ownRules_2_F21_AutoPart : Command.Ruled F21_AutoPart.cls (ownRules[2]'(by decide)).holds :=
  plain_ruled fun args n => own_weaken (F21_AutoPart.fs _ (by decide) args n) fun _ _ h => h.1

theorem ownRules_2_F23_AutoPart : Command.Ruled F23_AutoPart.cls (ownRules[2]'(by decide)).holds :=
  plain_ruled fun args n => own_weaken (F23_AutoPart.fs _ (by decide) args n) fun _ _ h => h.1

theorem ownRules_2_F26_AutoPart : Command.Ruled F26_AutoPart.cls (ownRules[2]'(by decide)).holds :=
  plain_ruled fun args n => own_weaken (F23_AutoPart.fs _ (by decide) args n) fun _ _ h => h.1

theorem ownRules_2_F29_AutoPart : Command.Ruled F29_AutoPart.cls (ownRules[2]'(by decide)).holds :=
  plain_ruled fun args n => own_weaken (F29_AutoPart.fs _ (by decide) args n) fun _ _ h => h.1

theorem ownRules_2_RHEL7_AutoPart : Command.Ruled RHEL7_AutoPart.cls (ownRules[2]'(by decide)).holds :=
  plain_ruled fun args n => own_weaken (RHEL7_AutoPart.fs _ (by decide) args n) fun _ _ h => h.1

theorem ownRules_2_RHEL8_AutoPart : Command.Ruled RHEL8_AutoPart.cls (ownRules[2]'(by decide)).holds :=
  plain_ruled fun args n => own_weaken (RHEL8_AutoPart.fs _ (by decide) args n) fun _ _ h => h.1

theorem ownRules_2 : (ownRules[2]'(by decide)).Kept := by
  unfold OwnRule.Kept commandMaps
  exact (all_cons (fun hv => absurd hv (by decide))
    (all_cons (fun hv => absurd hv (by decide))
    (all_cons (fun hv => absurd hv (by decide))
    (all_cons (fun hv => absurd hv (by decide))
    (all_cons (fun hv => absurd hv (by decide))
    (all_cons (fun hv => absurd hv (by decide))
    (all_cons (fun hv => absurd hv (by decide))
    (all_cons (fun hv => absurd hv (by decide))
    (all_cons (fun hv => absurd hv (by decide))
    (all_cons (fun hv => absurd hv (by decide))
    (all_cons (fun hv => absurd hv (by decide))
    (all_cons (fun _ c h => by cases h; exact ownRules_2_F21_AutoPart)
    (all_cons (fun _ c h => by cases h; exact ownRules_2_F21_AutoPart)
    (all_cons (fun _ c h => by cases h; exact ownRules_2_F23_AutoPart)
    (all_cons (fun _ c h => by cases h; exact ownRules_2_F23_AutoPart)
    (all_cons (fun _ c h => by cases h; exact ownRules_2_F23_AutoPart)
    (all_cons (fun _ c h => by cases h; exact ownRules_2_F26_AutoPart)
    (all_cons (fun _ c h => by cases h; exact ownRules_2_F26_AutoPart)
    (all_cons (fun _ c h => by cases h; exact ownRules_2_F26_AutoPart)
    (all_cons (fun _ c h => by cases h; exact ownRules_2_F29_AutoPart)
    (all_cons (fun _ c h => by cases h; exact ownRules_2_F29_AutoPart)
    (all_cons (fun _ c h => by cases h; exact ownRules_2_F29_AutoPart)
    (all_cons (fun _ c h => by cases h; exact ownRules_2_F29_AutoPart)
    (all_cons (fun _ c h => by cases h; exact ownRules_2_F29_AutoPart)
    (all_cons (fun _ c h => by cases h; exact ownRules_2_F29_AutoPart)
    (all_cons (fun hv => absurd hv (by decide))
    (all_cons (fun hv => absurd hv (by decide))
    (all_cons (fun hv => absurd hv (by decide))
    (all_cons (fun hv => absurd hv (by decide))
    (all_cons (fun hv => absurd hv (by decide))
    (all_cons (fun hv => absurd hv (by decide))
    (all_cons (fun hv => absurd hv (by decide))
    (all_cons (fun hv => absurd hv (by decide))
    (all_cons (fun hv => absurd hv (by decide))
    (all_cons (fun hv => absurd hv (by decide))
    (all_cons (fun hv => absurd hv (by decide))
    (all_cons (fun _ c h => by cases h; exact ownRules_2_RHEL7_AutoPart)
    (all_cons (fun _ c h => by cases h; exact ownRules_2_RHEL8_AutoPart) (List.forall_mem_nil _)))))))))))))))))))))))))))))))))))))))

theorem ownRules_3_F21_AutoPart : Command.Ruled F21_AutoPart.cls (ownRules[3]'(by decide)).holds :=
  plain_ruled fun args n => own_weaken (F21_AutoPart.fs _ (by decide) args n) fun _ _ h => h.2

theorem ownRules_3_F23_AutoPart : Command.Ruled F23_AutoPart.cls (ownRules[3]'(by decide)).holds :=
  plain_ruled fun args n => own_weaken (F23_AutoPart.fs _ (by decide) args n) fun _ _ h => h.2

theorem ownRules_3_F26_AutoPart : Command.Ruled F26_AutoPart.cls (ownRules[3]'(by decide)).holds :=
  plain_ruled fun args n => own_weaken (F23_AutoPart.fs _ (by decide) args n) fun _ _ h => h.2

theorem ownRules_3_F29_AutoPart : Command.Ruled F29_AutoPart.cls (ownRules[3]'(by decide)).holds :=
  plain_ruled fun args n => own_weaken (F29_AutoPart.fs _ (by decide) args n) fun _ _ h => h.2

theorem ownRules_3_RHEL7_AutoPart : Command.Ruled RHEL7_AutoPart.cls (ownRules[3]'(by decide)).holds :=
  plain_ruled fun args n => own_weaken (RHEL7_AutoPart.fs _ (by decide) args n) fun _ _ h => h.2

theorem ownRules_3_RHEL8_AutoPart : Command.Ruled RHEL8_AutoPart.cls (ownRules[3]'(by decide)).holds :=
  plain_ruled fun args n => own_weaken (RHEL8_AutoPart.fs _ (by decide) args n) fun _ _ h => h.2

theorem ownRules_3 : (ownRules[3]'(by decide)).Kept := by
  unfold OwnRule.Kept commandMaps
  exact (all_cons (fun hv => absurd hv (by decide))
    (all_cons (fun hv => absurd hv (by decide))
    (all_cons (fun hv => absurd hv (by decide))
    (all_cons (fun hv => absurd hv (by decide))
    (all_cons (fun hv => absurd hv (by decide))
    (all_cons (fun hv => absurd hv (by decide))
    (all_cons (fun hv => absurd hv (by decide))
    (all_cons (fun hv => absurd hv (by decide))
    (all_cons (fun hv => absurd hv (by decide))
    (all_cons (fun hv => absurd hv (by decide))
    (all_cons (fun hv => absurd hv (by decide))
    (all_cons (fun _ c h => by cases h; exact ownRules_3_F21_AutoPart)
    (all_cons (fun _ c h => by cases h; exact ownRules_3_F21_AutoPart)
    (all_cons (fun _ c h => by cases h; exact ownRules_3_F23_AutoPart)
    (all_cons (fun _ c h => by cases h; exact ownRules_3_F23_AutoPart)
    (all_cons (fun _ c h => by cases h; exact ownRules_3_F23_AutoPart)
    (all_cons (fun _ c h => by cases h; exact ownRules_3_F26_AutoPart)
    (all_cons (fun _ c h => by cases h; exact ownRules_3_F26_AutoPart)
    (all_cons (fun _ c h => by cases h; exact ownRules_3_F26_AutoPart)
    (all_cons (fun _ c h => by cases h; exact ownRules_3_F29_AutoPart)
    (all_cons (fun _ c h => by cases h; exact ownRules_3_F29_AutoPart)
    (all_cons (fun _ c h => by cases h; exact ownRules_3_F29_AutoPart)
    (all_cons (fun _ c h => by cases h; exact ownRules_3_F29_AutoPart)
    (all_cons (fun _ c h => by cases h; exact ownRules_3_F29_AutoPart)
    (all_cons (fun _ c h => by cases h; exact ownRules_3_F29_AutoPart)
    (all_cons (fun hv => absurd hv (by decide))
    (all_cons (fun hv => absurd hv (by decide))
    (all_cons (fun hv => absurd hv (by decide))
    (all_cons (fun hv => absurd hv (by decide))
    (all_cons (fun hv => absurd hv (by decide))
    (all_cons (fun hv => absurd hv (by decide))
    (all_cons (fun hv => absurd hv (by decide))
    (all_cons (fun hv => absurd hv (by decide))
    (all_cons (fun hv => absurd hv (by decide))
    (all_cons (fun hv => absurd hv (by decide))
    (all_cons (fun hv => absurd hv (by decide))
    (all_cons (fun _ c h => by cases h; exact ownRules_3_RHEL7_AutoPart)
    (all_cons (fun _ c h => by cases h; exact ownRules_3_RHEL8_AutoPart) (List.forall_mem_nil _)))))))))))))))))))))))))))))))))))))))

theorem ownRules_4_F29_AutoPart : Command.Ruled F29_AutoPart.cls (ownRules[4]'(by decide)).holds :=
  plain_ruled fun args n => F29_AutoPart.pbkdf _ args n

theorem ownRules_4_RHEL8_AutoPart : Command.Ruled RHEL8_AutoPart.cls (ownRules[4]'(by decide)).holds :=
  plain_ruled fun args n => RHEL8_AutoPart.pbkdf _ args n

theorem ownRules_4 : (ownRules[4]'(by decide)).Kept := by
  unfold OwnRule.Kept commandMaps
  exact (all_cons (fun hv => absurd hv (by decide))
    (all_cons (fun hv => absurd hv (by decide))
    (all_cons (fun hv => absurd hv (by decide))
    (all_cons (fun hv => absurd hv (by decide))
    (all_cons (fun hv => absurd hv (by decide))
    (all_cons (fun hv => absurd hv (by decide))
    (all_cons (fun hv => absurd hv (by decide))
    (all_cons (fun hv => absurd hv (by decide))
    (all_cons (fun hv => absurd hv (by decide))
    (all_cons (fun hv => absurd hv (by decide))
    (all_cons (fun hv => absurd hv (by decide))
    (all_cons (fun hv => absurd hv (by decide))
    (all_cons (fun hv => absurd hv (by decide))
    (all_cons (fun hv => absurd hv (by decide))
    (all_cons (fun hv => absurd hv (by decide))
    (all_cons (fun hv => absurd hv (by decide))
    (all_cons (fun hv => absurd hv (by decide))
    (all_cons (fun hv => absurd hv (by decide))
    (all_cons (fun hv => absurd hv (by decide))
    (all_cons (fun _ c h => by cases h; exact ownRules_4_F29_AutoPart)
    (all_cons (fun _ c h => by cases h; exact ownRules_4_F29_AutoPart)
    (all_cons (fun _ c h => by cases h; exact ownRules_4_F29_AutoPart)
    (all_cons (fun _ c h => by cases h; exact ownRules_4_F29_AutoPart)
    (all_cons (fun _ c h => by cases h; exact ownRules_4_F29_AutoPart)
    (all_cons (fun _ c h => by cases h; exact ownRules_4_F29_AutoPart)
    (all_cons (fun hv => absurd hv (by decide))
    (all_cons (fun hv => absurd hv (by decide))
    (all_cons (fun hv => absurd hv (by decide))
    (all_cons (fun hv => absurd hv (by decide))
    (all_cons (fun hv => absurd hv (by decide))
    (all_cons (fun hv => absurd hv (by decide))
    (all_cons (fun hv => absurd hv (by decide))
    (all_cons (fun hv => absurd hv (by decide))
    (all_cons (fun hv => absurd hv (by decide))
    (all_cons (fun hv => absurd hv (by decide))
    (all_cons (fun hv => absurd hv (by decide))
    (all_cons (fun hv => absurd hv (by decide))
    (all_cons (fun _ c h => by cases h; exact ownRules_4_RHEL8_AutoPart) (List.forall_mem_nil _)))))))))))))))))))))))))))))))))))))))

theorem ownRules_5_RHEL8_AutoPart : Command.Ruled RHEL8_AutoPart.cls (ownRules[5]'(by decide)).holds :=
  plain_ruled fun args n => RHEL8_AutoPart.noBtrfs _ (by decide) args n

theorem ownRules_5 : (ownRules[5]'(by decide)).Kept := by
  unfold OwnRule.Kept commandMaps
  exact (all_cons (fun hv => absurd hv (by decide))
    (all_cons (fun hv => absurd hv (by decide))
    (all_cons (fun hv => absurd hv (by decide))
    (all_cons (fun hv => absurd hv (by decide))
    (all_cons (fun hv => absurd hv (by decide))
    (all_cons (fun hv => absurd hv (by decide))
    (all_cons (fun hv => absurd hv (by decide))
    (all_cons (fun hv => absurd hv (by decide))
    (all_cons (fun hv => absurd hv (by decide))
    (all_cons (fun hv => absurd hv (by decide))
    (all_cons (fun hv => absurd hv (by decide))
    (all_cons (fun hv => absurd hv (by decide))
    (all_cons (fun hv => absurd hv (by decide))
    (all_cons (fun hv => absurd hv (by decide))
    (all_cons (fun hv => absurd hv (by decide))
    (all_cons (fun hv => absurd hv (by decide))
    (all_cons (fun hv => absurd hv (by decide))
    (all_cons (fun hv => absurd hv (by decide))
    (all_cons (fun hv => absurd hv (by decide))
    (all_cons (fun hv => absurd hv (by decide))
    (all_cons (fun hv => absurd hv (by decide))
    (all_cons (fun hv => absurd hv (by decide))
    (all_cons (fun hv => absurd hv (by decide))
    (all_cons (fun hv => absurd hv (by decide))
    (all_cons (fun hv => absurd hv (by decide))
    (all_cons (fun hv => absurd hv (by decide))
    (all_cons (fun hv => absurd hv (by decide))
    (all_cons (fun hv => absurd hv (by decide))
    (all_cons (fun hv => absurd hv (by decide))
    (all_cons (fun hv => absurd hv (by decide))
    (all_cons (fun hv => absurd hv (by decide))
    (all_cons (fun hv => absurd hv (by decide))
    (all_cons (fun hv => absurd hv (by decide))
    (all_cons (fun hv => absurd hv (by decide))
    (all_cons (fun hv => absurd hv (by decide))
    (all_cons (fun hv => absurd hv (by decide))
    (all_cons (fun hv => absurd hv (by decide))
    (all_cons (fun _ c h => by cases h; exact ownRules_5_RHEL8_AutoPart) (List.forall_mem_nil _)))))))))))))))))))))))))))))))))))))))

theorem ownRules_6_F17_Bootloader : Command.Ruled F17_Bootloader.cls (ownRules[6]'(by decide)).holds :=
  plain_ruled fun args n => F17_Bootloader.oneDrive _ args n

theorem ownRules_6_F18_Bootloader : Command.Ruled F18_Bootloader.cls (ownRules[6]'(by decide)).holds :=
  plain_ruled fun args n => F17_Bootloader.oneDrive _ args n

theorem ownRules_6_F19_Bootloader : Command.Ruled F19_Bootloader.cls (ownRules[6]'(by decide)).holds :=
  plain_ruled fun args n => F17_Bootloader.oneDrive _ args n

theorem ownRules_6_F21_Bootloader : Command.Ruled F21_Bootloader.cls (ownRules[6]'(by decide)).holds :=
  plain_ruled fun args n => F17_Bootloader.oneDrive _ args n

theorem ownRules_6_F29_Bootloader : Command.Ruled F29_Bootloader.cls (ownRules[6]'(by decide)).holds :=
  plain_ruled fun args n => F17_Bootloader.oneDrive _ args n

theorem ownRules_6_F34_Bootloader : Command.Ruled F34_Bootloader.cls (ownRules[6]'(by decide)).holds :=
  plain_ruled fun args n => F17_Bootloader.oneDrive _ args n

theorem ownRules_6_RHEL7_Bootloader : Command.Ruled RHEL7_Bootloader.cls (ownRules[6]'(by decide)).holds :=
  plain_ruled fun args n => F17_Bootloader.oneDrive _ args n

theorem ownRules_6_RHEL8_Bootloader : Command.Ruled RHEL8_Bootloader.cls (ownRules[6]'(by decide)).holds :=
  plain_ruled fun args n => F17_Bootloader.oneDrive _ args n

theorem ownRules_6 : (ownRules[6]'(by decide)).Kept := by
  unfold OwnRule.Kept commandMaps
  exact (all_cons (fun hv => absurd hv (by decide))
    (all_cons (fun hv => absurd hv (by decide))
    (all_cons (fun hv => absurd hv (by decide))
    (all_cons (fun hv => absurd hv (by decide))
    (all_cons (fun hv => absurd hv (by decide))
    (all_cons (fun hv => absurd hv (by decide))
    (all_cons (fun hv => absurd hv (by decide))
    (all_cons (fun _ c h => by cases h; exact ownRules_6_F17_Bootloader)
    (all_cons (fun _ c h => by cases h; exact ownRules_6_F18_Bootloader)
    (all_cons (fun _ c h => by cases h; exact ownRules_6_F19_Bootloader)
    (all_cons (fun _ c h => by cases h; exact ownRules_6_F19_Bootloader)
    (all_cons (fun _ c h => by cases h; exact ownRules_6_F21_Bootloader)
    (all_cons (fun _ c h => by cases h; exact ownRules_6_F21_Bootloader)
    (all_cons (fun _ c h => by cases h; exact ownRules_6_F21_Bootloader)
    (all_cons (fun _ c h => by cases h; exact ownRules_6_F21_Bootloader)
    (all_cons (fun _ c h => by cases h; exact ownRules_6_F21_Bootloader)
    (all_cons (fun _ c h => by cases h; exact ownRules_6_F21_Bootloader)
    (all_cons (fun _ c h => by cases h; exact ownRules_6_F21_Bootloader)
    (all_cons (fun _ c h => by cases h; exact ownRules_6_F21_Bootloader)
    (all_cons (fun _ c h => by cases h; exact ownRules_6_F29_Bootloader)
    (all_cons (fun _ c h => by cases h; exact ownRules_6_F29_Bootloader)
    (all_cons (fun _ c h => by cases h; exact ownRules_6_F29_Bootloader)
    (all_cons (fun _ c h => by cases h; exact ownRules_6_F29_Bootloader)
    (all_cons (fun _ c h => by cases h; exact ownRules_6_F29_Bootloader)
    (all_cons (fun _ c h => by cases h; exact ownRules_6_F34_Bootloader)
    (all_cons (fun hv => absurd hv (by decide))
    (all_cons (fun hv => absurd hv (by decide))
    (all_cons (fun hv => absurd hv (by decide))
    (all_cons (fun hv => absurd hv (by decide))
    (all_cons (fun hv => absurd hv (by decide))
    (all_cons (fun hv => absurd hv (by decide))
    (all_cons (fun hv => absurd hv (by decide))
    (all_cons (fun hv => absurd hv (by decide))
    (all_cons (fun hv => absurd hv (by decide))
    (all_cons (fun hv => absurd hv (by decide))
    (all_cons (fun hv => absurd hv (by decide))
    (all_cons (fun _ c h => by cases h; exact ownRules_6_RHEL7_Bootloader)
    (all_cons (fun _ c h => by cases h; exact ownRules_6_RHEL8_Bootloader) (List.forall_mem_nil _)))))))))))))))))))))))))))))))))))))))

theorem ownRules_7_FC3_Cdrom : Command.Ruled FC3_Cdrom.cls (ownRules[7]'(by decide)).holds :=
  plain_ruled fun args n => FC3_Cdrom.noArgs _ args n

theorem ownRules_7 : (ownRules[7]'(by decide)).Kept := by
  unfold OwnRule.Kept commandMaps
  exact (all_cons (fun _ c h => by cases h; exact ownRules_7_FC3_Cdrom)
    (all_cons (fun _ c h => by cases h; exact ownRules_7_FC3_Cdrom)
    (all_cons (fun _ c h => by cases h; exact ownRules_7_FC3_Cdrom)
    (all_cons (fun _ c h => by cases h; exact ownRules_7_FC3_Cdrom)
    (all_cons (fun _ c h => by cases h; exact ownRules_7_FC3_Cdrom)
    (all_cons (fun _ c h => by cases h; exact ownRules_7_FC3_Cdrom)
    (all_cons (fun _ c h => by cases h; exact ownRules_7_FC3_Cdrom)
    (all_cons (fun _ c h => by cases h; exact ownRules_7_FC3_Cdrom)
    (all_cons (fun _ c h => by cases h; exact ownRules_7_FC3_Cdrom)
    (all_cons (fun _ c h => by cases h; exact ownRules_7_FC3_Cdrom)
    (all_cons (fun _ c h => by cases h; exact ownRules_7_FC3_Cdrom)
    (all_cons (fun _ c h => by cases h; exact ownRules_7_FC3_Cdrom)
    (all_cons (fun _ c h => by cases h; exact ownRules_7_FC3_Cdrom)
    (all_cons (fun _ c h => by cases h; exact ownRules_7_FC3_Cdrom)
    (all_cons (fun _ c h => by cases h; exact ownRules_7_FC3_Cdrom)
    (all_cons (fun _ c h => by cases h; exact ownRules_7_FC3_Cdrom)
    (all_cons (fun _ c h => by cases h; exact ownRules_7_FC3_Cdrom)
    (all_cons (fun _ c h => by cases h; exact ownRules_7_FC3_Cdrom)
    (all_cons (fun _ c h => by cases h; exact ownRules_7_FC3_Cdrom)
    (all_cons (fun _ c h => by cases h; exact ownRules_7_FC3_Cdrom)
    (all_cons (fun _ c h => by cases h; exact ownRules_7_FC3_Cdrom)
    (all_cons (fun _ c h => by cases h; exact ownRules_7_FC3_Cdrom)
    (all_cons (fun _ c h => by cases h; exact ownRules_7_FC3_Cdrom)
    (all_cons (fun _ c h => by cases h; exact ownRules_7_FC3_Cdrom)
    (all_cons (fun _ c h => by cases h; exact ownRules_7_FC3_Cdrom)
    (all_cons (fun _ c h => by cases h; exact ownRules_7_FC3_Cdrom)
    (all_cons (fun _ c h => by cases h; exact ownRules_7_FC3_Cdrom)
    (all_cons (fun _ c h => by cases h; exact ownRules_7_FC3_Cdrom)
    (all_cons (fun _ c h => by cases h; exact ownRules_7_FC3_Cdrom)
    (all_cons (fun _ c h => by cases h; exact ownRules_7_FC3_Cdrom)
    (all_cons (fun _ c h => by cases h; exact ownRules_7_FC3_Cdrom)
    (all_cons (fun _ c h => by cases h; exact ownRules_7_FC3_Cdrom)
    (all_cons (fun _ c h => by cases h; exact ownRules_7_FC3_Cdrom)
    (all_cons (fun _ c h => by cases h; exact ownRules_7_FC3_Cdrom)
    (all_cons (fun _ c h => by cases h; exact ownRules_7_FC3_Cdrom)
    (all_cons (fun _ c h => by cases h; exact ownRules_7_FC3_Cdrom)
    (all_cons (fun _ c h => by cases h; exact ownRules_7_FC3_Cdrom)
    (all_cons (fun _ c h => by cases h; exact ownRules_7_FC3_Cdrom) (List.forall_mem_nil _)))))))))))))))))))))))))))))))))))))))

theorem ownRules_8_F28_Hmc : Command.Ruled F28_Hmc.cls (ownRules[8]'(by decide)).holds :=
  plain_ruled fun args n => RHEL7_Hmc.noArgs _ args n

theorem ownRules_8_RHEL7_Hmc : Command.Ruled RHEL7_Hmc.cls (ownRules[8]'(by decide)).holds :=
  plain_ruled fun args n => RHEL7_Hmc.noArgs _ args n

theorem ownRules_8 : (ownRules[8]'(by decide)).Kept := by
  unfold OwnRule.Kept commandMaps
  exact (all_cons (fun _ c h => by cases h)
    (all_cons (fun _ c h => by cases h)
    (all_cons (fun _ c h => by cases h)
    (all_cons (fun _ c h => by cases h)
    (all_cons (fun _ c h => by cases h)
    (all_cons (fun _ c h => by cases h)
    (all_cons (fun _ c h => by cases h)
    (all_cons (fun _ c h => by cases h)
    (all_cons (fun _ c h => by cases h)
    (all_cons (fun _ c h => by cases h)
    (all_cons (fun _ c h => by cases h)
    (all_cons (fun _ c h => by cases h)
    (all_cons (fun _ c h => by cases h)
    (all_cons (fun _ c h => by cases h)
    (all_cons (fun _ c h => by cases h)
    (all_cons (fun _ c h => by cases h)
    (all_cons (fun _ c h => by cases h)
    (all_cons (fun _ c h => by cases h)
    (all_cons (fun _ c h => by cases h; exact ownRules_8_F28_Hmc)
    (all_cons (fun _ c h => by cases h; exact ownRules_8_F28_Hmc)
    (all_cons (fun _ c h => by cases h; exact ownRules_8_F28_Hmc)
    (all_cons (fun _ c h => by cases h; exact ownRules_8_F28_Hmc)
    (all_cons (fun _ c h => by cases h; exact ownRules_8_F28_Hmc)
    (all_cons (fun _ c h => by cases h; exact ownRules_8_F28_Hmc)
    (all_cons (fun _ c h => by cases h; exact ownRules_8_F28_Hmc)
    (all_cons (fun _ c h => by cases h)
    (all_cons (fun _ c h => by cases h)
    (all_cons (fun _ c h => by cases h)
    (all_cons (fun _ c h => by cases h)
    (all_cons (fun _ c h => by cases h)
    (all_cons (fun _ c h => by cases h)
    (all_cons (fun _ c h => by cases h)
    (all_cons (fun _ c h => by cases h)
    (all_cons (fun _ c h => by cases h)
    (all_cons (fun _ c h => by cases h)
    (all_cons (fun _ c h => by cases h)
    (all_cons (fun _ c h => by cases h; exact ownRules_8_RHEL7_Hmc)
    (all_cons (fun _ c h => by cases h; exact ownRules_8_F28_Hmc) (List.forall_mem_nil _)))))))))))))))))))))))))))))))))))))))

theorem ownRules_9_F20_Eula : Command.Ruled F20_Eula.cls (ownRules[9]'(by decide)).holds :=
  plain_ruled fun args n => F20_Eula.agreed _ args n

theorem ownRules_9 : (ownRules[9]'(by decide)).Kept := by
  unfold OwnRule.Kept commandMaps
  exact (all_cons (fun _ c h => by cases h)
    (all_cons (fun _ c h => by cases h)
    (all_cons (fun _ c h => by cases h)
    (all_cons (fun _ c h => by cases h)
    (all_cons (fun _ c h => by cases h)
    (all_cons (fun _ c h => by cases h)
    (all_cons (fun _ c h => by cases h)
    (all_cons (fun _ c h => by cases h)
    (all_cons (fun _ c h => by cases h)
    (all_cons (fun _ c h => by cases h)
    (all_cons (fun _ c h => by cases h; exact ownRules_9_F20_Eula)
    (all_cons (fun _ c h => by cases h; exact ownRules_9_F20_Eula)
    (all_cons (fun _ c h => by cases h; exact ownRules_9_F20_Eula)
    (all_cons (fun _ c h => by cases h; exact ownRules_9_F20_Eula)
    (all_cons (fun _ c h => by cases h; exact ownRules_9_F20_Eula)
    (all_cons (fun _ c h => by cases h; exact ownRules_9_F20_Eula)
    (all_cons (fun _ c h => by cases h; exact ownRules_9_F20_Eula)
    (all_cons (fun _ c h => by cases h; exact ownRules_9_F20_Eula)
    (all_cons (fun _ c h => by cases h; exact ownRules_9_F20_Eula)
    (all_cons (fun _ c h => by cases h; exact ownRules_9_F20_Eula)
    (all_cons (fun _ c h => by cases h; exact ownRules_9_F20_Eula)
    (all_cons (fun _ c h => by cases h; exact ownRules_9_F20_Eula)
    (all_cons (fun _ c h => by cases h; exact ownRules_9_F20_Eula)
    (all_cons (fun _ c h => by cases h; exact ownRules_9_F20_Eula)
    (all_cons (fun _ c h => by cases h; exact ownRules_9_F20_Eula)
    (all_cons (fun _ c h => by cases h)
    (all_cons (fun _ c h => by cases h)
    (all_cons (fun _ c h => by cases h)
    (all_cons (fun _ c h => by cases h)
    (all_cons (fun _ c h => by cases h)
    (all_cons (fun _ c h => by cases h)
    (all_cons (fun _ c h => by cases h)
    (all_cons (fun _ c h => by cases h)
    (all_cons (fun _ c h => by cases h)
    (all_cons (fun _ c h => by cases h)
    (all_cons (fun _ c h => by cases h)
    (all_cons (fun _ c h => by cases h; exact ownRules_9_F20_Eula)
    (all_cons (fun _ c h => by cases h; exact ownRules_9_F20_Eula) (List.forall_mem_nil _)))))))))))))))))))))))))))))))))))))))

theorem ownRules_10_FC3_HardDrive : Command.Ruled FC3_HardDrive.cls (ownRules[10]'(by decide)).holds :=
  plain_ruled fun args n => FC3_HardDrive.one _ args n

theorem ownRules_10 : (ownRules[10]'(by decide)).Kept := by
  unfold OwnRule.Kept commandMaps
  exact (all_cons (fun _ c h => by cases h; exact ownRules_10_FC3_HardDrive)
    (all_cons (fun _ c h => by cases h; exact ownRules_10_FC3_HardDrive)
    (all_cons (fun _ c h => by cases h; exact ownRules_10_FC3_HardDrive)
    (all_cons (fun _ c h => by cases h; exact ownRules_10_FC3_HardDrive)
    (all_cons (fun _ c h => by cases h; exact ownRules_10_FC3_HardDrive)
    (all_cons (fun _ c h => by cases h; exact ownRules_10_FC3_HardDrive)
    (all_cons (fun _ c h => by cases h; exact ownRules_10_FC3_HardDrive)
    (all_cons (fun _ c h => by cases h; exact ownRules_10_FC3_HardDrive)
    (all_cons (fun _ c h => by cases h; exact ownRules_10_FC3_HardDrive)
    (all_cons (fun _ c h => by cases h; exact ownRules_10_FC3_HardDrive)
    (all_cons (fun _ c h => by cases h; exact ownRules_10_FC3_HardDrive)
    (all_cons (fun _ c h => by cases h; exact ownRules_10_FC3_HardDrive)
    (all_cons (fun _ c h => by cases h; exact ownRules_10_FC3_HardDrive)
    (all_cons (fun _ c h => by cases h; exact ownRules_10_FC3_HardDrive)
    (all_cons (fun _ c h => by cases h; exact ownRules_10_FC3_HardDrive)
    (all_cons (fun _ c h => by cases h; exact ownRules_10_FC3_HardDrive)
    (all_cons (fun _ c h => by cases h; exact ownRules_10_FC3_HardDrive)
    (all_cons (fun _ c h => by cases h; exact ownRules_10_FC3_HardDrive)
    (all_cons (fun _ c h => by cases h; exact ownRules_10_FC3_HardDrive)
    (all_cons (fun _ c h => by cases h; exact ownRules_10_FC3_HardDrive)
    (all_cons (fun _ c h => by cases h; exact ownRules_10_FC3_HardDrive)
    (all_cons (fun _ c h => by cases h; exact ownRules_10_FC3_HardDrive)
    (all_cons (fun _ c h => by cases h; exact ownRules_10_FC3_HardDrive)
    (all_cons (fun hv => absurd hv (by decide))
    (all_cons (fun hv => absurd hv (by decide))
    (all_cons (fun _ c h => by cases h; exact ownRules_10_FC3_HardDrive)
    (all_cons (fun _ c h => by cases h; exact ownRules_10_FC3_HardDrive)
    (all_cons (fun _ c h => by cases h; exact ownRules_10_FC3_HardDrive)
    (all_cons (fun _ c h => by cases h; exact ownRules_10_FC3_HardDrive)
    (all_cons (fun _ c h => by cases h; exact ownRules_10_FC3_HardDrive)
    (all_cons (fun _ c h => by cases h; exact ownRules_10_FC3_HardDrive)
    (all_cons (fun _ c h => by cases h; exact ownRules_10_FC3_HardDrive)
    (all_cons (fun _ c h => by cases h; exact ownRules_10_FC3_HardDrive)
    (all_cons (fun _ c h => by cases h; exact ownRules_10_FC3_HardDrive)
    (all_cons (fun _ c h => by cases h; exact ownRules_10_FC3_HardDrive)
    (all_cons (fun _ c h => by cases h; exact ownRules_10_FC3_HardDrive)
    (all_cons (fun _ c h => by cases h; exact ownRules_10_FC3_HardDrive)
    (all_cons (fun _ c h => by cases h; exact ownRules_10_FC3_HardDrive) (List.forall_mem_nil _)))))))))))))))))))))))))))))))))))))))

theorem ownRules_11_F8_IgnoreDisk : Command.Ruled F8_IgnoreDisk.cls (ownRules[11]'(by decide)).holds :=
  plain_ruled fun args n => F8_IgnoreDisk.one _ args n

theorem ownRules_11_F29_IgnoreDisk : Command.Ruled F29_IgnoreDisk.cls (ownRules[11]'(by decide)).holds :=
  plain_ruled fun args n => F29_IgnoreDisk.one _ args n

theorem ownRules_11_F34_IgnoreDisk : Command.Ruled F34_IgnoreDisk.cls (ownRules[11]'(by decide)).holds :=
  plain_ruled fun args n => F29_IgnoreDisk.one _ args n

theorem ownRules_11 : (ownRules[11]'(by decide)).Kept := by
  unfold OwnRule.Kept commandMaps
  exact (all_cons (fun _ c h => by cases h; exact ownRules_11_F8_IgnoreDisk)
    (all_cons (fun _ c h => by cases h; exact ownRules_11_F8_IgnoreDisk)
    (all_cons (fun _ c h => by cases h; exact ownRules_11_F8_IgnoreDisk)
    (all_cons (fun _ c h => by cases h; exact ownRules_11_F8_IgnoreDisk)
    (all_cons (fun hv => absurd hv (by decide))
    (all_cons (fun hv => absurd hv (by decide))
    (all_cons (fun hv => absurd hv (by decide))
    (all_cons (fun hv => absurd hv (by decide))
    (all_cons (fun hv => absurd hv (by decide))
    (all_cons (fun hv => absurd hv (by decide))
    (all_cons (fun hv => absurd hv (by decide))
    (all_cons (fun hv => absurd hv (by decide))
    (all_cons (fun hv => absurd hv (by decide))
    (all_cons (fun hv => absurd hv (by decide))
    (all_cons (fun hv => absurd hv (by decide))
    (all_cons (fun hv => absurd hv (by decide))
    (all_cons (fun hv => absurd hv (by decide))
    (all_cons (fun hv => absurd hv (by decide))
    (all_cons (fun hv => absurd hv (by decide))
    (all_cons (fun _ c h => by cases h; exact ownRules_11_F29_IgnoreDisk)
    (all_cons (fun _ c h => by cases h; exact ownRules_11_F29_IgnoreDisk)
    (all_cons (fun _ c h => by cases h; exact ownRules_11_F29_IgnoreDisk)
    (all_cons (fun _ c h => by cases h; exact ownRules_11_F29_IgnoreDisk)
    (all_cons (fun _ c h => by cases h; exact ownRules_11_F29_IgnoreDisk)
    (all_cons (fun _ c h => by cases h; exact ownRules_11_F34_IgnoreDisk)
    (all_cons (fun hv => absurd hv (by decide))
    (all_cons (fun _ c h => by cases h; exact ownRules_11_F8_IgnoreDisk)
    (all_cons (fun _ c h => by cases h; exact ownRules_11_F8_IgnoreDisk)
    (all_cons (fun hv => absurd hv (by decide))
    (all_cons (fun hv => absurd hv (by decide))
    (all_cons (fun hv => absurd hv (by decide))
    (all_cons (fun hv => absurd hv (by decide))
    (all_cons (fun hv => absurd hv (by decide))
    (all_cons (fun _ c h => by cases h; exact ownRules_11_F8_IgnoreDisk)
    (all_cons (fun _ c h => by cases h; exact ownRules_11_F8_IgnoreDisk)
    (all_cons (fun hv => absurd hv (by decide))
    (all_cons (fun hv => absurd hv (by decide))
    (all_cons (fun _ c h => by cases h; exact ownRules_11_F29_IgnoreDisk) (List.forall_mem_nil _)))))))))))))))))))))))))))))))))))))))

theorem ownRules_12_F14_IgnoreDisk : Command.Ruled F14_IgnoreDisk.cls (ownRules[12]'(by decide)).holds :=
  plain_ruled fun args n => RHEL6_IgnoreDisk.one _ args n

theorem ownRules_12_RHEL6_IgnoreDisk : Command.Ruled RHEL6_IgnoreDisk.cls (ownRules[12]'(by decide)).holds :=
  plain_ruled fun args n => RHEL6_IgnoreDisk.one _ args n

theorem ownRules_12 : (ownRules[12]'(by decide)).Kept := by
  unfold OwnRule.Kept commandMaps
  exact (all_cons (fun hv => absurd hv (by decide))
    (all_cons (fun hv => absurd hv (by decide))
    (all_cons (fun hv => absurd hv (by decide))
    (all_cons (fun hv => absurd hv (by decide))
    (all_cons (fun _ c h => by cases h; exact ownRules_12_F14_IgnoreDisk)
    (all_cons (fun _ c h => by cases h; exact ownRules_12_F14_IgnoreDisk)
    (all_cons (fun _ c h => by cases h; exact ownRules_12_F14_IgnoreDisk)
    (all_cons (fun _ c h => by cases h; exact ownRules_12_F14_IgnoreDisk)
    (all_cons (fun _ c h => by cases h; exact ownRules_12_F14_IgnoreDisk)
    (all_cons (fun _ c h => by cases h; exact ownRules_12_F14_IgnoreDisk)
    (all_cons (fun _ c h => by cases h; exact ownRules_12_F14_IgnoreDisk)
    (all_cons (fun _ c h => by cases h; exact ownRules_12_F14_IgnoreDisk)
    (all_cons (fun _ c h => by cases h; exact ownRules_12_F14_IgnoreDisk)
    (all_cons (fun _ c h => by cases h; exact ownRules_12_F14_IgnoreDisk)
    (all_cons (fun _ c h => by cases h; exact ownRules_12_F14_IgnoreDisk)
    (all_cons (fun _ c h => by cases h; exact ownRules_12_F14_IgnoreDisk)
    (all_cons (fun _ c h => by cases h; exact ownRules_12_F14_IgnoreDisk)
    (all_cons (fun _ c h => by cases h; exact ownRules_12_F14_IgnoreDisk)
    (all_cons (fun _ c h => by cases h; exact ownRules_12_F14_IgnoreDisk)
    (all_cons (fun hv => absurd hv (by decide))
    (all_cons (fun hv => absurd hv (by decide))
    (all_cons (fun hv => absurd hv (by decide))
    (all_cons (fun hv => absurd hv (by decide))
    (all_cons (fun hv => absurd hv (by decide))
    (all_cons (fun hv => absurd hv (by decide))
    (all_cons (fun hv => absurd hv (by decide))
    (all_cons (fun hv => absurd hv (by decide))
    (all_cons (fun hv => absurd hv (by decide))
    (all_cons (fun hv => absurd hv (by decide))
    (all_cons (fun hv => absurd hv (by decide))
    (all_cons (fun hv => absurd hv (by decide))
    (all_cons (fun hv => absurd hv (by decide))
    (all_cons (fun hv => absurd hv (by decide))
    (all_cons (fun hv => absurd hv (by decide))
    (all_cons (fun hv => absurd hv (by decide))
    (all_cons (fun _ c h => by cases h; exact ownRules_12_RHEL6_IgnoreDisk)
    (all_cons (fun _ c h => by cases h; exact ownRules_12_F14_IgnoreDisk)
    (all_cons (fun hv => absurd hv (by decide)) (List.forall_mem_nil _)))))))))))))))))))))))))))))))))))))))

theorem ownRules_13_FC6_Logging : Command.Ruled FC6_Logging.cls (ownRules[13]'(by decide)).holds :=
  plain_ruled fun args n => FC6_Logging.host _ args n

theorem ownRules_13_F34_Logging : Command.Ruled F34_Logging.cls (ownRules[13]'(by decide)).holds :=
  plain_ruled fun args n => FC6_Logging.host _ args n

theorem ownRules_13 : (ownRules[13]'(by decide)).Kept := by
  unfold OwnRule.Kept commandMaps
  exact (all_cons (fun _ c h => by cases h; exact ownRules_13_FC6_Logging)
    (all_cons (fun _ c h => by cases h; exact ownRules_13_FC6_Logging)
    (all_cons (fun _ c h => by cases h; exact ownRules_13_FC6_Logging)
    (all_cons (fun _ c h => by cases h; exact ownRules_13_FC6_Logging)
    (all_cons (fun _ c h => by cases h; exact ownRules_13_FC6_Logging)
    (all_cons (fun _ c h => by cases h; exact ownRules_13_FC6_Logging)
    (all_cons (fun _ c h => by cases h; exact ownRules_13_FC6_Logging)
    (all_cons (fun _ c h => by cases h; exact ownRules_13_FC6_Logging)
    (all_cons (fun _ c h => by cases h; exact ownRules_13_FC6_Logging)
    (all_cons (fun _ c h => by cases h; exact ownRules_13_FC6_Logging)
    (all_cons (fun _ c h => by cases h; exact ownRules_13_FC6_Logging)
    (all_cons (fun _ c h => by cases h; exact ownRules_13_FC6_Logging)
    (all_cons (fun _ c h => by cases h; exact ownRules_13_FC6_Logging)
    (all_cons (fun _ c h => by cases h; exact ownRules_13_FC6_Logging)
    (all_cons (fun _ c h => by cases h; exact ownRules_13_FC6_Logging)
    (all_cons (fun _ c h => by cases h; exact ownRules_13_FC6_Logging)
    (all_cons (fun _ c h => by cases h; exact ownRules_13_FC6_Logging)
    (all_cons (fun _ c h => by cases h; exact ownRules_13_FC6_Logging)
    (all_cons (fun _ c h => by cases h; exact ownRules_13_FC6_Logging)
    (all_cons (fun _ c h => by cases h; exact ownRules_13_FC6_Logging)
    (all_cons (fun _ c h => by cases h; exact ownRules_13_FC6_Logging)
    (all_cons (fun _ c h => by cases h; exact ownRules_13_FC6_Logging)
    (all_cons (fun _ c h => by cases h; exact ownRules_13_FC6_Logging)
    (all_cons (fun _ c h => by cases h; exact ownRules_13_FC6_Logging)
    (all_cons (fun _ c h => by cases h; exact ownRules_13_F34_Logging)
    (all_cons (fun _ c h => by cases h; exact ownRules_13_FC6_Logging)
    (all_cons (fun _ c h => by cases h; exact ownRules_13_FC6_Logging)
    (all_cons (fun _ c h => by cases h; exact ownRules_13_FC6_Logging)
    (all_cons (fun _ c h => by cases h)
    (all_cons (fun _ c h => by cases h)
    (all_cons (fun _ c h => by cases h)
    (all_cons (fun _ c h => by cases h; exact ownRules_13_FC6_Logging)
    (all_cons (fun _ c h => by cases h)
    (all_cons (fun _ c h => by cases h)
    (all_cons (fun _ c h => by cases h; exact ownRules_13_FC6_Logging)
    (all_cons (fun _ c h => by cases h; exact ownRules_13_FC6_Logging)
    (all_cons (fun _ c h => by cases h; exact ownRules_13_FC6_Logging)
    (all_cons (fun _ c h => by cases h; exact ownRules_13_FC6_Logging) (List.forall_mem_nil _)))))))))))))))))))))))))))))))))))))))

theorem ownRules_14_F21_OSTreeSetup : Command.Ruled F21_OSTreeSetup.cls (ownRules[14]'(by decide)).holds :=
  plain_ruled fun args n => own_weaken (F21_OSTreeSetup.url _ args n) fun _ _ h => h.1

theorem ownRules_14_RHEL7_OSTreeSetup : Command.Ruled RHEL7_OSTreeSetup.cls (ownRules[14]'(by decide)).holds :=
  plain_ruled fun args n => own_weaken (F21_OSTreeSetup.url _ args n) fun _ _ h => h.1

theorem ownRules_14_RHEL8_OSTreeSetup : Command.Ruled RHEL8_OSTreeSetup.cls (ownRules[14]'(by decide)).holds :=
  plain_ruled fun args n => own_weaken (F21_OSTreeSetup.url _ args n) fun _ _ h => h.1

theorem ownRules_14 : (ownRules[14]'(by decide)).Kept := by
  unfold OwnRule.Kept commandMaps
  exact (all_cons (fun _ c h => by cases h)
    (all_cons (fun _ c h => by cases h)
    (all_cons (fun _ c h => by cases h)
    (all_cons (fun _ c h => by cases h)
    (all_cons (fun _ c h => by cases h)
    (all_cons (fun _ c h => by cases h)
    (all_cons (fun _ c h => by cases h)
    (all_cons (fun _ c h => by cases h)
    (all_cons (fun _ c h => by cases h)
    (all_cons (fun _ c h => by cases h)
    (all_cons (fun _ c h => by cases h)
    (all_cons (fun _ c h => by cases h; exact ownRules_14_F21_OSTreeSetup)
    (all_cons (fun _ c h => by cases h; exact ownRules_14_F21_OSTreeSetup)
    (all_cons (fun _ c h => by cases h; exact ownRules_14_F21_OSTreeSetup)
    (all_cons (fun _ c h => by cases h; exact ownRules_14_F21_OSTreeSetup)
    (all_cons (fun _ c h => by cases h; exact ownRules_14_F21_OSTreeSetup)
    (all_cons (fun _ c h => by cases h; exact ownRules_14_F21_OSTreeSetup)
    (all_cons (fun _ c h => by cases h; exact ownRules_14_F21_OSTreeSetup)
    (all_cons (fun _ c h => by cases h; exact ownRules_14_F21_OSTreeSetup)
    (all_cons (fun _ c h => by cases h; exact ownRules_14_F21_OSTreeSetup)
    (all_cons (fun _ c h => by cases h; exact ownRules_14_F21_OSTreeSetup)
    (all_cons (fun _ c h => by cases h; exact ownRules_14_F21_OSTreeSetup)
    (all_cons (fun _ c h => by cases h; exact ownRules_14_F21_OSTreeSetup)
    (all_cons (fun _ c h => by cases h; exact ownRules_14_F21_OSTreeSetup)
    (all_cons (fun _ c h => by cases h; exact ownRules_14_F21_OSTreeSetup)
    (all_cons (fun _ c h => by cases h)
    (all_cons (fun _ c h => by cases h)
    (all_cons (fun _ c h => by cases h)
    (all_cons (fun _ c h => by cases h)
    (all_cons (fun _ c h => by cases h)
    (all_cons (fun _ c h => by cases h)
    (all_cons (fun _ c h => by cases h)
    (all_cons (fun _ c h => by cases h)
    (all_cons (fun _ c h => by cases h)
    (all_cons (fun _ c h => by cases h)
    (all_cons (fun _ c h => by cases h)
    (all_cons (fun _ c h => by cases h; exact ownRules_14_RHEL7_OSTreeSetup)
    (all_cons (fun _ c h => by cases h; exact ownRules_14_RHEL8_OSTreeSetup) (List.forall_mem_nil _)))))))))))))))))))))))))))))))))))))))

theorem ownRules_15_F21_OSTreeSetup : Command.Ruled F21_OSTreeSetup.cls (ownRules[15]'(by decide)).holds :=
  plain_ruled fun args n => own_weaken (F21_OSTreeSetup.url _ args n) fun _ _ h => h.2

theorem ownRules_15_RHEL7_OSTreeSetup : Command.Ruled RHEL7_OSTreeSetup.cls (ownRules[15]'(by decide)).holds :=
  plain_ruled fun args n => own_weaken (F21_OSTreeSetup.url _ args n) fun _ _ h => h.2

theorem ownRules_15_RHEL8_OSTreeSetup : Command.Ruled RHEL8_OSTreeSetup.cls (ownRules[15]'(by decide)).holds :=
  plain_ruled fun args n => own_weaken (F21_OSTreeSetup.url _ args n) fun _ _ h => h.2

theorem ownRules_15 : (ownRules[15]'(by decide)).Kept := by
  unfold OwnRule.Kept commandMaps
  exact (all_cons (fun _ c h => by cases h)
    (all_cons (fun _ c h => by cases h)
    (all_cons (fun _ c h => by cases h)
    (all_cons (fun _ c h => by cases h)
    (all_cons (fun _ c h => by cases h)
    (all_cons (fun _ c h => by cases h)
    (all_cons (fun _ c h => by cases h)
    (all_cons (fun _ c h => by cases h)
    (all_cons (fun _ c h => by cases h)
    (all_cons (fun _ c h => by cases h)
    (all_cons (fun _ c h => by cases h)
    (all_cons (fun _ c h => by cases h; exact ownRules_15_F21_OSTreeSetup)
    (all_cons (fun _ c h => by cases h; exact ownRules_15_F21_OSTreeSetup)
    (all_cons (fun _ c h => by cases h; exact ownRules_15_F21_OSTreeSetup)
    (all_cons (fun _ c h => by cases h; exact ownRules_15_F21_OSTreeSetup)
    (all_cons (fun _ c h => by cases h; exact ownRules_15_F21_OSTreeSetup)
    (all_cons (fun _ c h => by cases h; exact ownRules_15_F21_OSTreeSetup)
    (all_cons (fun _ c h => by cases h; exact ownRules_15_F21_OSTreeSetup)
    (all_cons (fun _ c h => by cases h; exact ownRules_15_F21_OSTreeSetup)
    (all_cons (fun _ c h => by cases h; exact ownRules_15_F21_OSTreeSetup)
    (all_cons (fun _ c h => by cases h; exact ownRules_15_F21_OSTreeSetup)
    (all_cons (fun _ c h => by cases h; exact ownRules_15_F21_OSTreeSetup)
    (all_cons (fun _ c h => by cases h; exact ownRules_15_F21_OSTreeSetup)
    (all_cons (fun _ c h => by cases h; exact ownRules_15_F21_OSTreeSetup)
    (all_cons (fun _ c h => by cases h; exact ownRules_15_F21_OSTreeSetup)
    (all_cons (fun _ c h => by cases h)
    (all_cons (fun _ c h => by cases h)
    (all_cons (fun _ c h => by cases h)
    (all_cons (fun _ c h => by cases h)
    (all_cons (fun _ c h => by cases h)
    (all_cons (fun _ c h => by cases h)
    (all_cons (fun _ c h => by cases h)
    (all_cons (fun _ c h => by cases h)
    (all_cons (fun _ c h => by cases h)
    (all_cons (fun _ c h => by cases h)
    (all_cons (fun _ c h => by cases h)
    (all_cons (fun _ c h => by cases h; exact ownRules_15_RHEL7_OSTreeSetup)
    (all_cons (fun _ c h => by cases h; exact ownRules_15_RHEL8_OSTreeSetup) (List.forall_mem_nil _)))))))))))))))))))))))))))))))))))))))

theorem ownRules_16_F10_Rescue : Command.Ruled F10_Rescue.cls (ownRules[16]'(by decide)).holds :=
  plain_ruled fun args n => F10_Rescue.on _ args n

theorem ownRules_16 : (ownRules[16]'(by decide)).Kept := by
  unfold OwnRule.Kept commandMaps
  exact (all_cons (fun _ c h => by cases h; exact ownRules_16_F10_Rescue)
    (all_cons (fun _ c h => by cases h; exact ownRules_16_F10_Rescue)
    (all_cons (fun _ c h => by cases h; exact ownRules_16_F10_Rescue)
    (all_cons (fun _ c h => by cases h; exact ownRules_16_F10_Rescue)
    (all_cons (fun _ c h => by cases h; exact ownRules_16_F10_Rescue)
    (all_cons (fun _ c h => by cases h; exact ownRules_16_F10_Rescue)
    (all_cons (fun _ c h => by cases h; exact ownRules_16_F10_Rescue)
    (all_cons (fun _ c h => by cases h; exact ownRules_16_F10_Rescue)
    (all_cons (fun _ c h => by cases h; exact ownRules_16_F10_Rescue)
    (all_cons (fun _ c h => by cases h; exact ownRules_16_F10_Rescue)
    (all_cons (fun _ c h => by cases h; exact ownRules_16_F10_Rescue)
    (all_cons (fun _ c h => by cases h; exact ownRules_16_F10_Rescue)
    (all_cons (fun _ c h => by cases h; exact ownRules_16_F10_Rescue)
    (all_cons (fun _ c h => by cases h; exact ownRules_16_F10_Rescue)
    (all_cons (fun _ c h => by cases h; exact ownRules_16_F10_Rescue)
    (all_cons (fun _ c h => by cases h; exact ownRules_16_F10_Rescue)
    (all_cons (fun _ c h => by cases h; exact ownRules_16_F10_Rescue)
    (all_cons (fun _ c h => by cases h; exact ownRules_16_F10_Rescue)
    (all_cons (fun _ c h => by cases h; exact ownRules_16_F10_Rescue)
    (all_cons (fun _ c h => by cases h; exact ownRules_16_F10_Rescue)
    (all_cons (fun _ c h => by cases h; exact ownRules_16_F10_Rescue)
    (all_cons (fun _ c h => by cases h; exact ownRules_16_F10_Rescue)
    (all_cons (fun _ c h => by cases h; exact ownRules_16_F10_Rescue)
    (all_cons (fun _ c h => by cases h; exact ownRules_16_F10_Rescue)
    (all_cons (fun _ c h => by cases h; exact ownRules_16_F10_Rescue)
    (all_cons (fun _ c h => by cases h)
    (all_cons (fun _ c h => by cases h)
    (all_cons (fun _ c h => by cases h)
    (all_cons (fun _ c h => by cases h)
    (all_cons (fun _ c h => by cases h)
    (all_cons (fun _ c h => by cases h)
    (all_cons (fun _ c h => by cases h)
    (all_cons (fun _ c h => by cases h)
    (all_cons (fun _ c h => by cases h)
    (all_cons (fun _ c h => by cases h)
    (all_cons (fun _ c h => by cases h; exact ownRules_16_F10_Rescue)
    (all_cons (fun _ c h => by cases h; exact ownRules_16_F10_Rescue)
    (all_cons (fun _ c h => by cases h; exact ownRules_16_F10_Rescue) (List.forall_mem_nil _)))))))))))))))))))))))))))))))))))))))

theorem ownRules_17_F8_RootPw : Command.Ruled F8_RootPw.cls (ownRules[17]'(by decide)).holds :=
  plain_ruled fun args n => FC3_RootPw.given _ args n

theorem ownRules_17_FC3_RootPw : Command.Ruled FC3_RootPw.cls (ownRules[17]'(by decide)).holds :=
  plain_ruled fun args n => FC3_RootPw.given _ args n

theorem ownRules_17 : (ownRules[17]'(by decide)).Kept := by
  unfold OwnRule.Kept commandMaps
  exact (all_cons (fun _ c h => by cases h; exact ownRules_17_F8_RootPw)
    (all_cons (fun _ c h => by cases h; exact ownRules_17_F8_RootPw)
    (all_cons (fun _ c h => by cases h; exact ownRules_17_F8_RootPw)
    (all_cons (fun _ c h => by cases h; exact ownRules_17_F8_RootPw)
    (all_cons (fun _ c h => by cases h; exact ownRules_17_F8_RootPw)
    (all_cons (fun _ c h => by cases h; exact ownRules_17_F8_RootPw)
    (all_cons (fun _ c h => by cases h; exact ownRules_17_F8_RootPw)
    (all_cons (fun _ c h => by cases h; exact ownRules_17_F8_RootPw)
    (all_cons (fun hv => absurd hv (by decide))
    (all_cons (fun hv => absurd hv (by decide))
    (all_cons (fun hv => absurd hv (by decide))
    (all_cons (fun hv => absurd hv (by decide))
    (all_cons (fun hv => absurd hv (by decide))
    (all_cons (fun hv => absurd hv (by decide))
    (all_cons (fun hv => absurd hv (by decide))
    (all_cons (fun hv => absurd hv (by decide))
    (all_cons (fun hv => absurd hv (by decide))
    (all_cons (fun hv => absurd hv (by decide))
    (all_cons (fun hv => absurd hv (by decide))
    (all_cons (fun hv => absurd hv (by decide))
    (all_cons (fun hv => absurd hv (by decide))
    (all_cons (fun hv => absurd hv (by decide))
    (all_cons (fun hv => absurd hv (by decide))
    (all_cons (fun hv => absurd hv (by decide))
    (all_cons (fun hv => absurd hv (by decide))
    (all_cons (fun _ c h => by cases h; exact ownRules_17_FC3_RootPw)
    (all_cons (fun _ c h => by cases h; exact ownRules_17_F8_RootPw)
    (all_cons (fun _ c h => by cases h; exact ownRules_17_F8_RootPw)
    (all_cons (fun _ c h => by cases h; exact ownRules_17_FC3_RootPw)
    (all_cons (fun _ c h => by cases h; exact ownRules_17_FC3_RootPw)
    (all_cons (fun _ c h => by cases h; exact ownRules_17_FC3_RootPw)
    (all_cons (fun _ c h => by cases h; exact ownRules_17_FC3_RootPw)
    (all_cons (fun _ c h => by cases h; exact ownRules_17_FC3_RootPw)
    (all_cons (fun _ c h => by cases h; exact ownRules_17_FC3_RootPw)
    (all_cons (fun _ c h => by cases h; exact ownRules_17_FC3_RootPw)
    (all_cons (fun _ c h => by cases h; exact ownRules_17_F8_RootPw)
    (all_cons (fun hv => absurd hv (by decide))
    (all_cons (fun hv => absurd hv (by decide)) (List.forall_mem_nil _)))))))))))))))))))))))))))))))))))))))

theorem ownRules_18_F18_RootPw : Command.Ruled F18_RootPw.cls (ownRules[18]'(by decide)).holds :=
  plain_ruled fun args n => F18_RootPw.given _ args n

theorem ownRules_18 : (ownRules[18]'(by decide)).Kept := by
  unfold OwnRule.Kept commandMaps
  exact (all_cons (fun hv => absurd hv (by decide))
    (all_cons (fun hv => absurd hv (by decide))
    (all_cons (fun hv => absurd hv (by decide))
    (all_cons (fun hv => absurd hv (by decide))
    (all_cons (fun hv => absurd hv (by decide))
    (all_cons (fun hv => absurd hv (by decide))
    (all_cons (fun hv => absurd hv (by decide))
    (all_cons (fun hv => absurd hv (by decide))
    (all_cons (fun _ c h => by cases h; exact ownRules_18_F18_RootPw)
    (all_cons (fun _ c h => by cases h; exact ownRules_18_F18_RootPw)
    (all_cons (fun _ c h => by cases h; exact ownRules_18_F18_RootPw)
    (all_cons (fun _ c h => by cases h; exact ownRules_18_F18_RootPw)
    (all_cons (fun _ c h => by cases h; exact ownRules_18_F18_RootPw)
    (all_cons (fun _ c h => by cases h; exact ownRules_18_F18_RootPw)
    (all_cons (fun _ c h => by cases h; exact ownRules_18_F18_RootPw)
    (all_cons (fun _ c h => by cases h; exact ownRules_18_F18_RootPw)
    (all_cons (fun _ c h => by cases h; exact ownRules_18_F18_RootPw)
    (all_cons (fun _ c h => by cases h; exact ownRules_18_F18_RootPw)
    (all_cons (fun _ c h => by cases h; exact ownRules_18_F18_RootPw)
    (all_cons (fun _ c h => by cases h; exact ownRules_18_F18_RootPw)
    (all_cons (fun _ c h => by cases h; exact ownRules_18_F18_RootPw)
    (all_cons (fun _ c h => by cases h; exact ownRules_18_F18_RootPw)
    (all_cons (fun _ c h => by cases h; exact ownRules_18_F18_RootPw)
    (all_cons (fun _ c h => by cases h; exact ownRules_18_F18_RootPw)
    (all_cons (fun _ c h => by cases h; exact ownRules_18_F18_RootPw)
    (all_cons (fun hv => absurd hv (by decide))
    (all_cons (fun hv => absurd hv (by decide))
    (all_cons (fun hv => absurd hv (by decide))
    (all_cons (fun hv => absurd hv (by decide))
    (all_cons (fun hv => absurd hv (by decide))
    (all_cons (fun hv => absurd hv (by decide))
    (all_cons (fun hv => absurd hv (by decide))
    (all_cons (fun hv => absurd hv (by decide))
    (all_cons (fun hv => absurd hv (by decide))
    (all_cons (fun hv => absurd hv (by decide))
    (all_cons (fun hv => absurd hv (by decide))
    (all_cons (fun _ c h => by cases h; exact ownRules_18_F18_RootPw)
    (all_cons (fun _ c h => by cases h; exact ownRules_18_F18_RootPw) (List.forall_mem_nil _)))))))))))))))))))))))))))))))))))))))

theorem ownRules_19_FC6_Services : Command.Ruled FC6_Services.cls (ownRules[19]'(by decide)).holds :=
  plain_ruled fun args n => FC6_Services.given _ args n

theorem ownRules_19 : (ownRules[19]'(by decide)).Kept := by
  unfold OwnRule.Kept commandMaps
  exact (all_cons (fun _ c h => by cases h; exact ownRules_19_FC6_Services)
    (all_cons (fun _ c h => by cases h; exact ownRules_19_FC6_Services)
    (all_cons (fun _ c h => by cases h; exact ownRules_19_FC6_Services)
    (all_cons (fun _ c h => by cases h; exact ownRules_19_FC6_Services)
    (all_cons (fun _ c h => by cases h; exact ownRules_19_FC6_Services)
    (all_cons (fun _ c h => by cases h; exact ownRules_19_FC6_Services)
    (all_cons (fun _ c h => by cases h; exact ownRules_19_FC6_Services)
    (all_cons (fun _ c h => by cases h; exact ownRules_19_FC6_Services)
    (all_cons (fun _ c h => by cases h; exact ownRules_19_FC6_Services)
    (all_cons (fun _ c h => by cases h; exact ownRules_19_FC6_Services)
    (all_cons (fun _ c h => by cases h; exact ownRules_19_FC6_Services)
    (all_cons (fun _ c h => by cases h; exact ownRules_19_FC6_Services)
    (all_cons (fun _ c h => by cases h; exact ownRules_19_FC6_Services)
    (all_cons (fun _ c h => by cases h; exact ownRules_19_FC6_Services)
    (all_cons (fun _ c h => by cases h; exact ownRules_19_FC6_Services)
    (all_cons (fun _ c h => by cases h; exact ownRules_19_FC6_Services)
    (all_cons (fun _ c h => by cases h; exact ownRules_19_FC6_Services)
    (all_cons (fun _ c h => by cases h; exact ownRules_19_FC6_Services)
    (all_cons (fun _ c h => by cases h; exact ownRules_19_FC6_Services)
    (all_cons (fun _ c h => by cases h; exact ownRules_19_FC6_Services)
    (all_cons (fun _ c h => by cases h; exact ownRules_19_FC6_Services)
    (all_cons (fun _ c h => by cases h; exact ownRules_19_FC6_Services)
    (all_cons (fun _ c h => by cases h; exact ownRules_19_FC6_Services)
    (all_cons (fun _ c h => by cases h; exact ownRules_19_FC6_Services)
    (all_cons (fun _ c h => by cases h; exact ownRules_19_FC6_Services)
    (all_cons (fun _ c h => by cases h; exact ownRules_19_FC6_Services)
    (all_cons (fun _ c h => by cases h; exact ownRules_19_FC6_Services)
    (all_cons (fun _ c h => by cases h; exact ownRules_19_FC6_Services)
    (all_cons (fun _ c h => by cases h)
    (all_cons (fun _ c h => by cases h)
    (all_cons (fun _ c h => by cases h)
    (all_cons (fun _ c h => by cases h; exact ownRules_19_FC6_Services)
    (all_cons (fun _ c h => by cases h)
    (all_cons (fun _ c h => by cases h)
    (all_cons (fun _ c h => by cases h; exact ownRules_19_FC6_Services)
    (all_cons (fun _ c h => by cases h; exact ownRules_19_FC6_Services)
    (all_cons (fun _ c h => by cases h; exact ownRules_19_FC6_Services)
    (all_cons (fun _ c h => by cases h; exact ownRules_19_FC6_Services) (List.forall_mem_nil _)))))))))))))))))))))))))))))))))))))))

theorem ownRules_20_F18_Timezone : Command.Ruled F18_Timezone.cls (ownRules[20]'(by decide)).holds :=
  plain_ruled fun args n => F18_Timezone.ntp _ args n

theorem ownRules_20_F23_Timezone : Command.Ruled F23_Timezone.cls (ownRules[20]'(by decide)).holds :=
  plain_ruled fun args n => F23_Timezone.ntp _ args n

theorem ownRules_20_F25_Timezone : Command.Ruled F25_Timezone.cls (ownRules[20]'(by decide)).holds :=
  plain_ruled fun args n => own_weaken (F25_Timezone.ntp _ args n) fun _ _ h => h.1

theorem ownRules_20_F32_Timezone : Command.Ruled F32_Timezone.cls (ownRules[20]'(by decide)).holds :=
  plain_ruled fun args n => own_weaken (F32_Timezone.ntp _ args n) fun _ _ h => h.1

theorem ownRules_20_F33_Timezone : Command.Ruled F33_Timezone.cls (ownRules[20]'(by decide)).holds :=
  plain_ruled fun args n => own_weaken (F33_Timezone.ntp _ args n) fun _ _ h => h.1

theorem ownRules_20_RHEL7_Timezone : Command.Ruled RHEL7_Timezone.cls (ownRules[20]'(by decide)).holds :=
  plain_ruled fun args n => own_weaken (RHEL7_Timezone.ntp _ args n) fun _ _ h => h.1

theorem ownRules_20 : (ownRules[20]'(by decide)).Kept := by
  unfold OwnRule.Kept commandMaps
  exact (all_cons (fun hv => absurd hv (by decide))
    (all_cons (fun hv => absurd hv (by decide))
    (all_cons (fun hv => absurd hv (by decide))
    (all_cons (fun hv => absurd hv (by decide))
    (all_cons (fun hv => absurd hv (by decide))
    (all_cons (fun hv => absurd hv (by decide))
    (all_cons (fun hv => absurd hv (by decide))
    (all_cons (fun hv => absurd hv (by decide))
    (all_cons (fun _ c h => by cases h; exact ownRules_20_F18_Timezone)
    (all_cons (fun _ c h => by cases h; exact ownRules_20_F18_Timezone)
    (all_cons (fun _ c h => by cases h; exact ownRules_20_F18_Timezone)
    (all_cons (fun _ c h => by cases h; exact ownRules_20_F18_Timezone)
    (all_cons (fun _ c h => by cases h; exact ownRules_20_F18_Timezone)
    (all_cons (fun _ c h => by cases h; exact ownRules_20_F23_Timezone)
    (all_cons (fun _ c h => by cases h; exact ownRules_20_F23_Timezone)
    (all_cons (fun _ c h => by cases h; exact ownRules_20_F25_Timezone)
    (all_cons (fun _ c h => by cases h; exact ownRules_20_F25_Timezone)
    (all_cons (fun _ c h => by cases h; exact ownRules_20_F25_Timezone)
    (all_cons (fun _ c h => by cases h; exact ownRules_20_F25_Timezone)
    (all_cons (fun _ c h => by cases h; exact ownRules_20_F25_Timezone)
    (all_cons (fun _ c h => by cases h; exact ownRules_20_F25_Timezone)
    (all_cons (fun _ c h => by cases h; exact ownRules_20_F25_Timezone)
    (all_cons (fun _ c h => by cases h; exact ownRules_20_F32_Timezone)
    (all_cons (fun _ c h => by cases h; exact ownRules_20_F33_Timezone)
    (all_cons (fun _ c h => by cases h; exact ownRules_20_F33_Timezone)
    (all_cons (fun hv => absurd hv (by decide))
    (all_cons (fun hv => absurd hv (by decide))
    (all_cons (fun hv => absurd hv (by decide))
    (all_cons (fun hv => absurd hv (by decide))
    (all_cons (fun hv => absurd hv (by decide))
    (all_cons (fun hv => absurd hv (by decide))
    (all_cons (fun hv => absurd hv (by decide))
    (all_cons (fun hv => absurd hv (by decide))
    (all_cons (fun hv => absurd hv (by decide))
    (all_cons (fun hv => absurd hv (by decide))
    (all_cons (fun hv => absurd hv (by decide))
    (all_cons (fun _ c h => by cases h; exact ownRules_20_RHEL7_Timezone)
    (all_cons (fun _ c h => by cases h; exact ownRules_20_F25_Timezone) (List.forall_mem_nil _)))))))))))))))))))))))))))))))))))))))

theorem ownRules_21_F25_Timezone : Command.Ruled F25_Timezone.cls (ownRules[21]'(by decide)).holds :=
  plain_ruled fun args n => own_weaken (F25_Timezone.ntp _ args n) fun _ _ h => h.2

theorem ownRules_21_F32_Timezone : Command.Ruled F32_Timezone.cls (ownRules[21]'(by decide)).holds :=
  plain_ruled fun args n => own_weaken (F32_Timezone.ntp _ args n) fun _ _ h => h.2

theorem ownRules_21_F33_Timezone : Command.Ruled F33_Timezone.cls (ownRules[21]'(by decide)).holds :=
  plain_ruled fun args n => own_weaken (F33_Timezone.ntp _ args n) fun _ _ h => h.2

theorem ownRules_21_RHEL7_Timezone : Command.Ruled RHEL7_Timezone.cls (ownRules[21]'(by decide)).holds :=
  plain_ruled fun args n => own_weaken (RHEL7_Timezone.ntp _ args n) fun _ _ h => h.2

theorem ownRules_21 : (ownRules[21]'(by decide)).Kept := by
  unfold OwnRule.Kept commandMaps
  exact (all_cons (fun hv => absurd hv (by decide))
    (all_cons (fun hv => absurd hv (by decide))
    (all_cons (fun hv => absurd hv (by decide))
    (all_cons (fun hv => absurd hv (by decide))
    (all_cons (fun hv => absurd hv (by decide))
    (all_cons (fun hv => absurd hv (by decide))
    (all_cons (fun hv => absurd hv (by decide))
    (all_cons (fun hv => absurd hv (by decide))
    (all_cons (fun hv => absurd hv (by decide))
    (all_cons (fun hv => absurd hv (by decide))
    (all_cons (fun hv => absurd hv (by decide))
    (all_cons (fun hv => absurd hv (by decide))
    (all_cons (fun hv => absurd hv (by decide))
    (all_cons (fun hv => absurd hv (by decide))
    (all_cons (fun hv => absurd hv (by decide))
    (all_cons (fun _ c h => by cases h; exact ownRules_21_F25_Timezone)
    (all_cons (fun _ c h => by cases h; exact ownRules_21_F25_Timezone)
    (all_cons (fun _ c h => by cases h; exact ownRules_21_F25_Timezone)
    (all_cons (fun _ c h => by cases h; exact ownRules_21_F25_Timezone)
    (all_cons (fun _ c h => by cases h; exact ownRules_21_F25_Timezone)
    (all_cons (fun _ c h => by cases h; exact ownRules_21_F25_Timezone)
    (all_cons (fun _ c h => by cases h; exact ownRules_21_F25_Timezone)
    (all_cons (fun _ c h => by cases h; exact ownRules_21_F32_Timezone)
    (all_cons (fun _ c h => by cases h; exact ownRules_21_F33_Timezone)
    (all_cons (fun _ c h => by cases h; exact ownRules_21_F33_Timezone)
    (all_cons (fun hv => absurd hv (by decide))
    (all_cons (fun hv => absurd hv (by decide))
    (all_cons (fun hv => absurd hv (by decide))
    (all_cons (fun hv => absurd hv (by decide))
    (all_cons (fun hv => absurd hv (by decide))
    (all_cons (fun hv => absurd hv (by decide))
    (all_cons (fun hv => absurd hv (by decide))
    (all_cons (fun hv => absurd hv (by decide))
    (all_cons (fun hv => absurd hv (by decide))
    (all_cons (fun hv => absurd hv (by decide))
    (all_cons (fun hv => absurd hv (by decide))
    (all_cons (fun _ c h => by cases h; exact ownRules_21_RHEL7_Timezone)
    (all_cons (fun _ c h => by cases h; exact ownRules_21_F25_Timezone) (List.forall_mem_nil _)))))))))))))))))))))))))))))))))))))))

theorem ownRules_22_F11_Upgrade : Command.Ruled F11_Upgrade.cls (ownRules[22]'(by decide)).holds :=
  plain_ruled fun args n => F11_Upgrade.root _ args n

theorem ownRules_22 : (ownRules[22]'(by decide)).Kept := by
  unfold OwnRule.Kept commandMaps
  exact (all_cons (fun hv => absurd hv (by decide))
    (all_cons (fun _ c h => by cases h; exact ownRules_22_F11_Upgrade)
    (all_cons (fun _ c h => by cases h; exact ownRules_22_F11_Upgrade)
    (all_cons (fun _ c h => by cases h; exact ownRules_22_F11_Upgrade)
    (all_cons (fun _ c h => by cases h; exact ownRules_22_F11_Upgrade)
    (all_cons (fun _ c h => by cases h; exact ownRules_22_F11_Upgrade)
    (all_cons (fun _ c h => by cases h; exact ownRules_22_F11_Upgrade)
    (all_cons (fun _ c h => by cases h; exact ownRules_22_F11_Upgrade)
    (all_cons (fun _ c h => by cases h; exact ownRules_22_F11_Upgrade)
    (all_cons (fun _ c h => by cases h; exact ownRules_22_F11_Upgrade)
    (all_cons (fun hv => absurd hv (by decide))
    (all_cons (fun hv => absurd hv (by decide))
    (all_cons (fun hv => absurd hv (by decide))
    (all_cons (fun hv => absurd hv (by decide))
    (all_cons (fun hv => absurd hv (by decide))
    (all_cons (fun hv => absurd hv (by decide))
    (all_cons (fun hv => absurd hv (by decide))
    (all_cons (fun hv => absurd hv (by decide))
    (all_cons (fun hv => absurd hv (by decide))
    (all_cons (fun hv => absurd hv (by decide))
    (all_cons (fun hv => absurd hv (by decide))
    (all_cons (fun hv => absurd hv (by decide))
    (all_cons (fun hv => absurd hv (by decide))
    (all_cons (fun hv => absurd hv (by decide))
    (all_cons (fun hv => absurd hv (by decide))
    (all_cons (fun hv => absurd hv (by decide))
    (all_cons (fun hv => absurd hv (by decide))
    (all_cons (fun hv => absurd hv (by decide))
    (all_cons (fun hv => absurd hv (by decide))
    (all_cons (fun hv => absurd hv (by decide))
    (all_cons (fun hv => absurd hv (by decide))
    (all_cons (fun hv => absurd hv (by decide))
    (all_cons (fun hv => absurd hv (by decide))
    (all_cons (fun hv => absurd hv (by decide))
    (all_cons (fun hv => absurd hv (by decide))
    (all_cons (fun _ c h => by cases h; exact ownRules_22_F11_Upgrade)
    (all_cons (fun hv => absurd hv (by decide))
    (all_cons (fun hv => absurd hv (by decide)) (List.forall_mem_nil _)))))))))))))))))))))))))))))))))))))))

theorem ownRules_23_F18_Url : Command.Ruled F18_Url.cls (ownRules[23]'(by decide)).holds :=
  plain_ruled fun args n => F18_Url.given _ (by decide) args n

theorem ownRules_23_F27_Url : Command.Ruled F27_Url.cls (ownRules[23]'(by decide)).holds :=
  plain_ruled fun args n => F18_Url.given _ (by decide) args n

theorem ownRules_23_F30_Url : Command.Ruled F30_Url.cls (ownRules[23]'(by decide)).holds :=
  plain_ruled fun args n => F18_Url.given _ (by decide) args n

theorem ownRules_23_RHEL8_Url : Command.Ruled RHEL8_Url.cls (ownRules[23]'(by decide)).holds :=
  plain_ruled fun args n => F18_Url.given _ (by decide) args n

theorem ownRules_23 : (ownRules[23]'(by decide)).Kept := by
  unfold OwnRule.Kept commandMaps
  exact (all_cons (fun hv => absurd hv (by decide))
    (all_cons (fun hv => absurd hv (by decide))
    (all_cons (fun hv => absurd hv (by decide))
    (all_cons (fun hv => absurd hv (by decide))
    (all_cons (fun hv => absurd hv (by decide))
    (all_cons (fun hv => absurd hv (by decide))
    (all_cons (fun hv => absurd hv (by decide))
    (all_cons (fun hv => absurd hv (by decide))
    (all_cons (fun _ c h => by cases h; exact ownRules_23_F18_Url)
    (all_cons (fun _ c h => by cases h; exact ownRules_23_F18_Url)
    (all_cons (fun _ c h => by cases h; exact ownRules_23_F18_Url)
    (all_cons (fun _ c h => by cases h; exact ownRules_23_F18_Url)
    (all_cons (fun _ c h => by cases h; exact ownRules_23_F18_Url)
    (all_cons (fun _ c h => by cases h; exact ownRules_23_F18_Url)
    (all_cons (fun _ c h => by cases h; exact ownRules_23_F18_Url)
    (all_cons (fun _ c h => by cases h; exact ownRules_23_F18_Url)
    (all_cons (fun _ c h => by cases h; exact ownRules_23_F18_Url)
    (all_cons (fun _ c h => by cases h; exact ownRules_23_F27_Url)
    (all_cons (fun _ c h => by cases h; exact ownRules_23_F27_Url)
    (all_cons (fun _ c h => by cases h; exact ownRules_23_F27_Url)
    (all_cons (fun _ c h => by cases h; exact ownRules_23_F30_Url)
    (all_cons (fun _ c h => by cases h; exact ownRules_23_F30_Url)
    (all_cons (fun _ c h => by cases h; exact ownRules_23_F30_Url)
    (all_cons (fun _ c h => by cases h; exact ownRules_23_F30_Url)
    (all_cons (fun _ c h => by cases h; exact ownRules_23_F30_Url)
    (all_cons (fun hv => absurd hv (by decide))
    (all_cons (fun hv => absurd hv (by decide))
    (all_cons (fun hv => absurd hv (by decide))
    (all_cons (fun hv => absurd hv (by decide))
    (all_cons (fun hv => absurd hv (by decide))
    (all_cons (fun hv => absurd hv (by decide))
    (all_cons (fun hv => absurd hv (by decide))
    (all_cons (fun hv => absurd hv (by decide))
    (all_cons (fun hv => absurd hv (by decide))
    (all_cons (fun hv => absurd hv (by decide))
    (all_cons (fun hv => absurd hv (by decide))
    (all_cons (fun _ c h => by cases h; exact ownRules_23_F18_Url)
    (all_cons (fun _ c h => by cases h; exact ownRules_23_RHEL8_Url) (List.forall_mem_nil _)))))))))))))))))))))))))))))))))))))))

theorem ownRules_kept : ∀ r ∈ ownRules, r.Kept :=
  (all_cons ownRules_0 (all_cons ownRules_1 (all_cons ownRules_2 (all_cons ownRules_3 (all_cons ownRules_4 (all_cons ownRules_5 (all_cons ownRules_6 (all_cons ownRules_7 (all_cons ownRules_8 (all_cons ownRules_9 (all_cons ownRules_10 (all_cons ownRules_11 (all_cons ownRules_12 (all_cons ownRules_13 (all_cons ownRules_14 (all_cons ownRules_15 (all_cons ownRules_16 (all_cons ownRules_17 (all_cons ownRules_18 (all_cons ownRules_19 (all_cons ownRules_20 (all_cons ownRules_21 (all_cons ownRules_22 (all_cons ownRules_23 (List.forall_mem_nil _)))))))))))))))))))))))))

theorem firstRules_0_F10_Rescue : Command.FirstRuled F10_Rescue.cls (firstRules[0]'(by decide)).holds :=
  plain_first fun args n => F10_Rescue.one _ _ (by decide) (by decide) args n

theorem firstRules_0 : (firstRules[0]'(by decide)).KeptFirst := by
  unfold OwnRule.KeptFirst commandMaps
  exact (all_cons (fun _ c h => by cases h; exact firstRules_0_F10_Rescue)
    (all_cons (fun _ c h => by cases h; exact firstRules_0_F10_Rescue)
    (all_cons (fun _ c h => by cases h; exact firstRules_0_F10_Rescue)
    (all_cons (fun _ c h => by cases h; exact firstRules_0_F10_Rescue)
    (all_cons (fun _ c h => by cases h; exact firstRules_0_F10_Rescue)
    (all_cons (fun _ c h => by cases h; exact firstRules_0_F10_Rescue)
    (all_cons (fun _ c h => by cases h; exact firstRules_0_F10_Rescue)
    (all_cons (fun _ c h => by cases h; exact firstRules_0_F10_Rescue)
    (all_cons (fun _ c h => by cases h; exact firstRules_0_F10_Rescue)
    (all_cons (fun _ c h => by cases h; exact firstRules_0_F10_Rescue)
    (all_cons (fun _ c h => by cases h; exact firstRules_0_F10_Rescue)
    (all_cons (fun _ c h => by cases h; exact firstRules_0_F10_Rescue)
    (all_cons (fun _ c h => by cases h; exact firstRules_0_F10_Rescue)
    (all_cons (fun _ c h => by cases h; exact firstRules_0_F10_Rescue)
    (all_cons (fun _ c h => by cases h; exact firstRules_0_F10_Rescue)
    (all_cons (fun _ c h => by cases h; exact firstRules_0_F10_Rescue)
    (all_cons (fun _ c h => by cases h; exact firstRules_0_F10_Rescue)
    (all_cons (fun _ c h => by cases h; exact firstRules_0_F10_Rescue)
    (all_cons (fun _ c h => by cases h; exact firstRules_0_F10_Rescue)
    (all_cons (fun _ c h => by cases h; exact firstRules_0_F10_Rescue)
    (all_cons (fun _ c h => by cases h; exact firstRules_0_F10_Rescue)
    (all_cons (fun _ c h => by cases h; exact firstRules_0_F10_Rescue)
    (all_cons (fun _ c h => by cases h; exact firstRules_0_F10_Rescue)
    (all_cons (fun _ c h => by cases h; exact firstRules_0_F10_Rescue)
    (all_cons (fun _ c h => by cases h; exact firstRules_0_F10_Rescue)
    (all_cons (fun _ c h => by cases h)
    (all_cons (fun _ c h => by cases h)
    (all_cons (fun _ c h => by cases h)
    (all_cons (fun _ c h => by cases h)
    (all_cons (fun _ c h => by cases h)
    (all_cons (fun _ c h => by cases h)
    (all_cons (fun _ c h => by cases h)
    (all_cons (fun _ c h => by cases h)
    (all_cons (fun _ c h => by cases h)
    (all_cons (fun _ c h => by cases h)
    (all_cons (fun _ c h => by cases h; exact firstRules_0_F10_Rescue)
    (all_cons (fun _ c h => by cases h; exact firstRules_0_F10_Rescue)
    (all_cons (fun _ c h => by cases h; exact firstRules_0_F10_Rescue) (List.forall_mem_nil _)))))))))))))))))))))))))))))))))))))))

theorem firstRules_1_RHEL8_RHSM : Command.FirstRuled RHEL8_RHSM.cls (firstRules[1]'(by decide)).holds :=
  plain_first fun args n => RHEL8_RHSM.keys _ _ (by decide) args n

theorem firstRules_1 : (firstRules[1]'(by decide)).KeptFirst := by
  unfold OwnRule.KeptFirst commandMaps
  exact (all_cons (fun _ c h => by cases h)
    (all_cons (fun _ c h => by cases h)
    (all_cons (fun _ c h => by cases h)
    (all_cons (fun _ c h => by cases h)
    (all_cons (fun _ c h => by cases h)
    (all_cons (fun _ c h => by cases h)
    (all_cons (fun _ c h => by cases h)
    (all_cons (fun _ c h => by cases h)
    (all_cons (fun _ c h => by cases h)
    (all_cons (fun _ c h => by cases h)
    (all_cons (fun _ c h => by cases h)
    (all_cons (fun _ c h => by cases h)
    (all_cons (fun _ c h => by cases h)
    (all_cons (fun _ c h => by cases h)
    (all_cons (fun _ c h => by cases h)
    (all_cons (fun _ c h => by cases h)
    (all_cons (fun _ c h => by cases h)
    (all_cons (fun _ c h => by cases h)
    (all_cons (fun _ c h => by cases h)
    (all_cons (fun _ c h => by cases h)
    (all_cons (fun _ c h => by cases h)
    (all_cons (fun _ c h => by cases h)
    (all_cons (fun _ c h => by cases h)
    (all_cons (fun _ c h => by cases h)
    (all_cons (fun _ c h => by cases h)
    (all_cons (fun _ c h => by cases h)
    (all_cons (fun _ c h => by cases h)
    (all_cons (fun _ c h => by cases h)
    (all_cons (fun _ c h => by cases h)
    (all_cons (fun _ c h => by cases h)
    (all_cons (fun _ c h => by cases h)
    (all_cons (fun _ c h => by cases h)
    (all_cons (fun _ c h => by cases h)
    (all_cons (fun _ c h => by cases h)
    (all_cons (fun _ c h => by cases h)
    (all_cons (fun _ c h => by cases h)
    (all_cons (fun _ c h => by cases h)
    (all_cons (fun _ c h => by cases h; exact firstRules_1_RHEL8_RHSM) (List.forall_mem_nil _)))))))))))))))))))))))))))))))))))))))

theorem firstRules_2_F18_Url : Command.FirstRuled F18_Url.cls (firstRules[2]'(by decide)).holds :=
  plain_first fun args n => F18_Url.one _ (.inl ⟨rfl, by decide +kernel⟩) _ (by decide) (by decide) (by decide) args n

theorem firstRules_2_F27_Url : Command.FirstRuled F27_Url.cls (firstRules[2]'(by decide)).holds :=
  plain_first fun args n => F18_Url.one _ (.inr rfl) _ (by decide) (by decide) (by decide) args n

theorem firstRules_2_F30_Url : Command.FirstRuled F30_Url.cls (firstRules[2]'(by decide)).holds :=
  plain_first fun args n => F18_Url.one _ (.inr rfl) _ (by decide) (by decide) (by decide) args n

theorem firstRules_2_RHEL8_Url : Command.FirstRuled RHEL8_Url.cls (firstRules[2]'(by decide)).holds :=
  plain_first fun args n => F18_Url.one _ (.inr rfl) _ (by decide) (by decide) (by decide) args n

theorem firstRules_2 : (firstRules[2]'(by decide)).KeptFirst := by
  unfold OwnRule.KeptFirst commandMaps
  exact (all_cons (fun hv => absurd hv (by decide))
    (all_cons (fun hv => absurd hv (by decide))
    (all_cons (fun hv => absurd hv (by decide))
    (all_cons (fun hv => absurd hv (by decide))
    (all_cons (fun hv => absurd hv (by decide))
    (all_cons (fun hv => absurd hv (by decide))
    (all_cons (fun hv => absurd hv (by decide))
    (all_cons (fun hv => absurd hv (by decide))
    (all_cons (fun _ c h => by cases h; exact firstRules_2_F18_Url)
    (all_cons (fun _ c h => by cases h; exact firstRules_2_F18_Url)
    (all_cons (fun _ c h => by cases h; exact firstRules_2_F18_Url)
    (all_cons (fun _ c h => by cases h; exact firstRules_2_F18_Url)
    (all_cons (fun _ c h => by cases h; exact firstRules_2_F18_Url)
    (all_cons (fun _ c h => by cases h; exact firstRules_2_F18_Url)
    (all_cons (fun _ c h => by cases h; exact firstRules_2_F18_Url)
    (all_cons (fun _ c h => by cases h; exact firstRules_2_F18_Url)
    (all_cons (fun _ c h => by cases h; exact firstRules_2_F18_Url)
    (all_cons (fun _ c h => by cases h; exact firstRules_2_F27_Url)
    (all_cons (fun _ c h => by cases h; exact firstRules_2_F27_Url)
    (all_cons (fun _ c h => by cases h; exact firstRules_2_F27_Url)
    (all_cons (fun _ c h => by cases h; exact firstRules_2_F30_Url)
    (all_cons (fun _ c h => by cases h; exact firstRules_2_F30_Url)
    (all_cons (fun _ c h => by cases h; exact firstRules_2_F30_Url)
    (all_cons (fun _ c h => by cases h; exact firstRules_2_F30_Url)
    (all_cons (fun _ c h => by cases h; exact firstRules_2_F30_Url)
    (all_cons (fun hv => absurd hv (by decide))
    (all_cons (fun hv => absurd hv (by decide))
    (all_cons (fun hv => absurd hv (by decide))
    (all_cons (fun hv => absurd hv (by decide))
    (all_cons (fun hv => absurd hv (by decide))
    (all_cons (fun hv => absurd hv (by decide))
    (all_cons (fun hv => absurd hv (by decide))
    (all_cons (fun hv => absurd hv (by decide))
    (all_cons (fun hv => absurd hv (by decide))
    (all_cons (fun hv => absurd hv (by decide))
    (all_cons (fun hv => absurd hv (by decide))
    (all_cons (fun _ c h => by cases h; exact firstRules_2_F18_Url)
    (all_cons (fun _ c h => by cases h; exact firstRules_2_RHEL8_Url) (List.forall_mem_nil _)))))))))))))))))))))))))))))))))))))))

theorem firstRules_kept : ∀ r ∈ firstRules, r.KeptFirst :=
  (all_cons firstRules_0 (all_cons firstRules_1 (all_cons firstRules_2 (List.forall_mem_nil _))))

end Ks
