import Verif.Commands.RuleLogic2
import Verif.Commands.Maps
/-!
# The rules for the data objects of the command classes

Written by `scripts/gen_rules.py`.
-/
namespace Ks.Cmd

theorem rules_F9_LogVol_F9_LogVolData : Command.Data (F9_LogVol.cls F9_LogVolData.cls) (LogvolRules Version.FC3) :=
  list_data fun args n => FC3_LogVol.rules _ args n

theorem rules_F12_LogVol_F12_LogVolData : Command.Data (F12_LogVol.cls F12_LogVolData.cls) (LogvolRules Version.FC3) :=
  list_data fun args n => FC3_LogVol.rules _ args n

theorem rules_F14_LogVol_F14_LogVolData : Command.Data (F14_LogVol.cls F14_LogVolData.cls) (LogvolRules Version.FC3) :=
  list_data fun args n => FC3_LogVol.rules _ args n

theorem rules_F15_LogVol_F15_LogVolData : Command.Data (F15_LogVol.cls F15_LogVolData.cls) (LogvolRules Version.FC3) :=
  list_data fun args n => FC3_LogVol.rules _ args n

theorem rules_F15_LogVol_F17_LogVolData : Command.Data (F15_LogVol.cls F17_LogVolData.cls) (LogvolRules Version.FC3) :=
  list_data fun args n => FC3_LogVol.rules _ args n

theorem rules_F17_LogVol_F17_LogVolData : Command.Data (F17_LogVol.cls F17_LogVolData.cls) (LogvolRules Version.F17) :=
  list_data fun args n => F17_LogVol.rules _ args n

theorem rules_F18_LogVol_F18_LogVolData : Command.Data (F18_LogVol.cls F18_LogVolData.cls) (LogvolRules Version.F17) :=
  list_data fun args n => F17_LogVol.rules _ args n

theorem rules_F18_LogVol_F20_LogVolData : Command.Data (F18_LogVol.cls F20_LogVolData.cls) (LogvolRules Version.F17) :=
  list_data fun args n => F17_LogVol.rules _ args n

theorem rules_F20_LogVol_F20_LogVolData : Command.Data (F20_LogVol.cls F20_LogVolData.cls) (LogvolRules Version.F20) :=
  list_data fun args n => F20_LogVol.rules _ args n

theorem rules_F21_LogVol_F21_LogVolData : Command.Data (F21_LogVol.cls F21_LogVolData.cls) (LogvolRules Version.F22) :=
  list_data fun args n => F21_LogVol.rules _ args n

theorem rules_F23_LogVol_F23_LogVolData : Command.Data (F23_LogVol.cls F23_LogVolData.cls) (LogvolRules Version.F28) :=
  list_data fun args n => F23_LogVol.rules _ args n

theorem rules_F29_LogVol_F29_LogVolData : Command.Data (F29_LogVol.cls F29_LogVolData.cls) (LogvolRules Version.F34) :=
  list_data fun args n => F29_LogVol.rules _ args n

theorem rules_FC4_LogVol_FC4_LogVolData : Command.Data (FC4_LogVol.cls FC4_LogVolData.cls) (LogvolRules Version.FC3) :=
  list_data fun args n => FC3_LogVol.rules _ args n

theorem rules_FC3_LogVol_FC3_LogVolData : Command.Data (FC3_LogVol.cls FC3_LogVolData.cls) (LogvolRules Version.FC3) :=
  list_data fun args n => FC3_LogVol.rules _ args n

theorem rules_RHEL5_LogVol_RHEL5_LogVolData : Command.Data (RHEL5_LogVol.cls RHEL5_LogVolData.cls) (LogvolRules Version.FC3) :=
  list_data fun args n => FC3_LogVol.rules _ args n

theorem rules_RHEL6_LogVol_RHEL6_LogVolData : Command.Data (RHEL6_LogVol.cls RHEL6_LogVolData.cls) (LogvolRules Version.RHEL6) :=
  list_data fun args n => RHEL6_LogVol.rules _ args n

theorem rules_RHEL7_LogVol_RHEL7_LogVolData : Command.Data (RHEL7_LogVol.cls RHEL7_LogVolData.cls) (LogvolRules Version.RHEL7) :=
  list_data fun args n => RHEL7_LogVol.rules _ args n

theorem rules_RHEL8_LogVol_RHEL8_LogVolData : Command.Data (RHEL8_LogVol.cls RHEL8_LogVolData.cls) (LogvolRules Version.RHEL8) :=
  list_data fun args n => RHEL8_LogVol.rules _ args n

theorem commandMaps_logvol : ∀ y ∈ commandMaps, ∀ c, y.2.lookup c!"logvol" = some c → Command.Data c (LogvolRules y.1) := by
  unfold commandMaps
  exact (all_cons (fun c h => by cases h; exact rules_F9_LogVol_F9_LogVolData.weaken fun _ h => h.mono Version.FC3 (by decide))
    (all_cons (fun c h => by cases h; exact rules_F9_LogVol_F9_LogVolData.weaken fun _ h => h.mono Version.FC3 (by decide))
    (all_cons (fun c h => by cases h; exact rules_F12_LogVol_F12_LogVolData.weaken fun _ h => h.mono Version.FC3 (by decide))
    (all_cons (fun c h => by cases h; exact rules_F12_LogVol_F12_LogVolData.weaken fun _ h => h.mono Version.FC3 (by decide))
    (all_cons (fun c h => by cases h; exact rules_F14_LogVol_F14_LogVolData.weaken fun _ h => h.mono Version.FC3 (by decide))
    (all_cons (fun c h => by cases h; exact rules_F15_LogVol_F15_LogVolData.weaken fun _ h => h.mono Version.FC3 (by decide))
    (all_cons (fun c h => by cases h; exact rules_F15_LogVol_F17_LogVolData.weaken fun _ h => h.mono Version.FC3 (by decide))
    (all_cons (fun c h => by cases h; exact rules_F17_LogVol_F17_LogVolData.weaken fun _ h => h.mono Version.F17 (by decide))
    (all_cons (fun c h => by cases h; exact rules_F18_LogVol_F18_LogVolData.weaken fun _ h => h.mono Version.F17 (by decide))
    (all_cons (fun c h => by cases h; exact rules_F18_LogVol_F20_LogVolData.weaken fun _ h => h.mono Version.F17 (by decide))
    (all_cons (fun c h => by cases h; exact rules_F20_LogVol_F20_LogVolData.weaken fun _ h => h.mono Version.F20 (by decide))
    (all_cons (fun c h => by cases h; exact rules_F21_LogVol_F21_LogVolData.weaken fun _ h => h.mono Version.F22 (by decide))
    (all_cons (fun c h => by cases h; exact rules_F21_LogVol_F21_LogVolData.weaken fun _ h => h.mono Version.F22 (by decide))
    (all_cons (fun c h => by cases h; exact rules_F23_LogVol_F23_LogVolData.weaken fun _ h => h.mono Version.F28 (by decide))
    (all_cons (fun c h => by cases h; exact rules_F23_LogVol_F23_LogVolData.weaken fun _ h => h.mono Version.F28 (by decide))
    (all_cons (fun c h => by cases h; exact rules_F23_LogVol_F23_LogVolData.weaken fun _ h => h.mono Version.F28 (by decide))
    (all_cons (fun c h => by cases h; exact rules_F23_LogVol_F23_LogVolData.weaken fun _ h => h.mono Version.F28 (by decide))
    (all_cons (fun c h => by cases h; exact rules_F23_LogVol_F23_LogVolData.weaken fun _ h => h.mono Version.F28 (by decide))
    (all_cons (fun c h => by cases h; exact rules_F23_LogVol_F23_LogVolData.weaken fun _ h => h.mono Version.F28 (by decide))
    (all_cons (fun c h => by cases h; exact rules_F29_LogVol_F29_LogVolData.weaken fun _ h => h.mono Version.F34 (by decide))
    (all_cons (fun c h => by cases h; exact rules_F29_LogVol_F29_LogVolData.weaken fun _ h => h.mono Version.F34 (by decide))
    (all_cons (fun c h => by cases h; exact rules_F29_LogVol_F29_LogVolData.weaken fun _ h => h.mono Version.F34 (by decide))
    (all_cons (fun c h => by cases h; exact rules_F29_LogVol_F29_LogVolData.weaken fun _ h => h.mono Version.F34 (by decide))
    (all_cons (fun c h => by cases h; exact rules_F29_LogVol_F29_LogVolData.weaken fun _ h => h.mono Version.F34 (by decide))
    (all_cons (fun c h => by cases h; exact rules_F29_LogVol_F29_LogVolData.weaken fun _ h => h.mono Version.F34 (by decide))
    (all_cons (fun c h => by cases h; exact rules_FC4_LogVol_FC4_LogVolData.weaken fun _ h => h.mono Version.FC3 (by decide))
    (all_cons (fun c h => by cases h; exact rules_FC4_LogVol_FC4_LogVolData.weaken fun _ h => h.mono Version.FC3 (by decide))
    (all_cons (fun c h => by cases h; exact rules_F9_LogVol_F9_LogVolData.weaken fun _ h => h.mono Version.FC3 (by decide))
    (all_cons (fun c h => by cases h; exact rules_FC3_LogVol_FC3_LogVolData.weaken fun _ h => h.mono Version.FC3 (by decide))
    (all_cons (fun c h => by cases h; exact rules_FC4_LogVol_FC4_LogVolData.weaken fun _ h => h.mono Version.FC3 (by decide))
    (all_cons (fun c h => by cases h; exact rules_FC4_LogVol_FC4_LogVolData.weaken fun _ h => h.mono Version.FC3 (by decide))
    (all_cons (fun c h => by cases h; exact rules_FC4_LogVol_FC4_LogVolData.weaken fun _ h => h.mono Version.FC3 (by decide))
    (all_cons (fun c h => by cases h; exact rules_FC3_LogVol_FC3_LogVolData.weaken fun _ h => h.mono Version.FC3 (by decide))
    (all_cons (fun c h => by cases h; exact rules_FC3_LogVol_FC3_LogVolData.weaken fun _ h => h.mono Version.FC3 (by decide))
    (all_cons (fun c h => by cases h; exact rules_RHEL5_LogVol_RHEL5_LogVolData.weaken fun _ h => h.mono Version.FC3 (by decide))
    (all_cons (fun c h => by cases h; exact rules_RHEL6_LogVol_RHEL6_LogVolData.weaken fun _ h => h.mono Version.RHEL6 (by decide))
    (all_cons (fun c h => by cases h; exact rules_RHEL7_LogVol_RHEL7_LogVolData.weaken fun _ h => h.mono Version.RHEL7 (by decide))
    (all_cons (fun c h => by cases h; exact rules_RHEL8_LogVol_RHEL8_LogVolData.weaken fun _ h => h.mono Version.RHEL8 (by decide)) (List.forall_mem_nil _)))))))))))))))))))))))))))))))))))))))

theorem rules_F9_Partition_F9_PartData : Command.Data (F9_Partition.cls F9_PartData.cls) (PartRules Version.FC3) :=
  list_data fun args n => FC3_Partition.rules _ args n

theorem rules_F11_Partition_F11_PartData : Command.Data (F11_Partition.cls F11_PartData.cls) (PartRules Version.FC3) :=
  list_data fun args n => FC3_Partition.rules _ args n

theorem rules_F12_Partition_F12_PartData : Command.Data (F12_Partition.cls F12_PartData.cls) (PartRules Version.FC3) :=
  list_data fun args n => FC3_Partition.rules _ args n

theorem rules_F14_Partition_F14_PartData : Command.Data (F14_Partition.cls F14_PartData.cls) (PartRules Version.FC3) :=
  list_data fun args n => FC3_Partition.rules _ args n

theorem rules_F14_Partition_F17_PartData : Command.Data (F14_Partition.cls F17_PartData.cls) (PartRules Version.FC3) :=
  list_data fun args n => FC3_Partition.rules _ args n

theorem rules_F17_Partition_F17_PartData : Command.Data (F17_Partition.cls F17_PartData.cls) (PartRules Version.F17) :=
  list_data fun args n => F17_Partition.rules _ args n

theorem rules_F18_Partition_F18_PartData : Command.Data (F18_Partition.cls F18_PartData.cls) (PartRules Version.F17) :=
  list_data fun args n => F17_Partition.rules _ args n

theorem rules_F20_Partition_F18_PartData : Command.Data (F20_Partition.cls F18_PartData.cls) (PartRules Version.F22) :=
  list_data fun args n => F20_Partition.rules _ args n

theorem rules_F23_Partition_F23_PartData : Command.Data (F23_Partition.cls F23_PartData.cls) (PartRules Version.F28) :=
  list_data fun args n => F23_Partition.rules _ args n

theorem rules_F29_Partition_F29_PartData : Command.Data (F29_Partition.cls F29_PartData.cls) (PartRules Version.F34) :=
  list_data fun args n => F29_Partition.rules _ args n

theorem rules_F34_Partition_F29_PartData : Command.Data (F34_Partition.cls F29_PartData.cls) (PartRules Version.F34) :=
  list_data fun args n => F29_Partition.rules _ args n

theorem rules_FC4_Partition_FC4_PartData : Command.Data (FC4_Partition.cls FC4_PartData.cls) (PartRules Version.FC3) :=
  list_data fun args n => FC3_Partition.rules _ args n

theorem rules_FC3_Partition_FC3_PartData : Command.Data (FC3_Partition.cls FC3_PartData.cls) (PartRules Version.FC3) :=
  list_data fun args n => FC3_Partition.rules _ args n

theorem rules_RHEL5_Partition_RHEL5_PartData : Command.Data (RHEL5_Partition.cls RHEL5_PartData.cls) (PartRules Version.FC3) :=
  list_data fun args n => FC3_Partition.rules _ args n

theorem rules_RHEL6_Partition_RHEL6_PartData : Command.Data (RHEL6_Partition.cls RHEL6_PartData.cls) (PartRules Version.RHEL6) :=
  list_data fun args n => RHEL6_Partition.rules _ args n

theorem rules_RHEL7_Partition_RHEL7_PartData : Command.Data (RHEL7_Partition.cls RHEL7_PartData.cls) (PartRules Version.F28) :=
  list_data fun args n => F23_Partition.rules _ args n

theorem rules_RHEL8_Partition_RHEL8_PartData : Command.Data (RHEL8_Partition.cls RHEL8_PartData.cls) (PartRules Version.RHEL8) :=
  list_data fun args n => RHEL8_Partition.rules _ args n

theorem commandMaps_part : ∀ y ∈ commandMaps, ∀ c, y.2.lookup c!"part" = some c → Command.Data c (PartRules y.1) := by
  unfold commandMaps
  exact (all_cons (fun c h => by cases h; exact rules_F9_Partition_F9_PartData.weaken fun _ h => h.mono Version.FC3 (by decide))
    (all_cons (fun c h => by cases h; exact rules_F11_Partition_F11_PartData.weaken fun _ h => h.mono Version.FC3 (by decide))
    (all_cons (fun c h => by cases h; exact rules_F12_Partition_F12_PartData.weaken fun _ h => h.mono Version.FC3 (by decide))
    (all_cons (fun c h => by cases h; exact rules_F12_Partition_F12_PartData.weaken fun _ h => h.mono Version.FC3 (by decide))
    (all_cons (fun c h => by cases h; exact rules_F14_Partition_F14_PartData.weaken fun _ h => h.mono Version.FC3 (by decide))
    (all_cons (fun c h => by cases h; exact rules_F14_Partition_F14_PartData.weaken fun _ h => h.mono Version.FC3 (by decide))
    (all_cons (fun c h => by cases h; exact rules_F14_Partition_F17_PartData.weaken fun _ h => h.mono Version.FC3 (by decide))
    (all_cons (fun c h => by cases h; exact rules_F17_Partition_F17_PartData.weaken fun _ h => h.mono Version.F17 (by decide))
    (all_cons (fun c h => by cases h; exact rules_F18_Partition_F18_PartData.weaken fun _ h => h.mono Version.F17 (by decide))
    (all_cons (fun c h => by cases h; exact rules_F18_Partition_F18_PartData.weaken fun _ h => h.mono Version.F17 (by decide))
    (all_cons (fun c h => by cases h; exact rules_F20_Partition_F18_PartData.weaken fun _ h => h.mono Version.F22 (by decide))
    (all_cons (fun c h => by cases h; exact rules_F20_Partition_F18_PartData.weaken fun _ h => h.mono Version.F22 (by decide))
    (all_cons (fun c h => by cases h; exact rules_F20_Partition_F18_PartData.weaken fun _ h => h.mono Version.F22 (by decide))
    (all_cons (fun c h => by cases h; exact rules_F23_Partition_F23_PartData.weaken fun _ h => h.mono Version.F28 (by decide))
    (all_cons (fun c h => by cases h; exact rules_F23_Partition_F23_PartData.weaken fun _ h => h.mono Version.F28 (by decide))
    (all_cons (fun c h => by cases h; exact rules_F23_Partition_F23_PartData.weaken fun _ h => h.mono Version.F28 (by decide))
    (all_cons (fun c h => by cases h; exact rules_F23_Partition_F23_PartData.weaken fun _ h => h.mono Version.F28 (by decide))
    (all_cons (fun c h => by cases h; exact rules_F23_Partition_F23_PartData.weaken fun _ h => h.mono Version.F28 (by decide))
    (all_cons (fun c h => by cases h; exact rules_F23_Partition_F23_PartData.weaken fun _ h => h.mono Version.F28 (by decide))
    (all_cons (fun c h => by cases h; exact rules_F29_Partition_F29_PartData.weaken fun _ h => h.mono Version.F34 (by decide))
    (all_cons (fun c h => by cases h; exact rules_F29_Partition_F29_PartData.weaken fun _ h => h.mono Version.F34 (by decide))
    (all_cons (fun c h => by cases h; exact rules_F29_Partition_F29_PartData.weaken fun _ h => h.mono Version.F34 (by decide))
    (all_cons (fun c h => by cases h; exact rules_F29_Partition_F29_PartData.weaken fun _ h => h.mono Version.F34 (by decide))
    (all_cons (fun c h => by cases h; exact rules_F29_Partition_F29_PartData.weaken fun _ h => h.mono Version.F34 (by decide))
    (all_cons (fun c h => by cases h; exact rules_F34_Partition_F29_PartData.weaken fun _ h => h.mono Version.F34 (by decide))
    (all_cons (fun c h => by cases h; exact rules_FC4_Partition_FC4_PartData.weaken fun _ h => h.mono Version.FC3 (by decide))
    (all_cons (fun c h => by cases h; exact rules_FC4_Partition_FC4_PartData.weaken fun _ h => h.mono Version.FC3 (by decide))
    (all_cons (fun c h => by cases h; exact rules_F9_Partition_F9_PartData.weaken fun _ h => h.mono Version.FC3 (by decide))
    (all_cons (fun c h => by cases h; exact rules_FC3_Partition_FC3_PartData.weaken fun _ h => h.mono Version.FC3 (by decide))
    (all_cons (fun c h => by cases h; exact rules_FC4_Partition_FC4_PartData.weaken fun _ h => h.mono Version.FC3 (by decide))
    (all_cons (fun c h => by cases h; exact rules_FC4_Partition_FC4_PartData.weaken fun _ h => h.mono Version.FC3 (by decide))
    (all_cons (fun c h => by cases h; exact rules_FC4_Partition_FC4_PartData.weaken fun _ h => h.mono Version.FC3 (by decide))
    (all_cons (fun c h => by cases h; exact rules_FC3_Partition_FC3_PartData.weaken fun _ h => h.mono Version.FC3 (by decide))
    (all_cons (fun c h => by cases h; exact rules_FC3_Partition_FC3_PartData.weaken fun _ h => h.mono Version.FC3 (by decide))
    (all_cons (fun c h => by cases h; exact rules_RHEL5_Partition_RHEL5_PartData.weaken fun _ h => h.mono Version.FC3 (by decide))
    (all_cons (fun c h => by cases h; exact rules_RHEL6_Partition_RHEL6_PartData.weaken fun _ h => h.mono Version.RHEL6 (by decide))
    (all_cons (fun c h => by cases h; exact rules_RHEL7_Partition_RHEL7_PartData.weaken fun _ h => h.mono Version.F28 (by decide))
    (all_cons (fun c h => by cases h; exact rules_RHEL8_Partition_RHEL8_PartData.weaken fun _ h => h.mono Version.RHEL8 (by decide)) (List.forall_mem_nil _)))))))))))))))))))))))))))))))))))))))

theorem commandMaps_partition : ∀ y ∈ commandMaps, ∀ c, y.2.lookup c!"partition" = some c → Command.Data c (PartRules y.1) := by
  unfold commandMaps
  exact (all_cons (fun c h => by cases h; exact rules_F9_Partition_F9_PartData.weaken fun _ h => h.mono Version.FC3 (by decide))
    (all_cons (fun c h => by cases h; exact rules_F11_Partition_F11_PartData.weaken fun _ h => h.mono Version.FC3 (by decide))
    (all_cons (fun c h => by cases h; exact rules_F12_Partition_F12_PartData.weaken fun _ h => h.mono Version.FC3 (by decide))
    (all_cons (fun c h => by cases h; exact rules_F12_Partition_F12_PartData.weaken fun _ h => h.mono Version.FC3 (by decide))
    (all_cons (fun c h => by cases h; exact rules_F14_Partition_F14_PartData.weaken fun _ h => h.mono Version.FC3 (by decide))
    (all_cons (fun c h => by cases h; exact rules_F14_Partition_F14_PartData.weaken fun _ h => h.mono Version.FC3 (by decide))
    (all_cons (fun c h => by cases h; exact rules_F14_Partition_F17_PartData.weaken fun _ h => h.mono Version.FC3 (by decide))
    (all_cons (fun c h => by cases h; exact rules_F17_Partition_F17_PartData.weaken fun _ h => h.mono Version.F17 (by decide))
    (all_cons (fun c h => by cases h; exact rules_F18_Partition_F18_PartData.weaken fun _ h => h.mono Version.F17 (by decide))
    (all_cons (fun c h => by cases h; exact rules_F18_Partition_F18_PartData.weaken fun _ h => h.mono Version.F17 (by decide))
    (all_cons (fun c h => by cases h; exact rules_F20_Partition_F18_PartData.weaken fun _ h => h.mono Version.F22 (by decide))
    (all_cons (fun c h => by cases h; exact rules_F20_Partition_F18_PartData.weaken fun _ h => h.mono Version.F22 (by decide))
    (all_cons (fun c h => by cases h; exact rules_F20_Partition_F18_PartData.weaken fun _ h => h.mono Version.F22 (by decide))
    (all_cons (fun c h => by cases h; exact rules_F23_Partition_F23_PartData.weaken fun _ h => h.mono Version.F28 (by decide))
    (all_cons (fun c h => by cases h; exact rules_F23_Partition_F23_PartData.weaken fun _ h => h.mono Version.F28 (by decide))
    (all_cons (fun c h => by cases h; exact rules_F23_Partition_F23_PartData.weaken fun _ h => h.mono Version.F28 (by decide))
    (all_cons (fun c h => by cases h; exact rules_F23_Partition_F23_PartData.weaken fun _ h => h.mono Version.F28 (by decide))
    (all_cons (fun c h => by cases h; exact rules_F23_Partition_F23_PartData.weaken fun _ h => h.mono Version.F28 (by decide))
    (all_cons (fun c h => by cases h; exact rules_F23_Partition_F23_PartData.weaken fun _ h => h.mono Version.F28 (by decide))
    (all_cons (fun c h => by cases h; exact rules_F29_Partition_F29_PartData.weaken fun _ h => h.mono Version.F34 (by decide))
    (all_cons (fun c h => by cases h; exact rules_F29_Partition_F29_PartData.weaken fun _ h => h.mono Version.F34 (by decide))
    (all_cons (fun c h => by cases h; exact rules_F29_Partition_F29_PartData.weaken fun _ h => h.mono Version.F34 (by decide))
    (all_cons (fun c h => by cases h; exact rules_F29_Partition_F29_PartData.weaken fun _ h => h.mono Version.F34 (by decide))
    (all_cons (fun c h => by cases h; exact rules_F29_Partition_F29_PartData.weaken fun _ h => h.mono Version.F34 (by decide))
    (all_cons (fun c h => by cases h; exact rules_F34_Partition_F29_PartData.weaken fun _ h => h.mono Version.F34 (by decide))
    (all_cons (fun c h => by cases h; exact rules_FC4_Partition_FC4_PartData.weaken fun _ h => h.mono Version.FC3 (by decide))
    (all_cons (fun c h => by cases h; exact rules_FC4_Partition_FC4_PartData.weaken fun _ h => h.mono Version.FC3 (by decide))
    (all_cons (fun c h => by cases h; exact rules_F9_Partition_F9_PartData.weaken fun _ h => h.mono Version.FC3 (by decide))
    (all_cons (fun c h => by cases h; exact rules_FC3_Partition_FC3_PartData.weaken fun _ h => h.mono Version.FC3 (by decide))
    (all_cons (fun c h => by cases h; exact rules_FC4_Partition_FC4_PartData.weaken fun _ h => h.mono Version.FC3 (by decide))
    (all_cons (fun c h => by cases h; exact rules_FC4_Partition_FC4_PartData.weaken fun _ h => h.mono Version.FC3 (by decide))
    (all_cons (fun c h => by cases h; exact rules_FC4_Partition_FC4_PartData.weaken fun _ h => h.mono Version.FC3 (by decide))
    (all_cons (fun c h => by cases h; exact rules_FC3_Partition_FC3_PartData.weaken fun _ h => h.mono Version.FC3 (by decide))
    (all_cons (fun c h => by cases h; exact rules_FC3_Partition_FC3_PartData.weaken fun _ h => h.mono Version.FC3 (by decide))
    (all_cons (fun c h => by cases h; exact rules_RHEL5_Partition_RHEL5_PartData.weaken fun _ h => h.mono Version.FC3 (by decide))
    (all_cons (fun c h => by cases h; exact rules_RHEL6_Partition_RHEL6_PartData.weaken fun _ h => h.mono Version.RHEL6 (by decide))
    (all_cons (fun c h => by cases h; exact rules_RHEL7_Partition_RHEL7_PartData.weaken fun _ h => h.mono Version.F28 (by decide))
    (all_cons (fun c h => by cases h; exact rules_RHEL8_Partition_RHEL8_PartData.weaken fun _ h => h.mono Version.RHEL8 (by decide)) (List.forall_mem_nil _)))))))))))))))))))))))))))))))))))))))

theorem rules_F9_Raid_F9_RaidData : Command.Data (F9_Raid.cls F9_RaidData.cls) (RaidRules Version.FC3) :=
  list_data fun args n => FC3_Raid.rules _ args n (by decide +kernel) (by decide +kernel) (by decide +kernel) (by decide +kernel) (by decide +kernel)

theorem rules_F12_Raid_F12_RaidData : Command.Data (F12_Raid.cls F12_RaidData.cls) (RaidRules Version.FC3) :=
  list_data fun args n => FC3_Raid.rules _ args n (by decide +kernel) (by decide +kernel) (by decide +kernel) (by decide +kernel) (by decide +kernel)

theorem rules_F13_Raid_F13_RaidData : Command.Data (F13_Raid.cls F13_RaidData.cls) (RaidRules Version.FC3) :=
  list_data fun args n => FC3_Raid.rules _ args n (by decide +kernel) (by decide +kernel) (by decide +kernel) (by decide +kernel) (by decide +kernel)

theorem rules_F14_Raid_F14_RaidData : Command.Data (F14_Raid.cls F14_RaidData.cls) (RaidRules Version.FC3) :=
  list_data fun args n => FC3_Raid.rules _ args n (by decide +kernel) (by decide +kernel) (by decide +kernel) (by decide +kernel) (by decide +kernel)

theorem rules_F15_Raid_F15_RaidData : Command.Data (F15_Raid.cls F15_RaidData.cls) (RaidRules Version.FC3) :=
  list_data fun args n => FC3_Raid.rules _ args n (by decide +kernel) (by decide +kernel) (by decide +kernel) (by decide +kernel) (by decide +kernel)

theorem rules_F18_Raid_F18_RaidData : Command.Data (F18_Raid.cls F18_RaidData.cls) (RaidRules Version.FC3) :=
  list_data fun args n => FC3_Raid.rules _ args n (by decide +kernel) (by decide +kernel) (by decide +kernel) (by decide +kernel) (by decide +kernel)

theorem rules_F19_Raid_F18_RaidData : Command.Data (F19_Raid.cls F18_RaidData.cls) (RaidRules Version.FC3) :=
  list_data fun args n => FC3_Raid.rules _ args n (by decide +kernel) (by decide +kernel) (by decide +kernel) (by decide +kernel) (by decide +kernel)

theorem rules_F20_Raid_F18_RaidData : Command.Data (F20_Raid.cls F18_RaidData.cls) (RaidRules Version.F22) :=
  list_data fun args n => F20_Raid.rules _ args n (by decide +kernel) (by decide +kernel) (by decide +kernel) (by decide +kernel) (by decide +kernel)

theorem rules_F23_Raid_F23_RaidData : Command.Data (F23_Raid.cls F23_RaidData.cls) (RaidRules Version.F28) :=
  list_data fun args n => F23_Raid.rules _ args n (by decide +kernel) (by decide +kernel) (by decide +kernel) (by decide +kernel) (by decide +kernel)

theorem rules_F25_Raid_F25_RaidData : Command.Data (F25_Raid.cls F25_RaidData.cls) (RaidRules Version.F28) :=
  list_data fun args n => F23_Raid.rules _ args n (by decide +kernel) (by decide +kernel) (by decide +kernel) (by decide +kernel) (by decide +kernel)

theorem rules_F29_Raid_F29_RaidData : Command.Data (F29_Raid.cls F29_RaidData.cls) (RaidRules Version.F34) :=
  list_data fun args n => F29_Raid.rules _ args n (by decide +kernel) (by decide +kernel) (by decide +kernel) (by decide +kernel) (by decide +kernel)

theorem rules_F7_Raid_F7_RaidData : Command.Data (F7_Raid.cls F7_RaidData.cls) (RaidRules Version.FC3) :=
  list_data fun args n => FC3_Raid.rules _ args n (by decide +kernel) (by decide +kernel) (by decide +kernel) (by decide +kernel) (by decide +kernel)

theorem rules_FC3_Raid_FC3_RaidData : Command.Data (FC3_Raid.cls FC3_RaidData.cls) (RaidRules Version.FC3) :=
  list_data fun args n => FC3_Raid.rules _ args n (by decide +kernel) (by decide +kernel) (by decide +kernel) (by decide +kernel) (by decide +kernel)

theorem rules_FC4_Raid_FC4_RaidData : Command.Data (FC4_Raid.cls FC4_RaidData.cls) (RaidRules Version.FC3) :=
  list_data fun args n => FC3_Raid.rules _ args n (by decide +kernel) (by decide +kernel) (by decide +kernel) (by decide +kernel) (by decide +kernel)

theorem rules_FC5_Raid_FC5_RaidData : Command.Data (FC5_Raid.cls FC5_RaidData.cls) (RaidRules Version.FC3) :=
  list_data fun args n => FC3_Raid.rules _ args n (by decide +kernel) (by decide +kernel) (by decide +kernel) (by decide +kernel) (by decide +kernel)

theorem rules_RHEL5_Raid_RHEL5_RaidData : Command.Data (RHEL5_Raid.cls RHEL5_RaidData.cls) (RaidRules Version.FC3) :=
  list_data fun args n => FC3_Raid.rules _ args n (by decide +kernel) (by decide +kernel) (by decide +kernel) (by decide +kernel) (by decide +kernel)

theorem rules_RHEL6_Raid_RHEL6_RaidData : Command.Data (RHEL6_Raid.cls RHEL6_RaidData.cls) (RaidRules Version.RHEL6) :=
  list_data fun args n => RHEL6_Raid.rules _ args n (by decide +kernel) (by decide +kernel) (by decide +kernel) (by decide +kernel) (by decide +kernel)

theorem rules_RHEL7_Raid_RHEL7_RaidData : Command.Data (RHEL7_Raid.cls RHEL7_RaidData.cls) (RaidRules Version.F28) :=
  list_data fun args n => F23_Raid.rules _ args n (by decide +kernel) (by decide +kernel) (by decide +kernel) (by decide +kernel) (by decide +kernel)

theorem rules_RHEL8_Raid_RHEL8_RaidData : Command.Data (RHEL8_Raid.cls RHEL8_RaidData.cls) (RaidRules Version.RHEL8) :=
  list_data fun args n => RHEL8_Raid.rules _ args n (by decide +kernel) (by decide +kernel) (by decide +kernel) (by decide +kernel) (by decide +kernel)

theorem commandMaps_raid : ∀ y ∈ commandMaps, ∀ c, y.2.lookup c!"raid" = some c → Command.Data c (RaidRules y.1) := by
  unfold commandMaps
  exact (all_cons (fun c h => by cases h; exact rules_F9_Raid_F9_RaidData.weaken fun _ h => h.mono Version.FC3 (by decide))
    (all_cons (fun c h => by cases h; exact rules_F9_Raid_F9_RaidData.weaken fun _ h => h.mono Version.FC3 (by decide))
    (all_cons (fun c h => by cases h; exact rules_F12_Raid_F12_RaidData.weaken fun _ h => h.mono Version.FC3 (by decide))
    (all_cons (fun c h => by cases h; exact rules_F13_Raid_F13_RaidData.weaken fun _ h => h.mono Version.FC3 (by decide))
    (all_cons (fun c h => by cases h; exact rules_F14_Raid_F14_RaidData.weaken fun _ h => h.mono Version.FC3 (by decide))
    (all_cons (fun c h => by cases h; exact rules_F15_Raid_F15_RaidData.weaken fun _ h => h.mono Version.FC3 (by decide))
    (all_cons (fun c h => by cases h; exact rules_F15_Raid_F15_RaidData.weaken fun _ h => h.mono Version.FC3 (by decide))
    (all_cons (fun c h => by cases h; exact rules_F15_Raid_F15_RaidData.weaken fun _ h => h.mono Version.FC3 (by decide))
    (all_cons (fun c h => by cases h; exact rules_F18_Raid_F18_RaidData.weaken fun _ h => h.mono Version.FC3 (by decide))
    (all_cons (fun c h => by cases h; exact rules_F19_Raid_F18_RaidData.weaken fun _ h => h.mono Version.FC3 (by decide))
    (all_cons (fun c h => by cases h; exact rules_F20_Raid_F18_RaidData.weaken fun _ h => h.mono Version.F22 (by decide))
    (all_cons (fun c h => by cases h; exact rules_F20_Raid_F18_RaidData.weaken fun _ h => h.mono Version.F22 (by decide))
    (all_cons (fun c h => by cases h; exact rules_F20_Raid_F18_RaidData.weaken fun _ h => h.mono Version.F22 (by decide))
    (all_cons (fun c h => by cases h; exact rules_F23_Raid_F23_RaidData.weaken fun _ h => h.mono Version.F28 (by decide))
    (all_cons (fun c h => by cases h; exact rules_F23_Raid_F23_RaidData.weaken fun _ h => h.mono Version.F28 (by decide))
    (all_cons (fun c h => by cases h; exact rules_F25_Raid_F25_RaidData.weaken fun _ h => h.mono Version.F28 (by decide))
    (all_cons (fun c h => by cases h; exact rules_F25_Raid_F25_RaidData.weaken fun _ h => h.mono Version.F28 (by decide))
    (all_cons (fun c h => by cases h; exact rules_F25_Raid_F25_RaidData.weaken fun _ h => h.mono Version.F28 (by decide))
    (all_cons (fun c h => by cases h; exact rules_F25_Raid_F25_RaidData.weaken fun _ h => h.mono Version.F28 (by decide))
    (all_cons (fun c h => by cases h; exact rules_F29_Raid_F29_RaidData.weaken fun _ h => h.mono Version.F34 (by decide))
    (all_cons (fun c h => by cases h; exact rules_F29_Raid_F29_RaidData.weaken fun _ h => h.mono Version.F34 (by decide))
    (all_cons (fun c h => by cases h; exact rules_F29_Raid_F29_RaidData.weaken fun _ h => h.mono Version.F34 (by decide))
    (all_cons (fun c h => by cases h; exact rules_F29_Raid_F29_RaidData.weaken fun _ h => h.mono Version.F34 (by decide))
    (all_cons (fun c h => by cases h; exact rules_F29_Raid_F29_RaidData.weaken fun _ h => h.mono Version.F34 (by decide))
    (all_cons (fun c h => by cases h; exact rules_F29_Raid_F29_RaidData.weaken fun _ h => h.mono Version.F34 (by decide))
    (all_cons (fun c h => by cases h; exact rules_F7_Raid_F7_RaidData.weaken fun _ h => h.mono Version.FC3 (by decide))
    (all_cons (fun c h => by cases h; exact rules_F7_Raid_F7_RaidData.weaken fun _ h => h.mono Version.FC3 (by decide))
    (all_cons (fun c h => by cases h; exact rules_F9_Raid_F9_RaidData.weaken fun _ h => h.mono Version.FC3 (by decide))
    (all_cons (fun c h => by cases h; exact rules_FC3_Raid_FC3_RaidData.weaken fun _ h => h.mono Version.FC3 (by decide))
    (all_cons (fun c h => by cases h; exact rules_FC4_Raid_FC4_RaidData.weaken fun _ h => h.mono Version.FC3 (by decide))
    (all_cons (fun c h => by cases h; exact rules_FC5_Raid_FC5_RaidData.weaken fun _ h => h.mono Version.FC3 (by decide))
    (all_cons (fun c h => by cases h; exact rules_FC5_Raid_FC5_RaidData.weaken fun _ h => h.mono Version.FC3 (by decide))
    (all_cons (fun c h => by cases h; exact rules_FC3_Raid_FC3_RaidData.weaken fun _ h => h.mono Version.FC3 (by decide))
    (all_cons (fun c h => by cases h; exact rules_FC3_Raid_FC3_RaidData.weaken fun _ h => h.mono Version.FC3 (by decide))
    (all_cons (fun c h => by cases h; exact rules_RHEL5_Raid_RHEL5_RaidData.weaken fun _ h => h.mono Version.FC3 (by decide))
    (all_cons (fun c h => by cases h; exact rules_RHEL6_Raid_RHEL6_RaidData.weaken fun _ h => h.mono Version.RHEL6 (by decide))
    (all_cons (fun c h => by cases h; exact rules_RHEL7_Raid_RHEL7_RaidData.weaken fun _ h => h.mono Version.F28 (by decide))
    (all_cons (fun c h => by cases h; exact rules_RHEL8_Raid_RHEL8_RaidData.weaken fun _ h => h.mono Version.RHEL8 (by decide)) (List.forall_mem_nil _)))))))))))))))))))))))))))))))))))))))

theorem rules_FC3_VolGroup_FC3_VolGroupData : Command.Data (FC3_VolGroup.cls FC3_VolGroupData.cls) (VolgroupRules Version.FC3) :=
  list_data fun args n => FC3_VolGroup.rules _ args n (by decide +kernel) (by decide +kernel) (by decide +kernel) (by decide +kernel)

theorem rules_F16_VolGroup_F16_VolGroupData : Command.Data (F16_VolGroup.cls F16_VolGroupData.cls) (VolgroupRules Version.F34) :=
  list_data fun args n => F16_VolGroup.rules _ args n (by decide +kernel) (by decide +kernel) (by decide +kernel) (by decide +kernel)

theorem rules_F21_VolGroup_F21_VolGroupData : Command.Data (F21_VolGroup.cls F21_VolGroupData.cls) (VolgroupRules Version.F34) :=
  list_data fun args n => F16_VolGroup.rules _ args n (by decide +kernel) (by decide +kernel) (by decide +kernel) (by decide +kernel)

theorem rules_RHEL7_VolGroup_RHEL7_VolGroupData : Command.Data (RHEL7_VolGroup.cls RHEL7_VolGroupData.cls) (VolgroupRules Version.F34) :=
  list_data fun args n => F16_VolGroup.rules _ args n (by decide +kernel) (by decide +kernel) (by decide +kernel) (by decide +kernel)

theorem rules_RHEL8_VolGroup_RHEL8_VolGroupData : Command.Data (RHEL8_VolGroup.cls RHEL8_VolGroupData.cls) (VolgroupRules Version.F34) :=
  list_data fun args n => F16_VolGroup.rules _ args n (by decide +kernel) (by decide +kernel) (by decide +kernel) (by decide +kernel)

theorem commandMaps_volgroup : ∀ y ∈ commandMaps, ∀ c, y.2.lookup c!"volgroup" = some c → Command.Data c (VolgroupRules y.1) := by
  unfold commandMaps
  exact (all_cons (fun c h => by cases h; exact rules_FC3_VolGroup_FC3_VolGroupData.weaken fun _ h => h.mono Version.FC3 (by decide))
    (all_cons (fun c h => by cases h; exact rules_FC3_VolGroup_FC3_VolGroupData.weaken fun _ h => h.mono Version.FC3 (by decide))
    (all_cons (fun c h => by cases h; exact rules_FC3_VolGroup_FC3_VolGroupData.weaken fun _ h => h.mono Version.FC3 (by decide))
    (all_cons (fun c h => by cases h; exact rules_FC3_VolGroup_FC3_VolGroupData.weaken fun _ h => h.mono Version.FC3 (by decide))
    (all_cons (fun c h => by cases h; exact rules_FC3_VolGroup_FC3_VolGroupData.weaken fun _ h => h.mono Version.FC3 (by decide))
    (all_cons (fun c h => by cases h; exact rules_FC3_VolGroup_FC3_VolGroupData.weaken fun _ h => h.mono Version.FC3 (by decide))
    (all_cons (fun c h => by cases h; exact rules_F16_VolGroup_F16_VolGroupData.weaken fun _ h => h.mono Version.F34 (by decide))
    (all_cons (fun c h => by cases h; exact rules_F16_VolGroup_F16_VolGroupData.weaken fun _ h => h.mono Version.F34 (by decide))
    (all_cons (fun c h => by cases h; exact rules_F16_VolGroup_F16_VolGroupData.weaken fun _ h => h.mono Version.F34 (by decide))
    (all_cons (fun c h => by cases h; exact rules_F16_VolGroup_F16_VolGroupData.weaken fun _ h => h.mono Version.F34 (by decide))
    (all_cons (fun c h => by cases h; exact rules_F16_VolGroup_F16_VolGroupData.weaken fun _ h => h.mono Version.F34 (by decide))
    (all_cons (fun c h => by cases h; exact rules_F21_VolGroup_F21_VolGroupData.weaken fun _ h => h.mono Version.F34 (by decide))
    (all_cons (fun c h => by cases h; exact rules_F21_VolGroup_F21_VolGroupData.weaken fun _ h => h.mono Version.F34 (by decide))
    (all_cons (fun c h => by cases h; exact rules_F21_VolGroup_F21_VolGroupData.weaken fun _ h => h.mono Version.F34 (by decide))
    (all_cons (fun c h => by cases h; exact rules_F21_VolGroup_F21_VolGroupData.weaken fun _ h => h.mono Version.F34 (by decide))
    (all_cons (fun c h => by cases h; exact rules_F21_VolGroup_F21_VolGroupData.weaken fun _ h => h.mono Version.F34 (by decide))
    (all_cons (fun c h => by cases h; exact rules_F21_VolGroup_F21_VolGroupData.weaken fun _ h => h.mono Version.F34 (by decide))
    (all_cons (fun c h => by cases h; exact rules_F21_VolGroup_F21_VolGroupData.weaken fun _ h => h.mono Version.F34 (by decide))
    (all_cons (fun c h => by cases h; exact rules_F21_VolGroup_F21_VolGroupData.weaken fun _ h => h.mono Version.F34 (by decide))
    (all_cons (fun c h => by cases h; exact rules_F21_VolGroup_F21_VolGroupData.weaken fun _ h => h.mono Version.F34 (by decide))
    (all_cons (fun c h => by cases h; exact rules_F21_VolGroup_F21_VolGroupData.weaken fun _ h => h.mono Version.F34 (by decide))
    (all_cons (fun c h => by cases h; exact rules_F21_VolGroup_F21_VolGroupData.weaken fun _ h => h.mono Version.F34 (by decide))
    (all_cons (fun c h => by cases h; exact rules_F21_VolGroup_F21_VolGroupData.weaken fun _ h => h.mono Version.F34 (by decide))
    (all_cons (fun c h => by cases h; exact rules_F21_VolGroup_F21_VolGroupData.weaken fun _ h => h.mono Version.F34 (by decide))
    (all_cons (fun c h => by cases h; exact rules_F21_VolGroup_F21_VolGroupData.weaken fun _ h => h.mono Version.F34 (by decide))
    (all_cons (fun c h => by cases h; exact rules_FC3_VolGroup_FC3_VolGroupData.weaken fun _ h => h.mono Version.FC3 (by decide))
    (all_cons (fun c h => by cases h; exact rules_FC3_VolGroup_FC3_VolGroupData.weaken fun _ h => h.mono Version.FC3 (by decide))
    (all_cons (fun c h => by cases h; exact rules_FC3_VolGroup_FC3_VolGroupData.weaken fun _ h => h.mono Version.FC3 (by decide))
    (all_cons (fun c h => by cases h; exact rules_FC3_VolGroup_FC3_VolGroupData.weaken fun _ h => h.mono Version.FC3 (by decide))
    (all_cons (fun c h => by cases h; exact rules_FC3_VolGroup_FC3_VolGroupData.weaken fun _ h => h.mono Version.FC3 (by decide))
    (all_cons (fun c h => by cases h; exact rules_FC3_VolGroup_FC3_VolGroupData.weaken fun _ h => h.mono Version.FC3 (by decide))
    (all_cons (fun c h => by cases h; exact rules_FC3_VolGroup_FC3_VolGroupData.weaken fun _ h => h.mono Version.FC3 (by decide))
    (all_cons (fun c h => by cases h; exact rules_FC3_VolGroup_FC3_VolGroupData.weaken fun _ h => h.mono Version.FC3 (by decide))
    (all_cons (fun c h => by cases h; exact rules_FC3_VolGroup_FC3_VolGroupData.weaken fun _ h => h.mono Version.FC3 (by decide))
    (all_cons (fun c h => by cases h; exact rules_FC3_VolGroup_FC3_VolGroupData.weaken fun _ h => h.mono Version.FC3 (by decide))
    (all_cons (fun c h => by cases h; exact rules_F16_VolGroup_F16_VolGroupData.weaken fun _ h => h.mono Version.F34 (by decide))
    (all_cons (fun c h => by cases h; exact rules_RHEL7_VolGroup_RHEL7_VolGroupData.weaken fun _ h => h.mono Version.F34 (by decide))
    (all_cons (fun c h => by cases h; exact rules_RHEL8_VolGroup_RHEL8_VolGroupData.weaken fun _ h => h.mono Version.F34 (by decide)) (List.forall_mem_nil _)))))))))))))))))))))))))))))))))))))))

theorem rules_F27_Mount_F27_MountData : Command.Data (F27_Mount.cls F27_MountData.cls) (MountRules) :=
  list_data fun args n => F27_Mount.rules _ args n

theorem commandMaps_mount : ∀ y ∈ commandMaps, ∀ c, y.2.lookup c!"mount" = some c → Command.Data c MountRules := by
  unfold commandMaps
  exact (all_cons (fun c h => by cases h)
    (all_cons (fun c h => by cases h)
    (all_cons (fun c h => by cases h)
    (all_cons (fun c h => by cases h)
    (all_cons (fun c h => by cases h)
    (all_cons (fun c h => by cases h)
    (all_cons (fun c h => by cases h)
    (all_cons (fun c h => by cases h)
    (all_cons (fun c h => by cases h)
    (all_cons (fun c h => by cases h)
    (all_cons (fun c h => by cases h)
    (all_cons (fun c h => by cases h)
    (all_cons (fun c h => by cases h)
    (all_cons (fun c h => by cases h)
    (all_cons (fun c h => by cases h)
    (all_cons (fun c h => by cases h)
    (all_cons (fun c h => by cases h)
    (all_cons (fun c h => by cases h; exact rules_F27_Mount_F27_MountData)
    (all_cons (fun c h => by cases h; exact rules_F27_Mount_F27_MountData)
    (all_cons (fun c h => by cases h; exact rules_F27_Mount_F27_MountData)
    (all_cons (fun c h => by cases h; exact rules_F27_Mount_F27_MountData)
    (all_cons (fun c h => by cases h; exact rules_F27_Mount_F27_MountData)
    (all_cons (fun c h => by cases h; exact rules_F27_Mount_F27_MountData)
    (all_cons (fun c h => by cases h; exact rules_F27_Mount_F27_MountData)
    (all_cons (fun c h => by cases h; exact rules_F27_Mount_F27_MountData)
    (all_cons (fun c h => by cases h)
    (all_cons (fun c h => by cases h)
    (all_cons (fun c h => by cases h)
    (all_cons (fun c h => by cases h)
    (all_cons (fun c h => by cases h)
    (all_cons (fun c h => by cases h)
    (all_cons (fun c h => by cases h)
    (all_cons (fun c h => by cases h)
    (all_cons (fun c h => by cases h)
    (all_cons (fun c h => by cases h)
    (all_cons (fun c h => by cases h)
    (all_cons (fun c h => by cases h)
    (all_cons (fun c h => by cases h; exact rules_F27_Mount_F27_MountData) (List.forall_mem_nil _)))))))))))))))))))))))))))))))))))))))

theorem rules_F28_Nvdimm_F28_NvdimmData : Command.Data (F28_Nvdimm.cls F28_NvdimmData.cls) (NvdimmRules) :=
  list_data fun args n => F28_Nvdimm.rules _ args n

theorem commandMaps_nvdimm : ∀ y ∈ commandMaps, ∀ c, y.2.lookup c!"nvdimm" = some c → Command.Data c NvdimmRules := by
  unfold commandMaps
  exact (all_cons (fun c h => by cases h)
    (all_cons (fun c h => by cases h)
    (all_cons (fun c h => by cases h)
    (all_cons (fun c h => by cases h)
    (all_cons (fun c h => by cases h)
    (all_cons (fun c h => by cases h)
    (all_cons (fun c h => by cases h)
    (all_cons (fun c h => by cases h)
    (all_cons (fun c h => by cases h)
    (all_cons (fun c h => by cases h)
    (all_cons (fun c h => by cases h)
    (all_cons (fun c h => by cases h)
    (all_cons (fun c h => by cases h)
    (all_cons (fun c h => by cases h)
    (all_cons (fun c h => by cases h)
    (all_cons (fun c h => by cases h)
    (all_cons (fun c h => by cases h)
    (all_cons (fun c h => by cases h)
    (all_cons (fun c h => by cases h; exact rules_F28_Nvdimm_F28_NvdimmData)
    (all_cons (fun c h => by cases h; exact rules_F28_Nvdimm_F28_NvdimmData)
    (all_cons (fun c h => by cases h; exact rules_F28_Nvdimm_F28_NvdimmData)
    (all_cons (fun c h => by cases h; exact rules_F28_Nvdimm_F28_NvdimmData)
    (all_cons (fun c h => by cases h; exact rules_F28_Nvdimm_F28_NvdimmData)
    (all_cons (fun c h => by cases h; exact rules_F28_Nvdimm_F28_NvdimmData)
    (all_cons (fun c h => by cases h; exact rules_F28_Nvdimm_F28_NvdimmData)
    (all_cons (fun c h => by cases h)
    (all_cons (fun c h => by cases h)
    (all_cons (fun c h => by cases h)
    (all_cons (fun c h => by cases h)
    (all_cons (fun c h => by cases h)
    (all_cons (fun c h => by cases h)
    (all_cons (fun c h => by cases h)
    (all_cons (fun c h => by cases h)
    (all_cons (fun c h => by cases h)
    (all_cons (fun c h => by cases h)
    (all_cons (fun c h => by cases h)
    (all_cons (fun c h => by cases h; exact rules_F28_Nvdimm_F28_NvdimmData)
    (all_cons (fun c h => by cases h; exact rules_F28_Nvdimm_F28_NvdimmData) (List.forall_mem_nil _)))))))))))))))))))))))))))))))))))))))

theorem rules_F17_BTRFS_F17_BTRFSData : Command.Data (F17_BTRFS.cls F17_BTRFSData.cls) (BtrfsRules Version.F22) :=
  list_data fun args n => F17_BTRFS.rules _ args n

theorem rules_F23_BTRFS_F23_BTRFSData : Command.Data (F23_BTRFS.cls F23_BTRFSData.cls) (BtrfsRules Version.F34) :=
  list_data fun args n => F23_BTRFS.rules _ args n

theorem rules_RHEL7_BTRFS_RHEL7_BTRFSData : Command.Data (RHEL7_BTRFS.cls RHEL7_BTRFSData.cls) (BtrfsRules Version.F34) :=
  list_data fun args n => F23_BTRFS.rules _ args n

theorem commandMaps_btrfs : ∀ y ∈ commandMaps, ∀ c, y.2.lookup c!"btrfs" = some c → Command.Data c (BtrfsRules y.1) := by
  unfold commandMaps
  exact (all_cons (fun c h => by cases h)
    (all_cons (fun c h => by cases h)
    (all_cons (fun c h => by cases h)
    (all_cons (fun c h => by cases h)
    (all_cons (fun c h => by cases h)
    (all_cons (fun c h => by cases h)
    (all_cons (fun c h => by cases h)
    (all_cons (fun c h => by cases h; exact rules_F17_BTRFS_F17_BTRFSData.weaken fun _ h => h.mono Version.F22 (by decide))
    (all_cons (fun c h => by cases h; exact rules_F17_BTRFS_F17_BTRFSData.weaken fun _ h => h.mono Version.F22 (by decide))
    (all_cons (fun c h => by cases h; exact rules_F17_BTRFS_F17_BTRFSData.weaken fun _ h => h.mono Version.F22 (by decide))
    (all_cons (fun c h => by cases h; exact rules_F17_BTRFS_F17_BTRFSData.weaken fun _ h => h.mono Version.F22 (by decide))
    (all_cons (fun c h => by cases h; exact rules_F17_BTRFS_F17_BTRFSData.weaken fun _ h => h.mono Version.F22 (by decide))
    (all_cons (fun c h => by cases h; exact rules_F17_BTRFS_F17_BTRFSData.weaken fun _ h => h.mono Version.F22 (by decide))
    (all_cons (fun c h => by cases h; exact rules_F23_BTRFS_F23_BTRFSData.weaken fun _ h => h.mono Version.F34 (by decide))
    (all_cons (fun c h => by cases h; exact rules_F23_BTRFS_F23_BTRFSData.weaken fun _ h => h.mono Version.F34 (by decide))
    (all_cons (fun c h => by cases h; exact rules_F23_BTRFS_F23_BTRFSData.weaken fun _ h => h.mono Version.F34 (by decide))
    (all_cons (fun c h => by cases h; exact rules_F23_BTRFS_F23_BTRFSData.weaken fun _ h => h.mono Version.F34 (by decide))
    (all_cons (fun c h => by cases h; exact rules_F23_BTRFS_F23_BTRFSData.weaken fun _ h => h.mono Version.F34 (by decide))
    (all_cons (fun c h => by cases h; exact rules_F23_BTRFS_F23_BTRFSData.weaken fun _ h => h.mono Version.F34 (by decide))
    (all_cons (fun c h => by cases h; exact rules_F23_BTRFS_F23_BTRFSData.weaken fun _ h => h.mono Version.F34 (by decide))
    (all_cons (fun c h => by cases h; exact rules_F23_BTRFS_F23_BTRFSData.weaken fun _ h => h.mono Version.F34 (by decide))
    (all_cons (fun c h => by cases h; exact rules_F23_BTRFS_F23_BTRFSData.weaken fun _ h => h.mono Version.F34 (by decide))
    (all_cons (fun c h => by cases h; exact rules_F23_BTRFS_F23_BTRFSData.weaken fun _ h => h.mono Version.F34 (by decide))
    (all_cons (fun c h => by cases h; exact rules_F23_BTRFS_F23_BTRFSData.weaken fun _ h => h.mono Version.F34 (by decide))
    (all_cons (fun c h => by cases h; exact rules_F23_BTRFS_F23_BTRFSData.weaken fun _ h => h.mono Version.F34 (by decide))
    (all_cons (fun c h => by cases h)
    (all_cons (fun c h => by cases h)
    (all_cons (fun c h => by cases h)
    (all_cons (fun c h => by cases h)
    (all_cons (fun c h => by cases h)
    (all_cons (fun c h => by cases h)
    (all_cons (fun c h => by cases h)
    (all_cons (fun c h => by cases h)
    (all_cons (fun c h => by cases h)
    (all_cons (fun c h => by cases h)
    (all_cons (fun c h => by cases h)
    (all_cons (fun c h => by cases h; exact rules_RHEL7_BTRFS_RHEL7_BTRFSData.weaken fun _ h => h.mono Version.F34 (by decide))
    (all_cons (fun c h => by cases h; exact deprecated_data) (List.forall_mem_nil _)))))))))))))))))))))))))))))))))))))))

theorem rules_F26_Snapshot_F26_SnapshotData : Command.Data (F26_Snapshot.cls F26_SnapshotData.cls) (SnapshotRules) :=
  list_data fun args n => F26_Snapshot.rules _ args n

theorem commandMaps_snapshot : ∀ y ∈ commandMaps, ∀ c, y.2.lookup c!"snapshot" = some c → Command.Data c SnapshotRules := by
  unfold commandMaps
  exact (all_cons (fun c h => by cases h)
    (all_cons (fun c h => by cases h)
    (all_cons (fun c h => by cases h)
    (all_cons (fun c h => by cases h)
    (all_cons (fun c h => by cases h)
    (all_cons (fun c h => by cases h)
    (all_cons (fun c h => by cases h)
    (all_cons (fun c h => by cases h)
    (all_cons (fun c h => by cases h)
    (all_cons (fun c h => by cases h)
    (all_cons (fun c h => by cases h)
    (all_cons (fun c h => by cases h)
    (all_cons (fun c h => by cases h)
    (all_cons (fun c h => by cases h)
    (all_cons (fun c h => by cases h)
    (all_cons (fun c h => by cases h)
    (all_cons (fun c h => by cases h; exact rules_F26_Snapshot_F26_SnapshotData)
    (all_cons (fun c h => by cases h; exact rules_F26_Snapshot_F26_SnapshotData)
    (all_cons (fun c h => by cases h; exact rules_F26_Snapshot_F26_SnapshotData)
    (all_cons (fun c h => by cases h; exact rules_F26_Snapshot_F26_SnapshotData)
    (all_cons (fun c h => by cases h; exact rules_F26_Snapshot_F26_SnapshotData)
    (all_cons (fun c h => by cases h; exact rules_F26_Snapshot_F26_SnapshotData)
    (all_cons (fun c h => by cases h; exact rules_F26_Snapshot_F26_SnapshotData)
    (all_cons (fun c h => by cases h; exact rules_F26_Snapshot_F26_SnapshotData)
    (all_cons (fun c h => by cases h; exact rules_F26_Snapshot_F26_SnapshotData)
    (all_cons (fun c h => by cases h)
    (all_cons (fun c h => by cases h)
    (all_cons (fun c h => by cases h)
    (all_cons (fun c h => by cases h)
    (all_cons (fun c h => by cases h)
    (all_cons (fun c h => by cases h)
    (all_cons (fun c h => by cases h)
    (all_cons (fun c h => by cases h)
    (all_cons (fun c h => by cases h)
    (all_cons (fun c h => by cases h)
    (all_cons (fun c h => by cases h)
    (all_cons (fun c h => by cases h; exact rules_F26_Snapshot_F26_SnapshotData)
    (all_cons (fun c h => by cases h; exact rules_F26_Snapshot_F26_SnapshotData) (List.forall_mem_nil _)))))))))))))))))))))))))))))))))))))))

theorem rules_F9_Network_F8_NetworkData : Command.Data (F9_Network.cls F8_NetworkData.cls) (NetworkRules Version.FC3) :=
  list_data fun args n => FC3_Network.rules _ args n

theorem rules_F16_Network_F16_NetworkData : Command.Data (F16_Network.cls F16_NetworkData.cls) (NetworkRules Version.FC3) :=
  list_data fun args n => FC3_Network.rules _ args n

theorem rules_F18_Network_F16_NetworkData : Command.Data (F18_Network.cls F16_NetworkData.cls) (NetworkRules Version.FC3) :=
  list_data fun args n => FC3_Network.rules _ args n

theorem rules_F19_Network_F19_NetworkData : Command.Data (F19_Network.cls F19_NetworkData.cls) (NetworkRules Version.FC3) :=
  list_data fun args n => FC3_Network.rules _ args n

theorem rules_F20_Network_F20_NetworkData : Command.Data (F20_Network.cls F20_NetworkData.cls) (NetworkRules Version.FC3) :=
  list_data fun args n => FC3_Network.rules _ args n

theorem rules_F21_Network_F21_NetworkData : Command.Data (F21_Network.cls F21_NetworkData.cls) (NetworkRules Version.FC3) :=
  list_data fun args n => FC3_Network.rules _ args n

theorem rules_F22_Network_F22_NetworkData : Command.Data (F22_Network.cls F22_NetworkData.cls) (NetworkRules Version.F23) :=
  list_data fun args n => F22_Network.rules _ args n

theorem rules_F24_Network_F22_NetworkData : Command.Data (F24_Network.cls F22_NetworkData.cls) (NetworkRules Version.F26) :=
  list_data fun args n => F24_Network.rules _ args n

theorem rules_F25_Network_F25_NetworkData : Command.Data (F25_Network.cls F25_NetworkData.cls) (NetworkRules Version.F26) :=
  list_data fun args n => F24_Network.rules _ args n

theorem rules_F27_Network_F27_NetworkData : Command.Data (F27_Network.cls F27_NetworkData.cls) (NetworkRules Version.F34) :=
  list_data fun args n => F27_Network.rules _ args n

theorem rules_FC6_Network_FC6_NetworkData : Command.Data (FC6_Network.cls FC6_NetworkData.cls) (NetworkRules Version.FC3) :=
  list_data fun args n => FC3_Network.rules _ args n

theorem rules_F8_Network_F8_NetworkData : Command.Data (F8_Network.cls F8_NetworkData.cls) (NetworkRules Version.FC3) :=
  list_data fun args n => FC3_Network.rules _ args n

theorem rules_FC3_Network_FC3_NetworkData : Command.Data (FC3_Network.cls FC3_NetworkData.cls) (NetworkRules Version.FC3) :=
  list_data fun args n => FC3_Network.rules _ args n

theorem rules_FC4_Network_FC4_NetworkData : Command.Data (FC4_Network.cls FC4_NetworkData.cls) (NetworkRules Version.FC3) :=
  list_data fun args n => FC3_Network.rules _ args n

theorem rules_FC3_Network_RHEL4_NetworkData : Command.Data (FC3_Network.cls RHEL4_NetworkData.cls) (NetworkRules Version.FC3) :=
  list_data fun args n => FC3_Network.rules _ args n

theorem rules_RHEL4_Network_RHEL4_NetworkData : Command.Data (RHEL4_Network.cls RHEL4_NetworkData.cls) (NetworkRules Version.FC3) :=
  list_data fun args n => FC3_Network.rules _ args n

theorem rules_RHEL5_Network_FC6_NetworkData : Command.Data (RHEL5_Network.cls FC6_NetworkData.cls) (NetworkRules Version.FC3) :=
  list_data fun args n => FC3_Network.rules _ args n

theorem rules_RHEL6_Network_RHEL6_NetworkData : Command.Data (RHEL6_Network.cls RHEL6_NetworkData.cls) (NetworkRules Version.FC3) :=
  list_data fun args n => FC3_Network.rules _ args n

theorem rules_RHEL7_Network_RHEL7_NetworkData : Command.Data (RHEL7_Network.cls RHEL7_NetworkData.cls) (NetworkRules Version.RHEL7) :=
  list_data fun args n => RHEL7_Network.rules _ args n

theorem commandMaps_network : ∀ y ∈ commandMaps, ∀ c, y.2.lookup c!"network" = some c → Command.Data c (NetworkRules y.1) := by
  unfold commandMaps
  exact (all_cons (fun c h => by cases h; exact rules_F9_Network_F8_NetworkData.weaken fun _ h => h.mono Version.FC3 (by decide))
    (all_cons (fun c h => by cases h; exact rules_F9_Network_F8_NetworkData.weaken fun _ h => h.mono Version.FC3 (by decide))
    (all_cons (fun c h => by cases h; exact rules_F9_Network_F8_NetworkData.weaken fun _ h => h.mono Version.FC3 (by decide))
    (all_cons (fun c h => by cases h; exact rules_F9_Network_F8_NetworkData.weaken fun _ h => h.mono Version.FC3 (by decide))
    (all_cons (fun c h => by cases h; exact rules_F9_Network_F8_NetworkData.weaken fun _ h => h.mono Version.FC3 (by decide))
    (all_cons (fun c h => by cases h; exact rules_F9_Network_F8_NetworkData.weaken fun _ h => h.mono Version.FC3 (by decide))
    (all_cons (fun c h => by cases h; exact rules_F16_Network_F16_NetworkData.weaken fun _ h => h.mono Version.FC3 (by decide))
    (all_cons (fun c h => by cases h; exact rules_F16_Network_F16_NetworkData.weaken fun _ h => h.mono Version.FC3 (by decide))
    (all_cons (fun c h => by cases h; exact rules_F18_Network_F16_NetworkData.weaken fun _ h => h.mono Version.FC3 (by decide))
    (all_cons (fun c h => by cases h; exact rules_F19_Network_F19_NetworkData.weaken fun _ h => h.mono Version.FC3 (by decide))
    (all_cons (fun c h => by cases h; exact rules_F20_Network_F20_NetworkData.weaken fun _ h => h.mono Version.FC3 (by decide))
    (all_cons (fun c h => by cases h; exact rules_F21_Network_F21_NetworkData.weaken fun _ h => h.mono Version.FC3 (by decide))
    (all_cons (fun c h => by cases h; exact rules_F22_Network_F22_NetworkData.weaken fun _ h => h.mono Version.F23 (by decide))
    (all_cons (fun c h => by cases h; exact rules_F22_Network_F22_NetworkData.weaken fun _ h => h.mono Version.F23 (by decide))
    (all_cons (fun c h => by cases h; exact rules_F24_Network_F22_NetworkData.weaken fun _ h => h.mono Version.F26 (by decide))
    (all_cons (fun c h => by cases h; exact rules_F25_Network_F25_NetworkData.weaken fun _ h => h.mono Version.F26 (by decide))
    (all_cons (fun c h => by cases h; exact rules_F25_Network_F25_NetworkData.weaken fun _ h => h.mono Version.F26 (by decide))
    (all_cons (fun c h => by cases h; exact rules_F27_Network_F27_NetworkData.weaken fun _ h => h.mono Version.F34 (by decide))
    (all_cons (fun c h => by cases h; exact rules_F27_Network_F27_NetworkData.weaken fun _ h => h.mono Version.F34 (by decide))
    (all_cons (fun c h => by cases h; exact rules_F27_Network_F27_NetworkData.weaken fun _ h => h.mono Version.F34 (by decide))
    (all_cons (fun c h => by cases h; exact rules_F27_Network_F27_NetworkData.weaken fun _ h => h.mono Version.F34 (by decide))
    (all_cons (fun c h => by cases h; exact rules_F27_Network_F27_NetworkData.weaken fun _ h => h.mono Version.F34 (by decide))
    (all_cons (fun c h => by cases h; exact rules_F27_Network_F27_NetworkData.weaken fun _ h => h.mono Version.F34 (by decide))
    (all_cons (fun c h => by cases h; exact rules_F27_Network_F27_NetworkData.weaken fun _ h => h.mono Version.F34 (by decide))
    (all_cons (fun c h => by cases h; exact rules_F27_Network_F27_NetworkData.weaken fun _ h => h.mono Version.F34 (by decide))
    (all_cons (fun c h => by cases h; exact rules_FC6_Network_FC6_NetworkData.weaken fun _ h => h.mono Version.FC3 (by decide))
    (all_cons (fun c h => by cases h; exact rules_F8_Network_F8_NetworkData.weaken fun _ h => h.mono Version.FC3 (by decide))
    (all_cons (fun c h => by cases h; exact rules_F9_Network_F8_NetworkData.weaken fun _ h => h.mono Version.FC3 (by decide))
    (all_cons (fun c h => by cases h; exact rules_FC3_Network_FC3_NetworkData.weaken fun _ h => h.mono Version.FC3 (by decide))
    (all_cons (fun c h => by cases h; exact rules_FC4_Network_FC4_NetworkData.weaken fun _ h => h.mono Version.FC3 (by decide))
    (all_cons (fun c h => by cases h; exact rules_FC4_Network_FC4_NetworkData.weaken fun _ h => h.mono Version.FC3 (by decide))
    (all_cons (fun c h => by cases h; exact rules_FC6_Network_FC6_NetworkData.weaken fun _ h => h.mono Version.FC3 (by decide))
    (all_cons (fun c h => by cases h; exact rules_FC3_Network_RHEL4_NetworkData.weaken fun _ h => h.mono Version.FC3 (by decide))
    (all_cons (fun c h => by cases h; exact rules_RHEL4_Network_RHEL4_NetworkData.weaken fun _ h => h.mono Version.FC3 (by decide))
    (all_cons (fun c h => by cases h; exact rules_RHEL5_Network_FC6_NetworkData.weaken fun _ h => h.mono Version.FC3 (by decide))
    (all_cons (fun c h => by cases h; exact rules_RHEL6_Network_RHEL6_NetworkData.weaken fun _ h => h.mono Version.FC3 (by decide))
    (all_cons (fun c h => by cases h; exact rules_RHEL7_Network_RHEL7_NetworkData.weaken fun _ h => h.mono Version.RHEL7 (by decide))
    (all_cons (fun c h => by cases h; exact rules_F27_Network_F27_NetworkData.weaken fun _ h => h.mono Version.F34 (by decide)) (List.forall_mem_nil _)))))))))))))))))))))))))))))))))))))))

theorem rules_repo_F10 : Command.Data (F8_Repo.cls F8_RepoData.cls) (RepoRules Version.F10) :=
  list_data fun args n => FC6_Repo.rules Version.F10 _ args n (by decide +kernel) (by decide +kernel) (by decide +kernel) (by decide +kernel) (by decide +kernel)

theorem rules_repo_F11 : Command.Data (F11_Repo.cls F11_RepoData.cls) (RepoRules Version.F11) :=
  list_data fun args n => FC6_Repo.rules Version.F11 _ args n (by decide +kernel) (by decide +kernel) (by decide +kernel) (by decide +kernel) (by decide +kernel)

theorem rules_repo_F12 : Command.Data (F11_Repo.cls F11_RepoData.cls) (RepoRules Version.F12) :=
  list_data fun args n => FC6_Repo.rules Version.F12 _ args n (by decide +kernel) (by decide +kernel) (by decide +kernel) (by decide +kernel) (by decide +kernel)

theorem rules_repo_F13 : Command.Data (F13_Repo.cls F13_RepoData.cls) (RepoRules Version.F13) :=
  list_data fun args n => FC6_Repo.rules Version.F13 _ args n (by decide +kernel) (by decide +kernel) (by decide +kernel) (by decide +kernel) (by decide +kernel)

theorem rules_repo_F14 : Command.Data (F14_Repo.cls F14_RepoData.cls) (RepoRules Version.F14) :=
  list_data fun args n => FC6_Repo.rules Version.F14 _ args n (by decide +kernel) (by decide +kernel) (by decide +kernel) (by decide +kernel) (by decide +kernel)

theorem rules_repo_F15 : Command.Data (F15_Repo.cls F15_RepoData.cls) (RepoRules Version.F15) :=
  list_data fun args n => FC6_Repo.rules Version.F15 _ args n (by decide +kernel) (by decide +kernel) (by decide +kernel) (by decide +kernel) (by decide +kernel)

theorem rules_repo_F16 : Command.Data (F15_Repo.cls F15_RepoData.cls) (RepoRules Version.F16) :=
  list_data fun args n => FC6_Repo.rules Version.F16 _ args n (by decide +kernel) (by decide +kernel) (by decide +kernel) (by decide +kernel) (by decide +kernel)

theorem rules_repo_F17 : Command.Data (F15_Repo.cls F15_RepoData.cls) (RepoRules Version.F17) :=
  list_data fun args n => FC6_Repo.rules Version.F17 _ args n (by decide +kernel) (by decide +kernel) (by decide +kernel) (by decide +kernel) (by decide +kernel)

theorem rules_repo_F18 : Command.Data (F15_Repo.cls F15_RepoData.cls) (RepoRules Version.F18) :=
  list_data fun args n => FC6_Repo.rules Version.F18 _ args n (by decide +kernel) (by decide +kernel) (by decide +kernel) (by decide +kernel) (by decide +kernel)

theorem rules_repo_F19 : Command.Data (F15_Repo.cls F15_RepoData.cls) (RepoRules Version.F19) :=
  list_data fun args n => FC6_Repo.rules Version.F19 _ args n (by decide +kernel) (by decide +kernel) (by decide +kernel) (by decide +kernel) (by decide +kernel)

theorem rules_repo_F20 : Command.Data (F15_Repo.cls F15_RepoData.cls) (RepoRules Version.F20) :=
  list_data fun args n => FC6_Repo.rules Version.F20 _ args n (by decide +kernel) (by decide +kernel) (by decide +kernel) (by decide +kernel) (by decide +kernel)

theorem rules_repo_F21 : Command.Data (F21_Repo.cls F21_RepoData.cls) (RepoRules Version.F21) :=
  list_data fun args n => FC6_Repo.rules Version.F21 _ args n (by decide +kernel) (by decide +kernel) (by decide +kernel) (by decide +kernel) (by decide +kernel)

theorem rules_repo_F22 : Command.Data (F21_Repo.cls F21_RepoData.cls) (RepoRules Version.F22) :=
  list_data fun args n => FC6_Repo.rules Version.F22 _ args n (by decide +kernel) (by decide +kernel) (by decide +kernel) (by decide +kernel) (by decide +kernel)

theorem rules_repo_F23 : Command.Data (F21_Repo.cls F21_RepoData.cls) (RepoRules Version.F23) :=
  list_data fun args n => FC6_Repo.rules Version.F23 _ args n (by decide +kernel) (by decide +kernel) (by decide +kernel) (by decide +kernel) (by decide +kernel)

theorem rules_repo_F24 : Command.Data (F21_Repo.cls F21_RepoData.cls) (RepoRules Version.F24) :=
  list_data fun args n => FC6_Repo.rules Version.F24 _ args n (by decide +kernel) (by decide +kernel) (by decide +kernel) (by decide +kernel) (by decide +kernel)

theorem rules_repo_F25 : Command.Data (F21_Repo.cls F21_RepoData.cls) (RepoRules Version.F25) :=
  list_data fun args n => FC6_Repo.rules Version.F25 _ args n (by decide +kernel) (by decide +kernel) (by decide +kernel) (by decide +kernel) (by decide +kernel)

theorem rules_repo_F26 : Command.Data (F21_Repo.cls F21_RepoData.cls) (RepoRules Version.F26) :=
  list_data fun args n => FC6_Repo.rules Version.F26 _ args n (by decide +kernel) (by decide +kernel) (by decide +kernel) (by decide +kernel) (by decide +kernel)

theorem rules_repo_F27 : Command.Data (F27_Repo.cls F27_RepoData.cls) (RepoRules Version.F27) :=
  list_data fun args n => FC6_Repo.rules Version.F27 _ args n (by decide +kernel) (by decide +kernel) (by decide +kernel) (by decide +kernel) (by decide +kernel)

theorem rules_repo_F28 : Command.Data (F27_Repo.cls F27_RepoData.cls) (RepoRules Version.F28) :=
  list_data fun args n => FC6_Repo.rules Version.F28 _ args n (by decide +kernel) (by decide +kernel) (by decide +kernel) (by decide +kernel) (by decide +kernel)

theorem rules_repo_F29 : Command.Data (F27_Repo.cls F27_RepoData.cls) (RepoRules Version.F29) :=
  list_data fun args n => FC6_Repo.rules Version.F29 _ args n (by decide +kernel) (by decide +kernel) (by decide +kernel) (by decide +kernel) (by decide +kernel)

theorem rules_repo_F30 : Command.Data (F30_Repo.cls F30_RepoData.cls) (RepoRules Version.F30) :=
  list_data fun args n => FC6_Repo.rules Version.F30 _ args n (by decide +kernel) (by decide +kernel) (by decide +kernel) (by decide +kernel) (by decide +kernel)

theorem rules_repo_F31 : Command.Data (F30_Repo.cls F30_RepoData.cls) (RepoRules Version.F31) :=
  list_data fun args n => FC6_Repo.rules Version.F31 _ args n (by decide +kernel) (by decide +kernel) (by decide +kernel) (by decide +kernel) (by decide +kernel)

theorem rules_repo_F32 : Command.Data (F30_Repo.cls F30_RepoData.cls) (RepoRules Version.F32) :=
  list_data fun args n => FC6_Repo.rules Version.F32 _ args n (by decide +kernel) (by decide +kernel) (by decide +kernel) (by decide +kernel) (by decide +kernel)

theorem rules_repo_F33 : Command.Data (F33_Repo.cls F30_RepoData.cls) (RepoRules Version.F33) :=
  list_data fun args n => FC6_Repo.rules Version.F33 _ args n (by decide +kernel) (by decide +kernel) (by decide +kernel) (by decide +kernel) (by decide +kernel)

theorem rules_repo_F34 : Command.Data (F33_Repo.cls F30_RepoData.cls) (RepoRules Version.F34) :=
  list_data fun args n => FC6_Repo.rules Version.F34 _ args n (by decide +kernel) (by decide +kernel) (by decide +kernel) (by decide +kernel) (by decide +kernel)

theorem rules_repo_F7 : Command.Data (FC6_Repo.cls FC6_RepoData.cls) (RepoRules Version.F7) :=
  list_data fun args n => FC6_Repo.rules Version.F7 _ args n (by decide +kernel) (by decide +kernel) (by decide +kernel) (by decide +kernel) (by decide +kernel)

theorem rules_repo_F8 : Command.Data (F8_Repo.cls F8_RepoData.cls) (RepoRules Version.F8) :=
  list_data fun args n => FC6_Repo.rules Version.F8 _ args n (by decide +kernel) (by decide +kernel) (by decide +kernel) (by decide +kernel) (by decide +kernel)

theorem rules_repo_F9 : Command.Data (F8_Repo.cls F8_RepoData.cls) (RepoRules Version.F9) :=
  list_data fun args n => FC6_Repo.rules Version.F9 _ args n (by decide +kernel) (by decide +kernel) (by decide +kernel) (by decide +kernel) (by decide +kernel)

theorem rules_repo_FC6 : Command.Data (FC6_Repo.cls FC6_RepoData.cls) (RepoRules Version.FC6) :=
  list_data fun args n => FC6_Repo.rules Version.FC6 _ args n (by decide +kernel) (by decide +kernel) (by decide +kernel) (by decide +kernel) (by decide +kernel)

theorem rules_repo_RHEL5 : Command.Data (FC6_Repo.cls FC6_RepoData.cls) (RepoRules Version.RHEL5) :=
  list_data fun args n => FC6_Repo.rules Version.RHEL5 _ args n (by decide +kernel) (by decide +kernel) (by decide +kernel) (by decide +kernel) (by decide +kernel)

theorem rules_repo_RHEL6 : Command.Data (RHEL6_Repo.cls RHEL6_RepoData.cls) (RepoRules Version.RHEL6) :=
  list_data fun args n => FC6_Repo.rules Version.RHEL6 _ args n (by decide +kernel) (by decide +kernel) (by decide +kernel) (by decide +kernel) (by decide +kernel)

theorem rules_repo_RHEL7 : Command.Data (RHEL7_Repo.cls RHEL7_RepoData.cls) (RepoRules Version.RHEL7) :=
  list_data fun args n => FC6_Repo.rules Version.RHEL7 _ args n (by decide +kernel) (by decide +kernel) (by decide +kernel) (by decide +kernel) (by decide +kernel)

theorem rules_repo_RHEL8 : Command.Data (RHEL8_Repo.cls RHEL8_RepoData.cls) (RepoRules Version.RHEL8) :=
  list_data fun args n => FC6_Repo.rules Version.RHEL8 _ args n (by decide +kernel) (by decide +kernel) (by decide +kernel) (by decide +kernel) (by decide +kernel)

theorem commandMaps_repo : ∀ y ∈ commandMaps, ∀ c, y.2.lookup c!"repo" = some c → Command.Data c (RepoRules y.1) := by
  unfold commandMaps
  exact (all_cons (fun c h => by cases h; exact rules_repo_F10)
    (all_cons (fun c h => by cases h; exact rules_repo_F11)
    (all_cons (fun c h => by cases h; exact rules_repo_F12)
    (all_cons (fun c h => by cases h; exact rules_repo_F13)
    (all_cons (fun c h => by cases h; exact rules_repo_F14)
    (all_cons (fun c h => by cases h; exact rules_repo_F15)
    (all_cons (fun c h => by cases h; exact rules_repo_F16)
    (all_cons (fun c h => by cases h; exact rules_repo_F17)
    (all_cons (fun c h => by cases h; exact rules_repo_F18)
    (all_cons (fun c h => by cases h; exact rules_repo_F19)
    (all_cons (fun c h => by cases h; exact rules_repo_F20)
    (all_cons (fun c h => by cases h; exact rules_repo_F21)
    (all_cons (fun c h => by cases h; exact rules_repo_F22)
    (all_cons (fun c h => by cases h; exact rules_repo_F23)
    (all_cons (fun c h => by cases h; exact rules_repo_F24)
    (all_cons (fun c h => by cases h; exact rules_repo_F25)
    (all_cons (fun c h => by cases h; exact rules_repo_F26)
    (all_cons (fun c h => by cases h; exact rules_repo_F27)
    (all_cons (fun c h => by cases h; exact rules_repo_F28)
    (all_cons (fun c h => by cases h; exact rules_repo_F29)
    (all_cons (fun c h => by cases h; exact rules_repo_F30)
    (all_cons (fun c h => by cases h; exact rules_repo_F31)
    (all_cons (fun c h => by cases h; exact rules_repo_F32)
    (all_cons (fun c h => by cases h; exact rules_repo_F33)
    (all_cons (fun c h => by cases h; exact rules_repo_F34)
    (all_cons (fun c h => by cases h; exact rules_repo_F7)
    (all_cons (fun c h => by cases h; exact rules_repo_F8)
    (all_cons (fun c h => by cases h; exact rules_repo_F9)
    (all_cons (fun c h => by cases h)
    (all_cons (fun c h => by cases h)
    (all_cons (fun c h => by cases h)
    (all_cons (fun c h => by cases h; exact rules_repo_FC6)
    (all_cons (fun c h => by cases h)
    (all_cons (fun c h => by cases h)
    (all_cons (fun c h => by cases h; exact rules_repo_RHEL5)
    (all_cons (fun c h => by cases h; exact rules_repo_RHEL6)
    (all_cons (fun c h => by cases h; exact rules_repo_RHEL7)
    (all_cons (fun c h => by cases h; exact rules_repo_RHEL8) (List.forall_mem_nil _)))))))))))))))))))))))))))))))))))))))

theorem rules_F33_Timesource_F33_TimesourceData : Command.Data (F33_Timesource.cls F33_TimesourceData.cls) (TimesourceRules) :=
  list_data fun args n => F33_Timesource.rules _ args n (by decide +kernel) (by decide +kernel) (by decide +kernel)

theorem commandMaps_timesource : ∀ y ∈ commandMaps, ∀ c, y.2.lookup c!"timesource" = some c → Command.Data c TimesourceRules := by
  unfold commandMaps
  exact (all_cons (fun c h => by cases h)
    (all_cons (fun c h => by cases h)
    (all_cons (fun c h => by cases h)
    (all_cons (fun c h => by cases h)
    (all_cons (fun c h => by cases h)
    (all_cons (fun c h => by cases h)
    (all_cons (fun c h => by cases h)
    (all_cons (fun c h => by cases h)
    (all_cons (fun c h => by cases h)
    (all_cons (fun c h => by cases h)
    (all_cons (fun c h => by cases h)
    (all_cons (fun c h => by cases h)
    (all_cons (fun c h => by cases h)
    (all_cons (fun c h => by cases h)
    (all_cons (fun c h => by cases h)
    (all_cons (fun c h => by cases h)
    (all_cons (fun c h => by cases h)
    (all_cons (fun c h => by cases h)
    (all_cons (fun c h => by cases h)
    (all_cons (fun c h => by cases h)
    (all_cons (fun c h => by cases h)
    (all_cons (fun c h => by cases h)
    (all_cons (fun c h => by cases h)
    (all_cons (fun c h => by cases h; exact rules_F33_Timesource_F33_TimesourceData)
    (all_cons (fun c h => by cases h; exact rules_F33_Timesource_F33_TimesourceData)
    (all_cons (fun c h => by cases h)
    (all_cons (fun c h => by cases h)
    (all_cons (fun c h => by cases h)
    (all_cons (fun c h => by cases h)
    (all_cons (fun c h => by cases h)
    (all_cons (fun c h => by cases h)
    (all_cons (fun c h => by cases h)
    (all_cons (fun c h => by cases h)
    (all_cons (fun c h => by cases h)
    (all_cons (fun c h => by cases h)
    (all_cons (fun c h => by cases h)
    (all_cons (fun c h => by cases h)
    (all_cons (fun c h => by cases h) (List.forall_mem_nil _)))))))))))))))))))))))))))))))))))))))

theorem rules_FC4_DriverDisk_FC4_DriverDiskData : Command.Data (FC4_DriverDisk.cls FC4_DriverDiskData.cls) (DriverdiskRules Version.F34) :=
  list_data fun args n => FC4_DriverDisk.rules _ args n (by decide +kernel) (by decide +kernel) (by decide +kernel)

theorem rules_F12_DriverDisk_F12_DriverDiskData : Command.Data (F12_DriverDisk.cls F12_DriverDiskData.cls) (DriverdiskRules Version.F34) :=
  list_data fun args n => FC4_DriverDisk.rules _ args n (by decide +kernel) (by decide +kernel) (by decide +kernel)

theorem rules_F14_DriverDisk_F14_DriverDiskData : Command.Data (F14_DriverDisk.cls F14_DriverDiskData.cls) (DriverdiskRules Version.F34) :=
  list_data fun args n => FC4_DriverDisk.rules _ args n (by decide +kernel) (by decide +kernel) (by decide +kernel)

theorem rules_FC3_DriverDisk_FC3_DriverDiskData : Command.Data (FC3_DriverDisk.cls FC3_DriverDiskData.cls) (DriverdiskRules Version.FC3) :=
  list_data fun args n => FC3_DriverDisk.rules _ args n (by decide +kernel) (by decide +kernel)

theorem commandMaps_driverdisk : ∀ y ∈ commandMaps, ∀ c, y.2.lookup c!"driverdisk" = some c → Command.Data c (DriverdiskRules y.1) := by
  unfold commandMaps
  exact (all_cons (fun c h => by cases h; exact rules_FC4_DriverDisk_FC4_DriverDiskData.weaken fun _ h => h.mono Version.F34 (by decide))
    (all_cons (fun c h => by cases h; exact rules_FC4_DriverDisk_FC4_DriverDiskData.weaken fun _ h => h.mono Version.F34 (by decide))
    (all_cons (fun c h => by cases h; exact rules_F12_DriverDisk_F12_DriverDiskData.weaken fun _ h => h.mono Version.F34 (by decide))
    (all_cons (fun c h => by cases h; exact rules_F12_DriverDisk_F12_DriverDiskData.weaken fun _ h => h.mono Version.F34 (by decide))
    (all_cons (fun c h => by cases h; exact rules_F14_DriverDisk_F14_DriverDiskData.weaken fun _ h => h.mono Version.F34 (by decide))
    (all_cons (fun c h => by cases h; exact rules_F14_DriverDisk_F14_DriverDiskData.weaken fun _ h => h.mono Version.F34 (by decide))
    (all_cons (fun c h => by cases h; exact rules_F14_DriverDisk_F14_DriverDiskData.weaken fun _ h => h.mono Version.F34 (by decide))
    (all_cons (fun c h => by cases h; exact rules_F14_DriverDisk_F14_DriverDiskData.weaken fun _ h => h.mono Version.F34 (by decide))
    (all_cons (fun c h => by cases h; exact rules_F14_DriverDisk_F14_DriverDiskData.weaken fun _ h => h.mono Version.F34 (by decide))
    (all_cons (fun c h => by cases h; exact rules_F14_DriverDisk_F14_DriverDiskData.weaken fun _ h => h.mono Version.F34 (by decide))
    (all_cons (fun c h => by cases h; exact rules_F14_DriverDisk_F14_DriverDiskData.weaken fun _ h => h.mono Version.F34 (by decide))
    (all_cons (fun c h => by cases h; exact rules_F14_DriverDisk_F14_DriverDiskData.weaken fun _ h => h.mono Version.F34 (by decide))
    (all_cons (fun c h => by cases h; exact rules_F14_DriverDisk_F14_DriverDiskData.weaken fun _ h => h.mono Version.F34 (by decide))
    (all_cons (fun c h => by cases h; exact rules_F14_DriverDisk_F14_DriverDiskData.weaken fun _ h => h.mono Version.F34 (by decide))
    (all_cons (fun c h => by cases h; exact rules_F14_DriverDisk_F14_DriverDiskData.weaken fun _ h => h.mono Version.F34 (by decide))
    (all_cons (fun c h => by cases h; exact rules_F14_DriverDisk_F14_DriverDiskData.weaken fun _ h => h.mono Version.F34 (by decide))
    (all_cons (fun c h => by cases h; exact rules_F14_DriverDisk_F14_DriverDiskData.weaken fun _ h => h.mono Version.F34 (by decide))
    (all_cons (fun c h => by cases h; exact rules_F14_DriverDisk_F14_DriverDiskData.weaken fun _ h => h.mono Version.F34 (by decide))
    (all_cons (fun c h => by cases h; exact rules_F14_DriverDisk_F14_DriverDiskData.weaken fun _ h => h.mono Version.F34 (by decide))
    (all_cons (fun c h => by cases h; exact rules_F14_DriverDisk_F14_DriverDiskData.weaken fun _ h => h.mono Version.F34 (by decide))
    (all_cons (fun c h => by cases h; exact rules_F14_DriverDisk_F14_DriverDiskData.weaken fun _ h => h.mono Version.F34 (by decide))
    (all_cons (fun c h => by cases h; exact rules_F14_DriverDisk_F14_DriverDiskData.weaken fun _ h => h.mono Version.F34 (by decide))
    (all_cons (fun c h => by cases h; exact rules_F14_DriverDisk_F14_DriverDiskData.weaken fun _ h => h.mono Version.F34 (by decide))
    (all_cons (fun c h => by cases h; exact rules_F14_DriverDisk_F14_DriverDiskData.weaken fun _ h => h.mono Version.F34 (by decide))
    (all_cons (fun c h => by cases h; exact rules_F14_DriverDisk_F14_DriverDiskData.weaken fun _ h => h.mono Version.F34 (by decide))
    (all_cons (fun c h => by cases h; exact rules_FC4_DriverDisk_FC4_DriverDiskData.weaken fun _ h => h.mono Version.F34 (by decide))
    (all_cons (fun c h => by cases h; exact rules_FC4_DriverDisk_FC4_DriverDiskData.weaken fun _ h => h.mono Version.F34 (by decide))
    (all_cons (fun c h => by cases h; exact rules_FC4_DriverDisk_FC4_DriverDiskData.weaken fun _ h => h.mono Version.F34 (by decide))
    (all_cons (fun c h => by cases h; exact rules_FC3_DriverDisk_FC3_DriverDiskData.weaken fun _ h => h.mono Version.FC3 (by decide))
    (all_cons (fun c h => by cases h; exact rules_FC4_DriverDisk_FC4_DriverDiskData.weaken fun _ h => h.mono Version.F34 (by decide))
    (all_cons (fun c h => by cases h; exact rules_FC4_DriverDisk_FC4_DriverDiskData.weaken fun _ h => h.mono Version.F34 (by decide))
    (all_cons (fun c h => by cases h; exact rules_FC4_DriverDisk_FC4_DriverDiskData.weaken fun _ h => h.mono Version.F34 (by decide))
    (all_cons (fun c h => by cases h; exact rules_FC3_DriverDisk_FC3_DriverDiskData.weaken fun _ h => h.mono Version.FC3 (by decide))
    (all_cons (fun c h => by cases h; exact rules_FC4_DriverDisk_FC4_DriverDiskData.weaken fun _ h => h.mono Version.F34 (by decide))
    (all_cons (fun c h => by cases h; exact rules_F12_DriverDisk_F12_DriverDiskData.weaken fun _ h => h.mono Version.F34 (by decide))
    (all_cons (fun c h => by cases h; exact rules_F12_DriverDisk_F12_DriverDiskData.weaken fun _ h => h.mono Version.F34 (by decide))
    (all_cons (fun c h => by cases h; exact rules_F14_DriverDisk_F14_DriverDiskData.weaken fun _ h => h.mono Version.F34 (by decide))
    (all_cons (fun c h => by cases h; exact rules_F14_DriverDisk_F14_DriverDiskData.weaken fun _ h => h.mono Version.F34 (by decide)) (List.forall_mem_nil _)))))))))))))))))))))))))))))))))))))))

end Ks.Cmd
