import Verif.Commands.Conflicts
/-!
# Which storage commands of each version refuse which others

Written by `scripts/gen_conflicts.py`.
-/
namespace Ks.Cmd

theorem commandMapRHEL6_refusals : ∀ x ∈ refusals false false, Refuses commandMapRHEL6 x.1 x.2.1 x.2.2 :=
  (forall_mem_cons' ⟨_, mem_at 35 rfl, by decide +kernel, (forall_mem_cons' (list_rejects (RHEL6_Partition.fails_autopart _)) (List.forall_mem_nil _))⟩
  (forall_mem_cons' ⟨_, mem_at 36 rfl, by decide +kernel, (forall_mem_cons' (list_rejects (RHEL6_Partition.fails_autopart _)) (List.forall_mem_nil _))⟩
  (forall_mem_cons' ⟨_, mem_at 38 rfl, by decide +kernel, (forall_mem_cons' (list_rejects (RHEL6_Raid.fails_autopart _)) (List.forall_mem_nil _))⟩
  (forall_mem_cons' ⟨_, mem_at 56 rfl, by decide +kernel, (forall_mem_cons' (list_rejects (F16_VolGroup.fails_autopart _)) (List.forall_mem_nil _))⟩
  (forall_mem_cons' ⟨_, mem_at 28 rfl, by decide +kernel, (forall_mem_cons' (list_rejects (RHEL6_LogVol.fails_autopart _)) (List.forall_mem_nil _))⟩
  (forall_mem_cons' ⟨_, mem_at 2 rfl, by decide +kernel, (forall_mem_cons' (plain_rejects (RHEL6_AutoPart.fails_partition _)) (forall_mem_cons' (plain_rejects (RHEL6_AutoPart.fails_raid _)) (forall_mem_cons' (plain_rejects (RHEL6_AutoPart.fails_volgroup _)) (forall_mem_cons' (plain_rejects (RHEL6_AutoPart.fails_logvol _)) (List.forall_mem_nil _)))))⟩ (List.forall_mem_nil _)))))))

theorem commandMapF20_refusals : ∀ x ∈ refusals false false, Refuses commandMapF20 x.1 x.2.1 x.2.2 :=
  (forall_mem_cons' ⟨_, mem_at 35 rfl, by decide +kernel, (forall_mem_cons' (list_rejects (F20_Partition.fails_autopart _)) (List.forall_mem_nil _))⟩
  (forall_mem_cons' ⟨_, mem_at 36 rfl, by decide +kernel, (forall_mem_cons' (list_rejects (F20_Partition.fails_autopart _)) (List.forall_mem_nil _))⟩
  (forall_mem_cons' ⟨_, mem_at 38 rfl, by decide +kernel, (forall_mem_cons' (list_rejects (F20_Raid.fails_autopart _)) (List.forall_mem_nil _))⟩
  (forall_mem_cons' ⟨_, mem_at 56 rfl, by decide +kernel, (forall_mem_cons' (list_rejects (F16_VolGroup.fails_autopart _)) (List.forall_mem_nil _))⟩
  (forall_mem_cons' ⟨_, mem_at 29 rfl, by decide +kernel, (forall_mem_cons' (list_rejects (F20_LogVol.fails_autopart _)) (List.forall_mem_nil _))⟩
  (forall_mem_cons' ⟨_, mem_at 2 rfl, by decide +kernel, (forall_mem_cons' (plain_rejects (F20_AutoPart.fails_partition _)) (forall_mem_cons' (plain_rejects (F20_AutoPart.fails_raid _)) (forall_mem_cons' (plain_rejects (F20_AutoPart.fails_volgroup _)) (forall_mem_cons' (plain_rejects (F20_AutoPart.fails_logvol _)) (List.forall_mem_nil _)))))⟩ (List.forall_mem_nil _)))))))

theorem commandMapF21_refusals : ∀ x ∈ refusals false false, Refuses commandMapF21 x.1 x.2.1 x.2.2 :=
  (forall_mem_cons' ⟨_, mem_at 36 rfl, by decide +kernel, (forall_mem_cons' (list_rejects (F20_Partition.fails_autopart _)) (List.forall_mem_nil _))⟩
  (forall_mem_cons' ⟨_, mem_at 37 rfl, by decide +kernel, (forall_mem_cons' (list_rejects (F20_Partition.fails_autopart _)) (List.forall_mem_nil _))⟩
  (forall_mem_cons' ⟨_, mem_at 39 rfl, by decide +kernel, (forall_mem_cons' (list_rejects (F20_Raid.fails_autopart _)) (List.forall_mem_nil _))⟩
  (forall_mem_cons' ⟨_, mem_at 57 rfl, by decide +kernel, (forall_mem_cons' (list_rejects (F16_VolGroup.fails_autopart _)) (List.forall_mem_nil _))⟩
  (forall_mem_cons' ⟨_, mem_at 29 rfl, by decide +kernel, (forall_mem_cons' (list_rejects (F21_LogVol.fails_autopart _)) (List.forall_mem_nil _))⟩
  (forall_mem_cons' ⟨_, mem_at 2 rfl, by decide +kernel, (forall_mem_cons' (plain_rejects (F21_AutoPart.fails_partition _)) (forall_mem_cons' (plain_rejects (F21_AutoPart.fails_raid _)) (forall_mem_cons' (plain_rejects (F21_AutoPart.fails_volgroup _)) (forall_mem_cons' (plain_rejects (F21_AutoPart.fails_logvol _)) (List.forall_mem_nil _)))))⟩ (List.forall_mem_nil _)))))))

theorem commandMapRHEL7_refusals : ∀ x ∈ refusals true false, Refuses commandMapRHEL7 x.1 x.2.1 x.2.2 :=
  (forall_mem_cons' ⟨_, mem_at 38 rfl, by decide +kernel, (forall_mem_cons' (list_rejects (F23_Partition.fails_autopart _)) (List.forall_mem_nil _))⟩
  (forall_mem_cons' ⟨_, mem_at 39 rfl, by decide +kernel, (forall_mem_cons' (list_rejects (F23_Partition.fails_autopart _)) (List.forall_mem_nil _))⟩
  (forall_mem_cons' ⟨_, mem_at 41 rfl, by decide +kernel, (forall_mem_cons' (list_rejects (F23_Raid.fails_autopart _)) (List.forall_mem_nil _))⟩
  (forall_mem_cons' ⟨_, mem_at 62 rfl, by decide +kernel, (forall_mem_cons' (list_rejects (F16_VolGroup.fails_autopart _)) (List.forall_mem_nil _))⟩
  (forall_mem_cons' ⟨_, mem_at 30 rfl, by decide +kernel, (forall_mem_cons' (list_rejects (RHEL7_LogVol.fails_autopart _)) (List.forall_mem_nil _))⟩
  (forall_mem_cons' ⟨_, mem_at 2 rfl, by decide +kernel, (forall_mem_cons' (plain_rejects (RHEL7_AutoPart.fails_partition _)) (forall_mem_cons' (plain_rejects (RHEL7_AutoPart.fails_raid _)) (forall_mem_cons' (plain_rejects (RHEL7_AutoPart.fails_volgroup _)) (forall_mem_cons' (plain_rejects (RHEL7_AutoPart.fails_logvol _)) (forall_mem_cons' (plain_rejects (RHEL7_AutoPart.fails_reqpart _)) (List.forall_mem_nil _))))))⟩
  (forall_mem_cons' ⟨_, mem_at 45 rfl, by decide +kernel, (forall_mem_cons' (plain_rejects (F23_ReqPart.fails_autopart _)) (List.forall_mem_nil _))⟩ (List.forall_mem_nil _))))))))

theorem commandMapF22_refusals : ∀ x ∈ refusals false false, Refuses commandMapF22 x.1 x.2.1 x.2.2 :=
  (forall_mem_cons' ⟨_, mem_at 36 rfl, by decide +kernel, (forall_mem_cons' (list_rejects (F20_Partition.fails_autopart _)) (List.forall_mem_nil _))⟩
  (forall_mem_cons' ⟨_, mem_at 37 rfl, by decide +kernel, (forall_mem_cons' (list_rejects (F20_Partition.fails_autopart _)) (List.forall_mem_nil _))⟩
  (forall_mem_cons' ⟨_, mem_at 39 rfl, by decide +kernel, (forall_mem_cons' (list_rejects (F20_Raid.fails_autopart _)) (List.forall_mem_nil _))⟩
  (forall_mem_cons' ⟨_, mem_at 58 rfl, by decide +kernel, (forall_mem_cons' (list_rejects (F16_VolGroup.fails_autopart _)) (List.forall_mem_nil _))⟩
  (forall_mem_cons' ⟨_, mem_at 29 rfl, by decide +kernel, (forall_mem_cons' (list_rejects (F21_LogVol.fails_autopart _)) (List.forall_mem_nil _))⟩
  (forall_mem_cons' ⟨_, mem_at 2 rfl, by decide +kernel, (forall_mem_cons' (plain_rejects (F21_AutoPart.fails_partition _)) (forall_mem_cons' (plain_rejects (F21_AutoPart.fails_raid _)) (forall_mem_cons' (plain_rejects (F21_AutoPart.fails_volgroup _)) (forall_mem_cons' (plain_rejects (F21_AutoPart.fails_logvol _)) (List.forall_mem_nil _)))))⟩ (List.forall_mem_nil _)))))))

theorem commandMapF23_refusals : ∀ x ∈ refusals true false, Refuses commandMapF23 x.1 x.2.1 x.2.2 :=
  (forall_mem_cons' ⟨_, mem_at 36 rfl, by decide +kernel, (forall_mem_cons' (list_rejects (F23_Partition.fails_autopart _)) (List.forall_mem_nil _))⟩
  (forall_mem_cons' ⟨_, mem_at 37 rfl, by decide +kernel, (forall_mem_cons' (list_rejects (F23_Partition.fails_autopart _)) (List.forall_mem_nil _))⟩
  (forall_mem_cons' ⟨_, mem_at 39 rfl, by decide +kernel, (forall_mem_cons' (list_rejects (F23_Raid.fails_autopart _)) (List.forall_mem_nil _))⟩
  (forall_mem_cons' ⟨_, mem_at 59 rfl, by decide +kernel, (forall_mem_cons' (list_rejects (F16_VolGroup.fails_autopart _)) (List.forall_mem_nil _))⟩
  (forall_mem_cons' ⟨_, mem_at 29 rfl, by decide +kernel, (forall_mem_cons' (list_rejects (F23_LogVol.fails_autopart _)) (List.forall_mem_nil _))⟩
  (forall_mem_cons' ⟨_, mem_at 2 rfl, by decide +kernel, (forall_mem_cons' (plain_rejects (F23_AutoPart.fails_partition _)) (forall_mem_cons' (plain_rejects (F23_AutoPart.fails_raid _)) (forall_mem_cons' (plain_rejects (F23_AutoPart.fails_volgroup _)) (forall_mem_cons' (plain_rejects (F23_AutoPart.fails_logvol _)) (forall_mem_cons' (plain_rejects (F23_AutoPart.fails_reqpart _)) (List.forall_mem_nil _))))))⟩
  (forall_mem_cons' ⟨_, mem_at 43 rfl, by decide +kernel, (forall_mem_cons' (plain_rejects (F23_ReqPart.fails_autopart _)) (List.forall_mem_nil _))⟩ (List.forall_mem_nil _))))))))

theorem commandMapF24_refusals : ∀ x ∈ refusals true false, Refuses commandMapF24 x.1 x.2.1 x.2.2 :=
  (forall_mem_cons' ⟨_, mem_at 36 rfl, by decide +kernel, (forall_mem_cons' (list_rejects (F23_Partition.fails_autopart _)) (List.forall_mem_nil _))⟩
  (forall_mem_cons' ⟨_, mem_at 37 rfl, by decide +kernel, (forall_mem_cons' (list_rejects (F23_Partition.fails_autopart _)) (List.forall_mem_nil _))⟩
  (forall_mem_cons' ⟨_, mem_at 39 rfl, by decide +kernel, (forall_mem_cons' (list_rejects (F23_Raid.fails_autopart _)) (List.forall_mem_nil _))⟩
  (forall_mem_cons' ⟨_, mem_at 59 rfl, by decide +kernel, (forall_mem_cons' (list_rejects (F16_VolGroup.fails_autopart _)) (List.forall_mem_nil _))⟩
  (forall_mem_cons' ⟨_, mem_at 29 rfl, by decide +kernel, (forall_mem_cons' (list_rejects (F23_LogVol.fails_autopart _)) (List.forall_mem_nil _))⟩
  (forall_mem_cons' ⟨_, mem_at 2 rfl, by decide +kernel, (forall_mem_cons' (plain_rejects (F23_AutoPart.fails_partition _)) (forall_mem_cons' (plain_rejects (F23_AutoPart.fails_raid _)) (forall_mem_cons' (plain_rejects (F23_AutoPart.fails_volgroup _)) (forall_mem_cons' (plain_rejects (F23_AutoPart.fails_logvol _)) (forall_mem_cons' (plain_rejects (F23_AutoPart.fails_reqpart _)) (List.forall_mem_nil _))))))⟩
  (forall_mem_cons' ⟨_, mem_at 43 rfl, by decide +kernel, (forall_mem_cons' (plain_rejects (F23_ReqPart.fails_autopart _)) (List.forall_mem_nil _))⟩ (List.forall_mem_nil _))))))))

theorem commandMapF25_refusals : ∀ x ∈ refusals true false, Refuses commandMapF25 x.1 x.2.1 x.2.2 :=
  (forall_mem_cons' ⟨_, mem_at 36 rfl, by decide +kernel, (forall_mem_cons' (list_rejects (F23_Partition.fails_autopart _)) (List.forall_mem_nil _))⟩
  (forall_mem_cons' ⟨_, mem_at 37 rfl, by decide +kernel, (forall_mem_cons' (list_rejects (F23_Partition.fails_autopart _)) (List.forall_mem_nil _))⟩
  (forall_mem_cons' ⟨_, mem_at 39 rfl, by decide +kernel, (forall_mem_cons' (list_rejects (F23_Raid.fails_autopart _)) (List.forall_mem_nil _))⟩
  (forall_mem_cons' ⟨_, mem_at 59 rfl, by decide +kernel, (forall_mem_cons' (list_rejects (F16_VolGroup.fails_autopart _)) (List.forall_mem_nil _))⟩
  (forall_mem_cons' ⟨_, mem_at 29 rfl, by decide +kernel, (forall_mem_cons' (list_rejects (F23_LogVol.fails_autopart _)) (List.forall_mem_nil _))⟩
  (forall_mem_cons' ⟨_, mem_at 2 rfl, by decide +kernel, (forall_mem_cons' (plain_rejects (F23_AutoPart.fails_partition _)) (forall_mem_cons' (plain_rejects (F23_AutoPart.fails_raid _)) (forall_mem_cons' (plain_rejects (F23_AutoPart.fails_volgroup _)) (forall_mem_cons' (plain_rejects (F23_AutoPart.fails_logvol _)) (forall_mem_cons' (plain_rejects (F23_AutoPart.fails_reqpart _)) (List.forall_mem_nil _))))))⟩
  (forall_mem_cons' ⟨_, mem_at 43 rfl, by decide +kernel, (forall_mem_cons' (plain_rejects (F23_ReqPart.fails_autopart _)) (List.forall_mem_nil _))⟩ (List.forall_mem_nil _))))))))

theorem commandMapF26_refusals : ∀ x ∈ refusals true false, Refuses commandMapF26 x.1 x.2.1 x.2.2 :=
  (forall_mem_cons' ⟨_, mem_at 36 rfl, by decide +kernel, (forall_mem_cons' (list_rejects (F23_Partition.fails_autopart _)) (List.forall_mem_nil _))⟩
  (forall_mem_cons' ⟨_, mem_at 37 rfl, by decide +kernel, (forall_mem_cons' (list_rejects (F23_Partition.fails_autopart _)) (List.forall_mem_nil _))⟩
  (forall_mem_cons' ⟨_, mem_at 39 rfl, by decide +kernel, (forall_mem_cons' (list_rejects (F23_Raid.fails_autopart _)) (List.forall_mem_nil _))⟩
  (forall_mem_cons' ⟨_, mem_at 60 rfl, by decide +kernel, (forall_mem_cons' (list_rejects (F16_VolGroup.fails_autopart _)) (List.forall_mem_nil _))⟩
  (forall_mem_cons' ⟨_, mem_at 29 rfl, by decide +kernel, (forall_mem_cons' (list_rejects (F23_LogVol.fails_autopart _)) (List.forall_mem_nil _))⟩
  (forall_mem_cons' ⟨_, mem_at 2 rfl, by decide +kernel, (forall_mem_cons' (plain_rejects (F23_AutoPart.fails_partition _)) (forall_mem_cons' (plain_rejects (F23_AutoPart.fails_raid _)) (forall_mem_cons' (plain_rejects (F23_AutoPart.fails_volgroup _)) (forall_mem_cons' (plain_rejects (F23_AutoPart.fails_logvol _)) (forall_mem_cons' (plain_rejects (F23_AutoPart.fails_reqpart _)) (List.forall_mem_nil _))))))⟩
  (forall_mem_cons' ⟨_, mem_at 43 rfl, by decide +kernel, (forall_mem_cons' (plain_rejects (F23_ReqPart.fails_autopart _)) (List.forall_mem_nil _))⟩ (List.forall_mem_nil _))))))))

theorem commandMapF27_refusals : ∀ x ∈ refusals true true, Refuses commandMapF27 x.1 x.2.1 x.2.2 :=
  (forall_mem_cons' ⟨_, mem_at 37 rfl, by decide +kernel, (forall_mem_cons' (list_rejects (F23_Partition.fails_autopart _)) (forall_mem_cons' (list_rejects (F23_Partition.fails_mount _)) (List.forall_mem_nil _)))⟩
  (forall_mem_cons' ⟨_, mem_at 38 rfl, by decide +kernel, (forall_mem_cons' (list_rejects (F23_Partition.fails_autopart _)) (forall_mem_cons' (list_rejects (F23_Partition.fails_mount _)) (List.forall_mem_nil _)))⟩
  (forall_mem_cons' ⟨_, mem_at 40 rfl, by decide +kernel, (forall_mem_cons' (list_rejects (F23_Raid.fails_autopart _)) (forall_mem_cons' (list_rejects (F23_Raid.fails_mount _)) (List.forall_mem_nil _)))⟩
  (forall_mem_cons' ⟨_, mem_at 61 rfl, by decide +kernel, (forall_mem_cons' (list_rejects (F16_VolGroup.fails_autopart _)) (forall_mem_cons' (list_rejects (F16_VolGroup.fails_mount _)) (List.forall_mem_nil _)))⟩
  (forall_mem_cons' ⟨_, mem_at 29 rfl, by decide +kernel, (forall_mem_cons' (list_rejects (F23_LogVol.fails_autopart _)) (forall_mem_cons' (list_rejects (F23_LogVol.fails_mount _)) (List.forall_mem_nil _)))⟩
  (forall_mem_cons' ⟨_, mem_at 2 rfl, by decide +kernel, (forall_mem_cons' (plain_rejects (F23_AutoPart.fails_partition _)) (forall_mem_cons' (plain_rejects (F23_AutoPart.fails_raid _)) (forall_mem_cons' (plain_rejects (F23_AutoPart.fails_volgroup _)) (forall_mem_cons' (plain_rejects (F23_AutoPart.fails_logvol _)) (forall_mem_cons' (plain_rejects (F23_AutoPart.fails_reqpart _)) (forall_mem_cons' (plain_rejects (F23_AutoPart.fails_mount _)) (List.forall_mem_nil _)))))))⟩
  (forall_mem_cons' ⟨_, mem_at 44 rfl, by decide +kernel, (forall_mem_cons' (plain_rejects (F23_ReqPart.fails_autopart _)) (forall_mem_cons' (plain_rejects (F23_ReqPart.fails_mount _)) (List.forall_mem_nil _)))⟩
  (forall_mem_cons' ⟨_, mem_at 32 rfl, by decide +kernel, (forall_mem_cons' (list_rejects (F27_Mount.fails_autopart _)) (forall_mem_cons' (list_rejects (F27_Mount.fails_partition _)) (forall_mem_cons' (list_rejects (F27_Mount.fails_raid _)) (forall_mem_cons' (list_rejects (F27_Mount.fails_volgroup _)) (forall_mem_cons' (list_rejects (F27_Mount.fails_logvol _)) (forall_mem_cons' (list_rejects (F27_Mount.fails_reqpart _)) (List.forall_mem_nil _)))))))⟩ (List.forall_mem_nil _)))))))))

theorem commandMapF28_refusals : ∀ x ∈ refusals true true, Refuses commandMapF28 x.1 x.2.1 x.2.2 :=
  (forall_mem_cons' ⟨_, mem_at 40 rfl, by decide +kernel, (forall_mem_cons' (list_rejects (F23_Partition.fails_autopart _)) (forall_mem_cons' (list_rejects (F23_Partition.fails_mount _)) (List.forall_mem_nil _)))⟩
  (forall_mem_cons' ⟨_, mem_at 41 rfl, by decide +kernel, (forall_mem_cons' (list_rejects (F23_Partition.fails_autopart _)) (forall_mem_cons' (list_rejects (F23_Partition.fails_mount _)) (List.forall_mem_nil _)))⟩
  (forall_mem_cons' ⟨_, mem_at 43 rfl, by decide +kernel, (forall_mem_cons' (list_rejects (F23_Raid.fails_autopart _)) (forall_mem_cons' (list_rejects (F23_Raid.fails_mount _)) (List.forall_mem_nil _)))⟩
  (forall_mem_cons' ⟨_, mem_at 64 rfl, by decide +kernel, (forall_mem_cons' (list_rejects (F16_VolGroup.fails_autopart _)) (forall_mem_cons' (list_rejects (F16_VolGroup.fails_mount _)) (List.forall_mem_nil _)))⟩
  (forall_mem_cons' ⟨_, mem_at 31 rfl, by decide +kernel, (forall_mem_cons' (list_rejects (F23_LogVol.fails_autopart _)) (forall_mem_cons' (list_rejects (F23_LogVol.fails_mount _)) (List.forall_mem_nil _)))⟩
  (forall_mem_cons' ⟨_, mem_at 3 rfl, by decide +kernel, (forall_mem_cons' (plain_rejects (F23_AutoPart.fails_partition _)) (forall_mem_cons' (plain_rejects (F23_AutoPart.fails_raid _)) (forall_mem_cons' (plain_rejects (F23_AutoPart.fails_volgroup _)) (forall_mem_cons' (plain_rejects (F23_AutoPart.fails_logvol _)) (forall_mem_cons' (plain_rejects (F23_AutoPart.fails_reqpart _)) (forall_mem_cons' (plain_rejects (F23_AutoPart.fails_mount _)) (List.forall_mem_nil _)))))))⟩
  (forall_mem_cons' ⟨_, mem_at 47 rfl, by decide +kernel, (forall_mem_cons' (plain_rejects (F23_ReqPart.fails_autopart _)) (forall_mem_cons' (plain_rejects (F23_ReqPart.fails_mount _)) (List.forall_mem_nil _)))⟩
  (forall_mem_cons' ⟨_, mem_at 34 rfl, by decide +kernel, (forall_mem_cons' (list_rejects (F27_Mount.fails_autopart _)) (forall_mem_cons' (list_rejects (F27_Mount.fails_partition _)) (forall_mem_cons' (list_rejects (F27_Mount.fails_raid _)) (forall_mem_cons' (list_rejects (F27_Mount.fails_volgroup _)) (forall_mem_cons' (list_rejects (F27_Mount.fails_logvol _)) (forall_mem_cons' (list_rejects (F27_Mount.fails_reqpart _)) (List.forall_mem_nil _)))))))⟩ (List.forall_mem_nil _)))))))))

theorem commandMapRHEL8_refusals : ∀ x ∈ refusals true true, Refuses commandMapRHEL8 x.1 x.2.1 x.2.2 :=
  (forall_mem_cons' ⟨_, mem_at 41 rfl, by decide +kernel, (forall_mem_cons' (list_rejects (RHEL8_Partition.fails_autopart _)) (forall_mem_cons' (list_rejects (RHEL8_Partition.fails_mount _)) (List.forall_mem_nil _)))⟩
  (forall_mem_cons' ⟨_, mem_at 42 rfl, by decide +kernel, (forall_mem_cons' (list_rejects (RHEL8_Partition.fails_autopart _)) (forall_mem_cons' (list_rejects (RHEL8_Partition.fails_mount _)) (List.forall_mem_nil _)))⟩
  (forall_mem_cons' ⟨_, mem_at 44 rfl, by decide +kernel, (forall_mem_cons' (list_rejects (RHEL8_Raid.fails_autopart _)) (forall_mem_cons' (list_rejects (RHEL8_Raid.fails_mount _)) (List.forall_mem_nil _)))⟩
  (forall_mem_cons' ⟨_, mem_at 66 rfl, by decide +kernel, (forall_mem_cons' (list_rejects (F16_VolGroup.fails_autopart _)) (forall_mem_cons' (list_rejects (F16_VolGroup.fails_mount _)) (List.forall_mem_nil _)))⟩
  (forall_mem_cons' ⟨_, mem_at 32 rfl, by decide +kernel, (forall_mem_cons' (list_rejects (RHEL8_LogVol.fails_autopart _)) (forall_mem_cons' (list_rejects (RHEL8_LogVol.fails_mount _)) (List.forall_mem_nil _)))⟩
  (forall_mem_cons' ⟨_, mem_at 3 rfl, by decide +kernel, (forall_mem_cons' (plain_rejects (RHEL8_AutoPart.fails_partition _)) (forall_mem_cons' (plain_rejects (RHEL8_AutoPart.fails_raid _)) (forall_mem_cons' (plain_rejects (RHEL8_AutoPart.fails_volgroup _)) (forall_mem_cons' (plain_rejects (RHEL8_AutoPart.fails_logvol _)) (forall_mem_cons' (plain_rejects (RHEL8_AutoPart.fails_reqpart _)) (forall_mem_cons' (plain_rejects (RHEL8_AutoPart.fails_mount _)) (List.forall_mem_nil _)))))))⟩
  (forall_mem_cons' ⟨_, mem_at 48 rfl, by decide +kernel, (forall_mem_cons' (plain_rejects (F23_ReqPart.fails_autopart _)) (forall_mem_cons' (plain_rejects (F23_ReqPart.fails_mount _)) (List.forall_mem_nil _)))⟩
  (forall_mem_cons' ⟨_, mem_at 35 rfl, by decide +kernel, (forall_mem_cons' (list_rejects (F27_Mount.fails_autopart _)) (forall_mem_cons' (list_rejects (F27_Mount.fails_partition _)) (forall_mem_cons' (list_rejects (F27_Mount.fails_raid _)) (forall_mem_cons' (list_rejects (F27_Mount.fails_volgroup _)) (forall_mem_cons' (list_rejects (F27_Mount.fails_logvol _)) (forall_mem_cons' (list_rejects (F27_Mount.fails_reqpart _)) (List.forall_mem_nil _)))))))⟩ (List.forall_mem_nil _)))))))))

theorem commandMapF29_refusals : ∀ x ∈ refusals true true, Refuses commandMapF29 x.1 x.2.1 x.2.2 :=
  (forall_mem_cons' ⟨_, mem_at 41 rfl, by decide +kernel, (forall_mem_cons' (list_rejects (F29_Partition.fails_autopart _)) (forall_mem_cons' (list_rejects (F29_Partition.fails_mount _)) (List.forall_mem_nil _)))⟩
  (forall_mem_cons' ⟨_, mem_at 42 rfl, by decide +kernel, (forall_mem_cons' (list_rejects (F29_Partition.fails_autopart _)) (forall_mem_cons' (list_rejects (F29_Partition.fails_mount _)) (List.forall_mem_nil _)))⟩
  (forall_mem_cons' ⟨_, mem_at 44 rfl, by decide +kernel, (forall_mem_cons' (list_rejects (F29_Raid.fails_autopart _)) (forall_mem_cons' (list_rejects (F29_Raid.fails_mount _)) (List.forall_mem_nil _)))⟩
  (forall_mem_cons' ⟨_, mem_at 65 rfl, by decide +kernel, (forall_mem_cons' (list_rejects (F16_VolGroup.fails_autopart _)) (forall_mem_cons' (list_rejects (F16_VolGroup.fails_mount _)) (List.forall_mem_nil _)))⟩
  (forall_mem_cons' ⟨_, mem_at 32 rfl, by decide +kernel, (forall_mem_cons' (list_rejects (F29_LogVol.fails_autopart _)) (forall_mem_cons' (list_rejects (F29_LogVol.fails_mount _)) (List.forall_mem_nil _)))⟩
  (forall_mem_cons' ⟨_, mem_at 3 rfl, by decide +kernel, (forall_mem_cons' (plain_rejects (F29_AutoPart.fails_partition _)) (forall_mem_cons' (plain_rejects (F29_AutoPart.fails_raid _)) (forall_mem_cons' (plain_rejects (F29_AutoPart.fails_volgroup _)) (forall_mem_cons' (plain_rejects (F29_AutoPart.fails_logvol _)) (forall_mem_cons' (plain_rejects (F29_AutoPart.fails_reqpart _)) (forall_mem_cons' (plain_rejects (F29_AutoPart.fails_mount _)) (List.forall_mem_nil _)))))))⟩
  (forall_mem_cons' ⟨_, mem_at 48 rfl, by decide +kernel, (forall_mem_cons' (plain_rejects (F23_ReqPart.fails_autopart _)) (forall_mem_cons' (plain_rejects (F23_ReqPart.fails_mount _)) (List.forall_mem_nil _)))⟩
  (forall_mem_cons' ⟨_, mem_at 35 rfl, by decide +kernel, (forall_mem_cons' (list_rejects (F27_Mount.fails_autopart _)) (forall_mem_cons' (list_rejects (F27_Mount.fails_partition _)) (forall_mem_cons' (list_rejects (F27_Mount.fails_raid _)) (forall_mem_cons' (list_rejects (F27_Mount.fails_volgroup _)) (forall_mem_cons' (list_rejects (F27_Mount.fails_logvol _)) (forall_mem_cons' (list_rejects (F27_Mount.fails_reqpart _)) (List.forall_mem_nil _)))))))⟩ (List.forall_mem_nil _)))))))))

theorem commandMapF30_refusals : ∀ x ∈ refusals true true, Refuses commandMapF30 x.1 x.2.1 x.2.2 :=
  (forall_mem_cons' ⟨_, mem_at 41 rfl, by decide +kernel, (forall_mem_cons' (list_rejects (F29_Partition.fails_autopart _)) (forall_mem_cons' (list_rejects (F29_Partition.fails_mount _)) (List.forall_mem_nil _)))⟩
  (forall_mem_cons' ⟨_, mem_at 42 rfl, by decide +kernel, (forall_mem_cons' (list_rejects (F29_Partition.fails_autopart _)) (forall_mem_cons' (list_rejects (F29_Partition.fails_mount _)) (List.forall_mem_nil _)))⟩
  (forall_mem_cons' ⟨_, mem_at 44 rfl, by decide +kernel, (forall_mem_cons' (list_rejects (F29_Raid.fails_autopart _)) (forall_mem_cons' (list_rejects (F29_Raid.fails_mount _)) (List.forall_mem_nil _)))⟩
  (forall_mem_cons' ⟨_, mem_at 64 rfl, by decide +kernel, (forall_mem_cons' (list_rejects (F16_VolGroup.fails_autopart _)) (forall_mem_cons' (list_rejects (F16_VolGroup.fails_mount _)) (List.forall_mem_nil _)))⟩
  (forall_mem_cons' ⟨_, mem_at 32 rfl, by decide +kernel, (forall_mem_cons' (list_rejects (F29_LogVol.fails_autopart _)) (forall_mem_cons' (list_rejects (F29_LogVol.fails_mount _)) (List.forall_mem_nil _)))⟩
  (forall_mem_cons' ⟨_, mem_at 3 rfl, by decide +kernel, (forall_mem_cons' (plain_rejects (F29_AutoPart.fails_partition _)) (forall_mem_cons' (plain_rejects (F29_AutoPart.fails_raid _)) (forall_mem_cons' (plain_rejects (F29_AutoPart.fails_volgroup _)) (forall_mem_cons' (plain_rejects (F29_AutoPart.fails_logvol _)) (forall_mem_cons' (plain_rejects (F29_AutoPart.fails_reqpart _)) (forall_mem_cons' (plain_rejects (F29_AutoPart.fails_mount _)) (List.forall_mem_nil _)))))))⟩
  (forall_mem_cons' ⟨_, mem_at 48 rfl, by decide +kernel, (forall_mem_cons' (plain_rejects (F23_ReqPart.fails_autopart _)) (forall_mem_cons' (plain_rejects (F23_ReqPart.fails_mount _)) (List.forall_mem_nil _)))⟩
  (forall_mem_cons' ⟨_, mem_at 35 rfl, by decide +kernel, (forall_mem_cons' (list_rejects (F27_Mount.fails_autopart _)) (forall_mem_cons' (list_rejects (F27_Mount.fails_partition _)) (forall_mem_cons' (list_rejects (F27_Mount.fails_raid _)) (forall_mem_cons' (list_rejects (F27_Mount.fails_volgroup _)) (forall_mem_cons' (list_rejects (F27_Mount.fails_logvol _)) (forall_mem_cons' (list_rejects (F27_Mount.fails_reqpart _)) (List.forall_mem_nil _)))))))⟩ (List.forall_mem_nil _)))))))))

theorem commandMapF31_refusals : ∀ x ∈ refusals true true, Refuses commandMapF31 x.1 x.2.1 x.2.2 :=
  (forall_mem_cons' ⟨_, mem_at 41 rfl, by decide +kernel, (forall_mem_cons' (list_rejects (F29_Partition.fails_autopart _)) (forall_mem_cons' (list_rejects (F29_Partition.fails_mount _)) (List.forall_mem_nil _)))⟩
  (forall_mem_cons' ⟨_, mem_at 42 rfl, by decide +kernel, (forall_mem_cons' (list_rejects (F29_Partition.fails_autopart _)) (forall_mem_cons' (list_rejects (F29_Partition.fails_mount _)) (List.forall_mem_nil _)))⟩
  (forall_mem_cons' ⟨_, mem_at 44 rfl, by decide +kernel, (forall_mem_cons' (list_rejects (F29_Raid.fails_autopart _)) (forall_mem_cons' (list_rejects (F29_Raid.fails_mount _)) (List.forall_mem_nil _)))⟩
  (forall_mem_cons' ⟨_, mem_at 64 rfl, by decide +kernel, (forall_mem_cons' (list_rejects (F16_VolGroup.fails_autopart _)) (forall_mem_cons' (list_rejects (F16_VolGroup.fails_mount _)) (List.forall_mem_nil _)))⟩
  (forall_mem_cons' ⟨_, mem_at 32 rfl, by decide +kernel, (forall_mem_cons' (list_rejects (F29_LogVol.fails_autopart _)) (forall_mem_cons' (list_rejects (F29_LogVol.fails_mount _)) (List.forall_mem_nil _)))⟩
  (forall_mem_cons' ⟨_, mem_at 3 rfl, by decide +kernel, (forall_mem_cons' (plain_rejects (F29_AutoPart.fails_partition _)) (forall_mem_cons' (plain_rejects (F29_AutoPart.fails_raid _)) (forall_mem_cons' (plain_rejects (F29_AutoPart.fails_volgroup _)) (forall_mem_cons' (plain_rejects (F29_AutoPart.fails_logvol _)) (forall_mem_cons' (plain_rejects (F29_AutoPart.fails_reqpart _)) (forall_mem_cons' (plain_rejects (F29_AutoPart.fails_mount _)) (List.forall_mem_nil _)))))))⟩
  (forall_mem_cons' ⟨_, mem_at 48 rfl, by decide +kernel, (forall_mem_cons' (plain_rejects (F23_ReqPart.fails_autopart _)) (forall_mem_cons' (plain_rejects (F23_ReqPart.fails_mount _)) (List.forall_mem_nil _)))⟩
  (forall_mem_cons' ⟨_, mem_at 35 rfl, by decide +kernel, (forall_mem_cons' (list_rejects (F27_Mount.fails_autopart _)) (forall_mem_cons' (list_rejects (F27_Mount.fails_partition _)) (forall_mem_cons' (list_rejects (F27_Mount.fails_raid _)) (forall_mem_cons' (list_rejects (F27_Mount.fails_volgroup _)) (forall_mem_cons' (list_rejects (F27_Mount.fails_logvol _)) (forall_mem_cons' (list_rejects (F27_Mount.fails_reqpart _)) (List.forall_mem_nil _)))))))⟩ (List.forall_mem_nil _)))))))))

theorem commandMapF32_refusals : ∀ x ∈ refusals true true, Refuses commandMapF32 x.1 x.2.1 x.2.2 :=
  (forall_mem_cons' ⟨_, mem_at 41 rfl, by decide +kernel, (forall_mem_cons' (list_rejects (F29_Partition.fails_autopart _)) (forall_mem_cons' (list_rejects (F29_Partition.fails_mount _)) (List.forall_mem_nil _)))⟩
  (forall_mem_cons' ⟨_, mem_at 42 rfl, by decide +kernel, (forall_mem_cons' (list_rejects (F29_Partition.fails_autopart _)) (forall_mem_cons' (list_rejects (F29_Partition.fails_mount _)) (List.forall_mem_nil _)))⟩
  (forall_mem_cons' ⟨_, mem_at 44 rfl, by decide +kernel, (forall_mem_cons' (list_rejects (F29_Raid.fails_autopart _)) (forall_mem_cons' (list_rejects (F29_Raid.fails_mount _)) (List.forall_mem_nil _)))⟩
  (forall_mem_cons' ⟨_, mem_at 64 rfl, by decide +kernel, (forall_mem_cons' (list_rejects (F16_VolGroup.fails_autopart _)) (forall_mem_cons' (list_rejects (F16_VolGroup.fails_mount _)) (List.forall_mem_nil _)))⟩
  (forall_mem_cons' ⟨_, mem_at 32 rfl, by decide +kernel, (forall_mem_cons' (list_rejects (F29_LogVol.fails_autopart _)) (forall_mem_cons' (list_rejects (F29_LogVol.fails_mount _)) (List.forall_mem_nil _)))⟩
  (forall_mem_cons' ⟨_, mem_at 3 rfl, by decide +kernel, (forall_mem_cons' (plain_rejects (F29_AutoPart.fails_partition _)) (forall_mem_cons' (plain_rejects (F29_AutoPart.fails_raid _)) (forall_mem_cons' (plain_rejects (F29_AutoPart.fails_volgroup _)) (forall_mem_cons' (plain_rejects (F29_AutoPart.fails_logvol _)) (forall_mem_cons' (plain_rejects (F29_AutoPart.fails_reqpart _)) (forall_mem_cons' (plain_rejects (F29_AutoPart.fails_mount _)) (List.forall_mem_nil _)))))))⟩
  (forall_mem_cons' ⟨_, mem_at 48 rfl, by decide +kernel, (forall_mem_cons' (plain_rejects (F23_ReqPart.fails_autopart _)) (forall_mem_cons' (plain_rejects (F23_ReqPart.fails_mount _)) (List.forall_mem_nil _)))⟩
  (forall_mem_cons' ⟨_, mem_at 35 rfl, by decide +kernel, (forall_mem_cons' (list_rejects (F27_Mount.fails_autopart _)) (forall_mem_cons' (list_rejects (F27_Mount.fails_partition _)) (forall_mem_cons' (list_rejects (F27_Mount.fails_raid _)) (forall_mem_cons' (list_rejects (F27_Mount.fails_volgroup _)) (forall_mem_cons' (list_rejects (F27_Mount.fails_logvol _)) (forall_mem_cons' (list_rejects (F27_Mount.fails_reqpart _)) (List.forall_mem_nil _)))))))⟩ (List.forall_mem_nil _)))))))))

theorem commandMapF33_refusals : ∀ x ∈ refusals true true, Refuses commandMapF33 x.1 x.2.1 x.2.2 :=
  (forall_mem_cons' ⟨_, mem_at 42 rfl, by decide +kernel, (forall_mem_cons' (list_rejects (F29_Partition.fails_autopart _)) (forall_mem_cons' (list_rejects (F29_Partition.fails_mount _)) (List.forall_mem_nil _)))⟩
  (forall_mem_cons' ⟨_, mem_at 43 rfl, by decide +kernel, (forall_mem_cons' (list_rejects (F29_Partition.fails_autopart _)) (forall_mem_cons' (list_rejects (F29_Partition.fails_mount _)) (List.forall_mem_nil _)))⟩
  (forall_mem_cons' ⟨_, mem_at 45 rfl, by decide +kernel, (forall_mem_cons' (list_rejects (F29_Raid.fails_autopart _)) (forall_mem_cons' (list_rejects (F29_Raid.fails_mount _)) (List.forall_mem_nil _)))⟩
  (forall_mem_cons' ⟨_, mem_at 65 rfl, by decide +kernel, (forall_mem_cons' (list_rejects (F16_VolGroup.fails_autopart _)) (forall_mem_cons' (list_rejects (F16_VolGroup.fails_mount _)) (List.forall_mem_nil _)))⟩
  (forall_mem_cons' ⟨_, mem_at 32 rfl, by decide +kernel, (forall_mem_cons' (list_rejects (F29_LogVol.fails_autopart _)) (forall_mem_cons' (list_rejects (F29_LogVol.fails_mount _)) (List.forall_mem_nil _)))⟩
  (forall_mem_cons' ⟨_, mem_at 3 rfl, by decide +kernel, (forall_mem_cons' (plain_rejects (F29_AutoPart.fails_partition _)) (forall_mem_cons' (plain_rejects (F29_AutoPart.fails_raid _)) (forall_mem_cons' (plain_rejects (F29_AutoPart.fails_volgroup _)) (forall_mem_cons' (plain_rejects (F29_AutoPart.fails_logvol _)) (forall_mem_cons' (plain_rejects (F29_AutoPart.fails_reqpart _)) (forall_mem_cons' (plain_rejects (F29_AutoPart.fails_mount _)) (List.forall_mem_nil _)))))))⟩
  (forall_mem_cons' ⟨_, mem_at 49 rfl, by decide +kernel, (forall_mem_cons' (plain_rejects (F23_ReqPart.fails_autopart _)) (forall_mem_cons' (plain_rejects (F23_ReqPart.fails_mount _)) (List.forall_mem_nil _)))⟩
  (forall_mem_cons' ⟨_, mem_at 35 rfl, by decide +kernel, (forall_mem_cons' (list_rejects (F27_Mount.fails_autopart _)) (forall_mem_cons' (list_rejects (F27_Mount.fails_partition _)) (forall_mem_cons' (list_rejects (F27_Mount.fails_raid _)) (forall_mem_cons' (list_rejects (F27_Mount.fails_volgroup _)) (forall_mem_cons' (list_rejects (F27_Mount.fails_logvol _)) (forall_mem_cons' (list_rejects (F27_Mount.fails_reqpart _)) (List.forall_mem_nil _)))))))⟩ (List.forall_mem_nil _)))))))))

theorem commandMapF34_refusals : ∀ x ∈ refusals true true, Refuses commandMapF34 x.1 x.2.1 x.2.2 :=
  (forall_mem_cons' ⟨_, mem_at 42 rfl, by decide +kernel, (forall_mem_cons' (list_rejects (F29_Partition.fails_autopart _)) (forall_mem_cons' (list_rejects (F29_Partition.fails_mount _)) (List.forall_mem_nil _)))⟩
  (forall_mem_cons' ⟨_, mem_at 43 rfl, by decide +kernel, (forall_mem_cons' (list_rejects (F29_Partition.fails_autopart _)) (forall_mem_cons' (list_rejects (F29_Partition.fails_mount _)) (List.forall_mem_nil _)))⟩
  (forall_mem_cons' ⟨_, mem_at 45 rfl, by decide +kernel, (forall_mem_cons' (list_rejects (F29_Raid.fails_autopart _)) (forall_mem_cons' (list_rejects (F29_Raid.fails_mount _)) (List.forall_mem_nil _)))⟩
  (forall_mem_cons' ⟨_, mem_at 65 rfl, by decide +kernel, (forall_mem_cons' (list_rejects (F16_VolGroup.fails_autopart _)) (forall_mem_cons' (list_rejects (F16_VolGroup.fails_mount _)) (List.forall_mem_nil _)))⟩
  (forall_mem_cons' ⟨_, mem_at 32 rfl, by decide +kernel, (forall_mem_cons' (list_rejects (F29_LogVol.fails_autopart _)) (forall_mem_cons' (list_rejects (F29_LogVol.fails_mount _)) (List.forall_mem_nil _)))⟩
  (forall_mem_cons' ⟨_, mem_at 3 rfl, by decide +kernel, (forall_mem_cons' (plain_rejects (F29_AutoPart.fails_partition _)) (forall_mem_cons' (plain_rejects (F29_AutoPart.fails_raid _)) (forall_mem_cons' (plain_rejects (F29_AutoPart.fails_volgroup _)) (forall_mem_cons' (plain_rejects (F29_AutoPart.fails_logvol _)) (forall_mem_cons' (plain_rejects (F29_AutoPart.fails_reqpart _)) (forall_mem_cons' (plain_rejects (F29_AutoPart.fails_mount _)) (List.forall_mem_nil _)))))))⟩
  (forall_mem_cons' ⟨_, mem_at 49 rfl, by decide +kernel, (forall_mem_cons' (plain_rejects (F23_ReqPart.fails_autopart _)) (forall_mem_cons' (plain_rejects (F23_ReqPart.fails_mount _)) (List.forall_mem_nil _)))⟩
  (forall_mem_cons' ⟨_, mem_at 35 rfl, by decide +kernel, (forall_mem_cons' (list_rejects (F27_Mount.fails_autopart _)) (forall_mem_cons' (list_rejects (F27_Mount.fails_partition _)) (forall_mem_cons' (list_rejects (F27_Mount.fails_raid _)) (forall_mem_cons' (list_rejects (F27_Mount.fails_volgroup _)) (forall_mem_cons' (list_rejects (F27_Mount.fails_logvol _)) (forall_mem_cons' (list_rejects (F27_Mount.fails_reqpart _)) (List.forall_mem_nil _)))))))⟩ (List.forall_mem_nil _)))))))))

/-- The versions for which the storage commands refuse each other. -/
theorem commandMaps_refusals : ∀ x ∈ commandMaps, (x.1 = Version.RHEL6 ∨ Version.F20 ≤ x.1) →
    ∀ y ∈ refusals (decide (x.1 = Version.RHEL7 ∨ Version.F23 ≤ x.1)) (decide (Version.F27 ≤ x.1)), Refuses x.2 y.1 y.2.1 y.2.2 := by
  unfold commandMaps
  exact (forall_mem_cons' (fun h => absurd h (by decide))
    (forall_mem_cons' (fun h => absurd h (by decide))
    (forall_mem_cons' (fun h => absurd h (by decide))
    (forall_mem_cons' (fun h => absurd h (by decide))
    (forall_mem_cons' (fun h => absurd h (by decide))
    (forall_mem_cons' (fun h => absurd h (by decide))
    (forall_mem_cons' (fun h => absurd h (by decide))
    (forall_mem_cons' (fun h => absurd h (by decide))
    (forall_mem_cons' (fun h => absurd h (by decide))
    (forall_mem_cons' (fun h => absurd h (by decide))
    (forall_mem_cons' (fun _ => commandMapF20_refusals)
    (forall_mem_cons' (fun _ => commandMapF21_refusals)
    (forall_mem_cons' (fun _ => commandMapF22_refusals)
    (forall_mem_cons' (fun _ => commandMapF23_refusals)
    (forall_mem_cons' (fun _ => commandMapF24_refusals)
    (forall_mem_cons' (fun _ => commandMapF25_refusals)
    (forall_mem_cons' (fun _ => commandMapF26_refusals)
    (forall_mem_cons' (fun _ => commandMapF27_refusals)
    (forall_mem_cons' (fun _ => commandMapF28_refusals)
    (forall_mem_cons' (fun _ => commandMapF29_refusals)
    (forall_mem_cons' (fun _ => commandMapF30_refusals)
    (forall_mem_cons' (fun _ => commandMapF31_refusals)
    (forall_mem_cons' (fun _ => commandMapF32_refusals)
    (forall_mem_cons' (fun _ => commandMapF33_refusals)
    (forall_mem_cons' (fun _ => commandMapF34_refusals)
    (forall_mem_cons' (fun h => absurd h (by decide))
    (forall_mem_cons' (fun h => absurd h (by decide))
    (forall_mem_cons' (fun h => absurd h (by decide))
    (forall_mem_cons' (fun h => absurd h (by decide))
    (forall_mem_cons' (fun h => absurd h (by decide))
    (forall_mem_cons' (fun h => absurd h (by decide))
    (forall_mem_cons' (fun h => absurd h (by decide))
    (forall_mem_cons' (fun h => absurd h (by decide))
    (forall_mem_cons' (fun h => absurd h (by decide))
    (forall_mem_cons' (fun h => absurd h (by decide))
    (forall_mem_cons' (fun _ => commandMapRHEL6_refusals)
    (forall_mem_cons' (fun _ => commandMapRHEL7_refusals)
    (forall_mem_cons' (fun _ => commandMapRHEL8_refusals) (List.forall_mem_nil _)))))))))))))))))))))))))))))))))))))))

end Ks.Cmd
