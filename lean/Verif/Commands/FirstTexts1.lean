import Verif.Commands.TextLogic
import Verif.Commands.TextTable
/-!
# The classes of the command maps write what the table says

Written by `scripts/gen_texts.py`.
-/
namespace Ks.Cmd

set_option linter.unusedVariables false

theorem writes_raidTexts_0_texts (n : Str) : ∀ i ∈ [0, 2, 4, 6, 8, 10, 12, 13, 14, 16, 18, 20, 21, 23, 25, 27, 29, 31, 33], Command.FirstText (F9_Raid.cls F9_RaidData.cls) n (raidTexts.texts.getD i noText) :=
  (all_cons (by intro b b' hb hb' x hx line l; rcases hb with rfl | rfl <;> rcases hb' with rfl | rfl <;> kernel_rfl)
    (all_cons (by intro b b' hb hb' x hx line l; rcases hb with rfl | rfl <;> rcases hb' with rfl | rfl <;> kernel_rfl)
    (all_cons (by intro b b' hb hb' x hx line l; rcases hb with rfl | rfl <;> rcases hb' with rfl | rfl <;> kernel_rfl)
    (all_cons (by intro b b' hb hb' x hx line l; rcases hb with rfl | rfl <;> rcases hb' with rfl | rfl <;> kernel_rfl)
    (all_cons (by intro b b' hb hb' x hx line l; rcases hb with rfl | rfl <;> rcases hb' with rfl | rfl <;> kernel_rfl)
    (all_cons (by intro b b' hb hb' x hx line l; rcases hb with rfl | rfl <;> rcases hb' with rfl | rfl <;> kernel_rfl)
    (all_cons (by
      intro b b' hb hb' x hx line l
      cases x with
      | nil => exact absurd rfl hx
      | cons a x => rcases hb with rfl | rfl <;> rcases hb' with rfl | rfl <;> (kernel_rfl))
    (all_cons (by intro b b' hb hb' x hx line l; rcases hb with rfl | rfl <;> rcases hb' with rfl | rfl <;> kernel_rfl)
    (all_cons (by intro b b' hb hb' x hx line l; rcases hb with rfl | rfl <;> rcases hb' with rfl | rfl <;> kernel_rfl)
    (all_cons (by intro b b' hb hb' x hx line l; rcases hb with rfl | rfl <;> rcases hb' with rfl | rfl <;> kernel_rfl)
    (all_cons (by intro b b' hb hb' x hx line l; rcases hb with rfl | rfl <;> rcases hb' with rfl | rfl <;> kernel_rfl)
    (all_cons (by intro b b' hb hb' x hx line l; rcases hb with rfl | rfl <;> rcases hb' with rfl | rfl <;> kernel_rfl)
    (all_cons (by intro b b' hb hb' x hx line l; rcases hb with rfl | rfl <;> rcases hb' with rfl | rfl <;> kernel_rfl)
    (all_cons (by intro b b' hb hb' x hx line l; rcases hb with rfl | rfl <;> rcases hb' with rfl | rfl <;> kernel_rfl)
    (all_cons (by intro b b' hb hb' x hx line l; rcases hb with rfl | rfl <;> rcases hb' with rfl | rfl <;> kernel_rfl)
    (all_cons (by intro b b' hb hb' x hx line l; rcases hb with rfl | rfl <;> rcases hb' with rfl | rfl <;> kernel_rfl)
    (all_cons (by intro b b' hb hb' x hx line l; rcases hb with rfl | rfl <;> rcases hb' with rfl | rfl <;> kernel_rfl)
    (all_cons (by intro b b' hb hb' x hx line l; rcases hb with rfl | rfl <;> rcases hb' with rfl | rfl <;> kernel_rfl)
    (all_cons (by intro b b' hb hb' x hx line l; rcases hb with rfl | rfl <;> rcases hb' with rfl | rfl <;> kernel_rfl)
    (List.forall_mem_nil _))))))))))))))))))))

theorem writes_raidTexts_0 : ∀ v, [Version.F9, Version.F10, Version.F11].contains v = true → Command.Writes (F9_Raid.cls F9_RaidData.cls) raidTexts v :=
  writes_of [0, 2, 4, 6, 8, 10, 12, 13, 14, 16, 18, 20, 21, 23, 25, 27, 29, 31, 33] (writes_raidTexts_0_texts _) (by decide +kernel)

theorem writes_raidTexts_1_texts (n : Str) : ∀ i ∈ [0, 2, 4, 6, 8, 10, 13, 14, 18, 20, 21, 23, 25, 27, 29, 31, 33, 35, 36, 37, 38, 39, 40, 41, 42, 43, 44, 45, 46, 47, 48, 49, 50, 51, 52], Command.FirstText (F29_Raid.cls F29_RaidData.cls) n (raidTexts.texts.getD i noText) :=
  (all_cons (by intro b b' hb hb' x hx line l; rcases hb with rfl | rfl <;> rcases hb' with rfl | rfl <;> kernel_rfl)
    (all_cons (by intro b b' hb hb' x hx line l; rcases hb with rfl | rfl <;> rcases hb' with rfl | rfl <;> kernel_rfl)
    (all_cons (by intro b b' hb hb' x hx line l; rcases hb with rfl | rfl <;> rcases hb' with rfl | rfl <;> kernel_rfl)
    (all_cons (by intro b b' hb hb' x hx line l; rcases hb with rfl | rfl <;> rcases hb' with rfl | rfl <;> kernel_rfl)
    (all_cons (by intro b b' hb hb' x hx line l; rcases hb with rfl | rfl <;> rcases hb' with rfl | rfl <;> kernel_rfl)
    (all_cons (by intro b b' hb hb' x hx line l; rcases hb with rfl | rfl <;> rcases hb' with rfl | rfl <;> kernel_rfl)
    (all_cons (by intro b b' hb hb' x hx line l; rcases hb with rfl | rfl <;> rcases hb' with rfl | rfl <;> kernel_rfl)
    (all_cons (by intro b b' hb hb' x hx line l; rcases hb with rfl | rfl <;> rcases hb' with rfl | rfl <;> kernel_rfl)
    (all_cons (by intro b b' hb hb' x hx line l; rcases hb with rfl | rfl <;> rcases hb' with rfl | rfl <;> kernel_rfl)
    (all_cons (by intro b b' hb hb' x hx line l; rcases hb with rfl | rfl <;> rcases hb' with rfl | rfl <;> kernel_rfl)
    (all_cons (by intro b b' hb hb' x hx line l; rcases hb with rfl | rfl <;> rcases hb' with rfl | rfl <;> kernel_rfl)
    (all_cons (by intro b b' hb hb' x hx line l; rcases hb with rfl | rfl <;> rcases hb' with rfl | rfl <;> kernel_rfl)
    (all_cons (by intro b b' hb hb' x hx line l; rcases hb with rfl | rfl <;> rcases hb' with rfl | rfl <;> kernel_rfl)
    (all_cons (by intro b b' hb hb' x hx line l; rcases hb with rfl | rfl <;> rcases hb' with rfl | rfl <;> kernel_rfl)
    (all_cons (by intro b b' hb hb' x hx line l; rcases hb with rfl | rfl <;> rcases hb' with rfl | rfl <;> kernel_rfl)
    (all_cons (by intro b b' hb hb' x hx line l; rcases hb with rfl | rfl <;> rcases hb' with rfl | rfl <;> kernel_rfl)
    (all_cons (by intro b b' hb hb' x hx line l; rcases hb with rfl | rfl <;> rcases hb' with rfl | rfl <;> kernel_rfl)
    (all_cons (by intro b b' hb hb' x hx line l; rcases hb with rfl | rfl <;> rcases hb' with rfl | rfl <;> kernel_rfl)
    (all_cons (by intro b b' hb hb' x hx line l; rcases hb with rfl | rfl <;> rcases hb' with rfl | rfl <;> kernel_rfl)
    (all_cons (by intro b b' hb hb' x hx line l; rcases hb with rfl | rfl <;> rcases hb' with rfl | rfl <;> kernel_rfl)
    (all_cons (by intro b b' hb hb' x hx line l; rcases hb with rfl | rfl <;> rcases hb' with rfl | rfl <;> kernel_rfl)
    (all_cons (by intro b b' hb hb' x hx line l; rcases hb with rfl | rfl <;> rcases hb' with rfl | rfl <;> kernel_rfl)
    (all_cons (by intro b b' hb hb' x hx line l; rcases hb with rfl | rfl <;> rcases hb' with rfl | rfl <;> kernel_rfl)
    (all_cons (by intro b b' hb hb' x hx line l; rcases hb with rfl | rfl <;> rcases hb' with rfl | rfl <;> kernel_rfl)
    (all_cons (by intro b b' hb hb' x hx line l; rcases hb with rfl | rfl <;> rcases hb' with rfl | rfl <;> kernel_rfl)
    (all_cons (by intro b b' hb hb' x hx line l; rcases hb with rfl | rfl <;> rcases hb' with rfl | rfl <;> kernel_rfl)
    (all_cons (by intro b b' hb hb' x hx line l; rcases hb with rfl | rfl <;> rcases hb' with rfl | rfl <;> kernel_rfl)
    (all_cons (by intro b b' hb hb' x hx line l; rcases hb with rfl | rfl <;> rcases hb' with rfl | rfl <;> kernel_rfl)
    (all_cons (by intro b b' hb hb' x hx line l; rcases hb with rfl | rfl <;> rcases hb' with rfl | rfl <;> kernel_rfl)
    (all_cons (by intro b b' hb hb' x hx line l; rcases hb with rfl | rfl <;> rcases hb' with rfl | rfl <;> kernel_rfl)
    (all_cons (by intro b b' hb hb' x hx line l; rcases hb with rfl | rfl <;> rcases hb' with rfl | rfl <;> kernel_rfl)
    (all_cons (by intro b b' hb hb' x hx line l; rcases hb with rfl | rfl <;> rcases hb' with rfl | rfl <;> kernel_rfl)
    (all_cons (by intro b b' hb hb' x hx line l; rcases hb with rfl | rfl <;> rcases hb' with rfl | rfl <;> kernel_rfl)
    (all_cons (by intro b b' hb hb' x hx line l; rcases hb with rfl | rfl <;> rcases hb' with rfl | rfl <;> kernel_rfl)
    (all_cons (by intro b b' hb hb' x hx line l; rcases hb with rfl | rfl <;> rcases hb' with rfl | rfl <;> kernel_rfl)
    (List.forall_mem_nil _))))))))))))))))))))))))))))))))))))

theorem writes_raidTexts_1 : ∀ v, [Version.F29, Version.F30, Version.F31, Version.F32, Version.F33, Version.F34].contains v = true → Command.Writes (F29_Raid.cls F29_RaidData.cls) raidTexts v :=
  writes_of [0, 2, 4, 6, 8, 10, 13, 14, 18, 20, 21, 23, 25, 27, 29, 31, 33, 35, 36, 37, 38, 39, 40, 41, 42, 43, 44, 45, 46, 47, 48, 49, 50, 51, 52] (writes_raidTexts_1_texts _) (by decide +kernel)

theorem writes_raidTexts_2_texts (n : Str) : ∀ i ∈ [0, 2, 4, 8, 21, 23, 25, 27, 29, 31, 33], Command.FirstText (FC3_Raid.cls FC3_RaidData.cls) n (raidTexts.texts.getD i noText) :=
  (all_cons (by intro b b' hb hb' x hx line l; rcases hb with rfl | rfl <;> rcases hb' with rfl | rfl <;> kernel_rfl)
    (all_cons (by intro b b' hb hb' x hx line l; rcases hb with rfl | rfl <;> rcases hb' with rfl | rfl <;> kernel_rfl)
    (all_cons (by intro b b' hb hb' x hx line l; rcases hb with rfl | rfl <;> rcases hb' with rfl | rfl <;> kernel_rfl)
    (all_cons (by intro b b' hb hb' x hx line l; rcases hb with rfl | rfl <;> rcases hb' with rfl | rfl <;> kernel_rfl)
    (all_cons (by intro b b' hb hb' x hx line l; rcases hb with rfl | rfl <;> rcases hb' with rfl | rfl <;> kernel_rfl)
    (all_cons (by intro b b' hb hb' x hx line l; rcases hb with rfl | rfl <;> rcases hb' with rfl | rfl <;> kernel_rfl)
    (all_cons (by intro b b' hb hb' x hx line l; rcases hb with rfl | rfl <;> rcases hb' with rfl | rfl <;> kernel_rfl)
    (all_cons (by intro b b' hb hb' x hx line l; rcases hb with rfl | rfl <;> rcases hb' with rfl | rfl <;> kernel_rfl)
    (all_cons (by intro b b' hb hb' x hx line l; rcases hb with rfl | rfl <;> rcases hb' with rfl | rfl <;> kernel_rfl)
    (all_cons (by intro b b' hb hb' x hx line l; rcases hb with rfl | rfl <;> rcases hb' with rfl | rfl <;> kernel_rfl)
    (all_cons (by intro b b' hb hb' x hx line l; rcases hb with rfl | rfl <;> rcases hb' with rfl | rfl <;> kernel_rfl)
    (List.forall_mem_nil _))))))))))))

theorem writes_raidTexts_2 : ∀ v, [Version.RHEL3, Version.FC3, Version.RHEL4].contains v = true → Command.Writes (FC3_Raid.cls FC3_RaidData.cls) raidTexts v :=
  writes_of [0, 2, 4, 8, 21, 23, 25, 27, 29, 31, 33] (writes_raidTexts_2_texts _) (by decide +kernel)

theorem writes_raidTexts_3_texts (n : Str) : ∀ i ∈ [1, 3, 5, 9, 11, 17, 22, 24, 26, 28, 30, 32, 34], Command.FirstText (FC5_Raid.cls FC5_RaidData.cls) n (raidTexts.texts.getD i noText) :=
  (all_cons (by intro b b' hb hb' x hx line l; rcases hb with rfl | rfl <;> rcases hb' with rfl | rfl <;> kernel_rfl)
    (all_cons (by intro b b' hb hb' x hx line l; rcases hb with rfl | rfl <;> rcases hb' with rfl | rfl <;> kernel_rfl)
    (all_cons (by intro b b' hb hb' x hx line l; rcases hb with rfl | rfl <;> rcases hb' with rfl | rfl <;> kernel_rfl)
    (all_cons (by intro b b' hb hb' x hx line l; rcases hb with rfl | rfl <;> rcases hb' with rfl | rfl <;> kernel_rfl)
    (all_cons (by intro b b' hb hb' x hx line l; rcases hb with rfl | rfl <;> rcases hb' with rfl | rfl <;> kernel_rfl)
    (all_cons (by intro b b' hb hb' x hx line l; rcases hb with rfl | rfl <;> rcases hb' with rfl | rfl <;> kernel_rfl)
    (all_cons (by intro b b' hb hb' x hx line l; rcases hb with rfl | rfl <;> rcases hb' with rfl | rfl <;> kernel_rfl)
    (all_cons (by intro b b' hb hb' x hx line l; rcases hb with rfl | rfl <;> rcases hb' with rfl | rfl <;> kernel_rfl)
    (all_cons (by intro b b' hb hb' x hx line l; rcases hb with rfl | rfl <;> rcases hb' with rfl | rfl <;> kernel_rfl)
    (all_cons (by intro b b' hb hb' x hx line l; rcases hb with rfl | rfl <;> rcases hb' with rfl | rfl <;> kernel_rfl)
    (all_cons (by intro b b' hb hb' x hx line l; rcases hb with rfl | rfl <;> rcases hb' with rfl | rfl <;> kernel_rfl)
    (all_cons (by intro b b' hb hb' x hx line l; rcases hb with rfl | rfl <;> rcases hb' with rfl | rfl <;> kernel_rfl)
    (all_cons (by intro b b' hb hb' x hx line l; rcases hb with rfl | rfl <;> rcases hb' with rfl | rfl <;> kernel_rfl)
    (List.forall_mem_nil _))))))))))))))

theorem writes_raidTexts_3 : ∀ v, [Version.FC5, Version.FC6].contains v = true → Command.Writes (FC5_Raid.cls FC5_RaidData.cls) raidTexts v :=
  writes_of [1, 3, 5, 9, 11, 17, 22, 24, 26, 28, 30, 32, 34] (writes_raidTexts_3_texts _) (by decide +kernel)

theorem writes_raidTexts_4_texts (n : Str) : ∀ i ∈ [7, 15, 19], Command.FirstText (RHEL5_Raid.cls RHEL5_RaidData.cls) n (raidTexts.texts.getD i noText) :=
  (all_cons (by intro b b' hb hb' x hx line l; rcases hb with rfl | rfl <;> rcases hb' with rfl | rfl <;> kernel_rfl)
    (all_cons (by intro b b' hb hb' x hx line l; rcases hb with rfl | rfl <;> rcases hb' with rfl | rfl <;> kernel_rfl)
    (all_cons (by intro b b' hb hb' x hx line l; rcases hb with rfl | rfl <;> rcases hb' with rfl | rfl <;> kernel_rfl)
    (List.forall_mem_nil _))))

theorem writes_raidTexts_4 : ∀ v, [Version.RHEL5].contains v = true → Command.Writes (RHEL5_Raid.cls RHEL5_RaidData.cls) raidTexts v :=
  writes_of [7, 15, 19] (writes_raidTexts_4_texts _) (by decide +kernel)

theorem writes_raidTexts_5_texts (n : Str) : ∀ i ∈ [10], Command.FirstText (FC4_Raid.cls FC4_RaidData.cls) n (raidTexts.texts.getD i noText) :=
  (all_cons (by intro b b' hb hb' x hx line l; rcases hb with rfl | rfl <;> rcases hb' with rfl | rfl <;> kernel_rfl)
    (List.forall_mem_nil _))

theorem writes_raidTexts_5 : ∀ v, [Version.FC4].contains v = true → Command.Writes (FC4_Raid.cls FC4_RaidData.cls) raidTexts v :=
  writes_of [10] (writes_raidTexts_5_texts _) (by decide +kernel)

theorem writes_raidTexts_6_texts (n : Str) : ∀ i ∈ [12, 16, 43], Command.FirstText (RHEL6_Raid.cls RHEL6_RaidData.cls) n (raidTexts.texts.getD i noText) :=
  (all_cons (by
      intro b b' hb hb' x hx line l
      cases x with
      | nil => exact absurd rfl hx
      | cons a x => rcases hb with rfl | rfl <;> rcases hb' with rfl | rfl <;> (kernel_rfl))
    (all_cons (by intro b b' hb hb' x hx line l; rcases hb with rfl | rfl <;> rcases hb' with rfl | rfl <;> kernel_rfl)
    (all_cons (by intro b b' hb hb' x hx line l; rcases hb with rfl | rfl <;> rcases hb' with rfl | rfl <;> kernel_rfl)
    (List.forall_mem_nil _))))

theorem writes_raidTexts_6 : ∀ v, [Version.RHEL6].contains v = true → Command.Writes (RHEL6_Raid.cls RHEL6_RaidData.cls) raidTexts v :=
  writes_of [12, 16, 43] (writes_raidTexts_6_texts _) (by decide +kernel)

theorem writes_raidTexts_7_texts (n : Str) : ∀ i ∈ [35, 36, 37], Command.FirstText (F12_Raid.cls F12_RaidData.cls) n (raidTexts.texts.getD i noText) :=
  (all_cons (by intro b b' hb hb' x hx line l; rcases hb with rfl | rfl <;> rcases hb' with rfl | rfl <;> kernel_rfl)
    (all_cons (by intro b b' hb hb' x hx line l; rcases hb with rfl | rfl <;> rcases hb' with rfl | rfl <;> kernel_rfl)
    (all_cons (by intro b b' hb hb' x hx line l; rcases hb with rfl | rfl <;> rcases hb' with rfl | rfl <;> kernel_rfl)
    (List.forall_mem_nil _))))

theorem writes_raidTexts_7 : ∀ v, [Version.F12].contains v = true → Command.Writes (F12_Raid.cls F12_RaidData.cls) raidTexts v :=
  writes_of [35, 36, 37] (writes_raidTexts_7_texts _) (by decide +kernel)

theorem writes_raidTexts_8_texts (n : Str) : ∀ i ∈ [38, 39], Command.FirstText (F13_Raid.cls F13_RaidData.cls) n (raidTexts.texts.getD i noText) :=
  (all_cons (by intro b b' hb hb' x hx line l; rcases hb with rfl | rfl <;> rcases hb' with rfl | rfl <;> kernel_rfl)
    (all_cons (by intro b b' hb hb' x hx line l; rcases hb with rfl | rfl <;> rcases hb' with rfl | rfl <;> kernel_rfl)
    (List.forall_mem_nil _)))

theorem writes_raidTexts_8 : ∀ v, [Version.F13].contains v = true → Command.Writes (F13_Raid.cls F13_RaidData.cls) raidTexts v :=
  writes_of [38, 39] (writes_raidTexts_8_texts _) (by decide +kernel)

theorem writes_raidTexts_9_texts (n : Str) : ∀ i ∈ [40, 41, 42], Command.FirstText (F15_Raid.cls F15_RaidData.cls) n (raidTexts.texts.getD i noText) :=
  (all_cons (by intro b b' hb hb' x hx line l; rcases hb with rfl | rfl <;> rcases hb' with rfl | rfl <;> kernel_rfl)
    (all_cons (by intro b b' hb hb' x hx line l; rcases hb with rfl | rfl <;> rcases hb' with rfl | rfl <;> kernel_rfl)
    (all_cons (by intro b b' hb hb' x hx line l; rcases hb with rfl | rfl <;> rcases hb' with rfl | rfl <;> kernel_rfl)
    (List.forall_mem_nil _))))

theorem writes_raidTexts_9 : ∀ v, [Version.F15, Version.F16, Version.F17].contains v = true → Command.Writes (F15_Raid.cls F15_RaidData.cls) raidTexts v :=
  writes_of [40, 41, 42] (writes_raidTexts_9_texts _) (by decide +kernel)

theorem writes_raidTexts_10_texts (n : Str) : ∀ i ∈ [44, 45], Command.FirstText (F19_Raid.cls F18_RaidData.cls) n (raidTexts.texts.getD i noText) :=
  (all_cons (by intro b b' hb hb' x hx line l; rcases hb with rfl | rfl <;> rcases hb' with rfl | rfl <;> kernel_rfl)
    (all_cons (by intro b b' hb hb' x hx line l; rcases hb with rfl | rfl <;> rcases hb' with rfl | rfl <;> kernel_rfl)
    (List.forall_mem_nil _)))

theorem writes_raidTexts_10 : ∀ v, [Version.F19].contains v = true → Command.Writes (F19_Raid.cls F18_RaidData.cls) raidTexts v :=
  writes_of [44, 45] (writes_raidTexts_10_texts _) (by decide +kernel)

theorem writes_raidTexts_11_texts (n : Str) : ∀ i ∈ [46, 47], Command.FirstText (RHEL7_Raid.cls RHEL7_RaidData.cls) n (raidTexts.texts.getD i noText) :=
  (all_cons (by intro b b' hb hb' x hx line l; rcases hb with rfl | rfl <;> rcases hb' with rfl | rfl <;> kernel_rfl)
    (all_cons (by intro b b' hb hb' x hx line l; rcases hb with rfl | rfl <;> rcases hb' with rfl | rfl <;> kernel_rfl)
    (List.forall_mem_nil _)))

theorem writes_raidTexts_11 : ∀ v, [Version.RHEL7].contains v = true → Command.Writes (RHEL7_Raid.cls RHEL7_RaidData.cls) raidTexts v :=
  writes_of [46, 47] (writes_raidTexts_11_texts _) (by decide +kernel)

theorem writes_raidTexts_12_texts (n : Str) : ∀ i ∈ [48, 49, 50, 51, 52], Command.FirstText (RHEL8_Raid.cls RHEL8_RaidData.cls) n (raidTexts.texts.getD i noText) :=
  (all_cons (by intro b b' hb hb' x hx line l; rcases hb with rfl | rfl <;> rcases hb' with rfl | rfl <;> kernel_rfl)
    (all_cons (by intro b b' hb hb' x hx line l; rcases hb with rfl | rfl <;> rcases hb' with rfl | rfl <;> kernel_rfl)
    (all_cons (by intro b b' hb hb' x hx line l; rcases hb with rfl | rfl <;> rcases hb' with rfl | rfl <;> kernel_rfl)
    (all_cons (by intro b b' hb hb' x hx line l; rcases hb with rfl | rfl <;> rcases hb' with rfl | rfl <;> kernel_rfl)
    (all_cons (by intro b b' hb hb' x hx line l; rcases hb with rfl | rfl <;> rcases hb' with rfl | rfl <;> kernel_rfl)
    (List.forall_mem_nil _))))))

theorem writes_raidTexts_12 : ∀ v, [Version.RHEL8].contains v = true → Command.Writes (RHEL8_Raid.cls RHEL8_RaidData.cls) raidTexts v :=
  writes_of [48, 49, 50, 51, 52] (writes_raidTexts_12_texts _) (by decide +kernel)

theorem writes_raidTexts : raidTexts.Written := by
  unfold CommandTexts.Written commandMaps
  exact (all_cons (fun c h => by cases h; exact writes_raidTexts_0 _ rfl)
    (all_cons (fun c h => by cases h; exact writes_raidTexts_0 _ rfl)
    (all_cons (fun c h => by cases h; exact writes_raidTexts_7 _ rfl)
    (all_cons (fun c h => by cases h; exact writes_raidTexts_8 _ rfl)
    (all_cons (fun c h => by cases h; exact writes_none (by decide +kernel))
    (all_cons (fun c h => by cases h; exact writes_raidTexts_9 _ rfl)
    (all_cons (fun c h => by cases h; exact writes_raidTexts_9 _ rfl)
    (all_cons (fun c h => by cases h; exact writes_raidTexts_9 _ rfl)
    (all_cons (fun c h => by cases h; exact writes_none (by decide +kernel))
    (all_cons (fun c h => by cases h; exact writes_raidTexts_10 _ rfl)
    (all_cons (fun c h => by cases h; exact writes_none (by decide +kernel))
    (all_cons (fun c h => by cases h; exact writes_none (by decide +kernel))
    (all_cons (fun c h => by cases h; exact writes_none (by decide +kernel))
    (all_cons (fun c h => by cases h; exact writes_none (by decide +kernel))
    (all_cons (fun c h => by cases h; exact writes_none (by decide +kernel))
    (all_cons (fun c h => by cases h; exact writes_none (by decide +kernel))
    (all_cons (fun c h => by cases h; exact writes_none (by decide +kernel))
    (all_cons (fun c h => by cases h; exact writes_none (by decide +kernel))
    (all_cons (fun c h => by cases h; exact writes_none (by decide +kernel))
    (all_cons (fun c h => by cases h; exact writes_raidTexts_1 _ rfl)
    (all_cons (fun c h => by cases h; exact writes_raidTexts_1 _ rfl)
    (all_cons (fun c h => by cases h; exact writes_raidTexts_1 _ rfl)
    (all_cons (fun c h => by cases h; exact writes_raidTexts_1 _ rfl)
    (all_cons (fun c h => by cases h; exact writes_raidTexts_1 _ rfl)
    (all_cons (fun c h => by cases h; exact writes_raidTexts_1 _ rfl)
    (all_cons (fun c h => by cases h; exact writes_none (by decide +kernel))
    (all_cons (fun c h => by cases h; exact writes_none (by decide +kernel))
    (all_cons (fun c h => by cases h; exact writes_raidTexts_0 _ rfl)
    (all_cons (fun c h => by cases h; exact writes_raidTexts_2 _ rfl)
    (all_cons (fun c h => by cases h; exact writes_raidTexts_5 _ rfl)
    (all_cons (fun c h => by cases h; exact writes_raidTexts_3 _ rfl)
    (all_cons (fun c h => by cases h; exact writes_raidTexts_3 _ rfl)
    (all_cons (fun c h => by cases h; exact writes_raidTexts_2 _ rfl)
    (all_cons (fun c h => by cases h; exact writes_raidTexts_2 _ rfl)
    (all_cons (fun c h => by cases h; exact writes_raidTexts_4 _ rfl)
    (all_cons (fun c h => by cases h; exact writes_raidTexts_6 _ rfl)
    (all_cons (fun c h => by cases h; exact writes_raidTexts_11 _ rfl)
    (all_cons (fun c h => by cases h; exact writes_raidTexts_12 _ rfl)
    (List.forall_mem_nil _)))))))))))))))))))))))))))))))))))))))

theorem writes_volgroupTexts_0_texts (n : Str) : ∀ i ∈ [0, 2, 3, 6, 9, 10, 12, 14], Command.FirstText (FC3_VolGroup.cls FC3_VolGroupData.cls) n (volgroupTexts.texts.getD i noText) :=
  (all_cons (by intro b b' hb hb' x hx line l; rcases hb with rfl | rfl <;> rcases hb' with rfl | rfl <;> kernel_rfl)
    (all_cons (by intro b b' hb hb' x hx line l; rcases hb with rfl | rfl <;> rcases hb' with rfl | rfl <;> kernel_rfl)
    (all_cons (by intro b b' hb hb' x hx line l; rcases hb with rfl | rfl <;> rcases hb' with rfl | rfl <;> kernel_rfl)
    (all_cons (by intro b b' hb hb' x hx line l; rcases hb with rfl | rfl <;> rcases hb' with rfl | rfl <;> kernel_rfl)
    (all_cons (by intro b b' hb hb' x hx line l; rcases hb with rfl | rfl <;> rcases hb' with rfl | rfl <;> kernel_rfl)
    (all_cons (by intro b b' hb hb' x hx line l; rcases hb with rfl | rfl <;> rcases hb' with rfl | rfl <;> kernel_rfl)
    (all_cons (by intro b b' hb hb' x hx line l; rcases hb with rfl | rfl <;> rcases hb' with rfl | rfl <;> kernel_rfl)
    (all_cons (by intro b b' hb hb' x hx line l; rcases hb with rfl | rfl <;> rcases hb' with rfl | rfl <;> kernel_rfl)
    (List.forall_mem_nil _)))))))))

theorem writes_volgroupTexts_0 : ∀ v, [Version.RHEL3, Version.FC3, Version.RHEL4, Version.FC4, Version.FC5, Version.FC6, Version.RHEL5, Version.F7, Version.F8, Version.F9, Version.F10, Version.F11, Version.F12, Version.F13, Version.F14, Version.F15].contains v = true → Command.Writes (FC3_VolGroup.cls FC3_VolGroupData.cls) volgroupTexts v :=
  writes_of [0, 2, 3, 6, 9, 10, 12, 14] (writes_volgroupTexts_0_texts _) (by decide +kernel)

theorem writes_volgroupTexts_1_texts (n : Str) : ∀ i ∈ [0, 2, 4, 7, 9, 10, 12, 14], Command.FirstText (F16_VolGroup.cls F16_VolGroupData.cls) n (volgroupTexts.texts.getD i noText) :=
  (all_cons (by intro b b' hb hb' x hx line l; rcases hb with rfl | rfl <;> rcases hb' with rfl | rfl <;> kernel_rfl)
    (all_cons (by intro b b' hb hb' x hx line l; rcases hb with rfl | rfl <;> rcases hb' with rfl | rfl <;> kernel_rfl)
    (all_cons (by intro b b' hb hb' x hx line l; rcases hb with rfl | rfl <;> rcases hb' with rfl | rfl <;> kernel_rfl)
    (all_cons (by intro b b' hb hb' x hx line l; rcases hb with rfl | rfl <;> rcases hb' with rfl | rfl <;> kernel_rfl)
    (all_cons (by intro b b' hb hb' x hx line l; rcases hb with rfl | rfl <;> rcases hb' with rfl | rfl <;> kernel_rfl)
    (all_cons (by intro b b' hb hb' x hx line l; rcases hb with rfl | rfl <;> rcases hb' with rfl | rfl <;> kernel_rfl)
    (all_cons (by intro b b' hb hb' x hx line l; rcases hb with rfl | rfl <;> rcases hb' with rfl | rfl <;> kernel_rfl)
    (all_cons (by intro b b' hb hb' x hx line l; rcases hb with rfl | rfl <;> rcases hb' with rfl | rfl <;> kernel_rfl)
    (List.forall_mem_nil _)))))))))

theorem writes_volgroupTexts_1 : ∀ v, [Version.RHEL6, Version.F16, Version.F17, Version.F18, Version.F19, Version.F20].contains v = true → Command.Writes (F16_VolGroup.cls F16_VolGroupData.cls) volgroupTexts v :=
  writes_of [0, 2, 4, 7, 9, 10, 12, 14] (writes_volgroupTexts_1_texts _) (by decide +kernel)

theorem writes_volgroupTexts_2_texts (n : Str) : ∀ i ∈ [1, 2, 5, 8, 9, 11, 13, 15], Command.FirstText (F21_VolGroup.cls F21_VolGroupData.cls) n (volgroupTexts.texts.getD i noText) :=
  (all_cons (by intro b b' hb hb' x hx line l; rcases hb with rfl | rfl <;> rcases hb' with rfl | rfl <;> kernel_rfl)
    (all_cons (by intro b b' hb hb' x hx line l; rcases hb with rfl | rfl <;> rcases hb' with rfl | rfl <;> kernel_rfl)
    (all_cons (by intro b b' hb hb' x hx line l; rcases hb with rfl | rfl <;> rcases hb' with rfl | rfl <;> kernel_rfl)
    (all_cons (by intro b b' hb hb' x hx line l; rcases hb with rfl | rfl <;> rcases hb' with rfl | rfl <;> kernel_rfl)
    (all_cons (by intro b b' hb hb' x hx line l; rcases hb with rfl | rfl <;> rcases hb' with rfl | rfl <;> kernel_rfl)
    (all_cons (by intro b b' hb hb' x hx line l; rcases hb with rfl | rfl <;> rcases hb' with rfl | rfl <;> kernel_rfl)
    (all_cons (by intro b b' hb hb' x hx line l; rcases hb with rfl | rfl <;> rcases hb' with rfl | rfl <;> kernel_rfl)
    (all_cons (by intro b b' hb hb' x hx line l; rcases hb with rfl | rfl <;> rcases hb' with rfl | rfl <;> kernel_rfl)
    (List.forall_mem_nil _)))))))))

theorem writes_volgroupTexts_2 : ∀ v, [Version.F21, Version.F22, Version.F23, Version.F24, Version.F25, Version.F26, Version.F27, Version.F28, Version.F29, Version.F30, Version.F31, Version.F32, Version.F33, Version.F34].contains v = true → Command.Writes (F21_VolGroup.cls F21_VolGroupData.cls) volgroupTexts v :=
  writes_of [1, 2, 5, 8, 9, 11, 13, 15] (writes_volgroupTexts_2_texts _) (by decide +kernel)

theorem writes_volgroupTexts_3_texts (n : Str) : ∀ i ∈ [1, 2, 5, 8, 9, 11, 13, 15], Command.FirstText (RHEL7_VolGroup.cls RHEL7_VolGroupData.cls) n (volgroupTexts.texts.getD i noText) :=
  (all_cons (by intro b b' hb hb' x hx line l; rcases hb with rfl | rfl <;> rcases hb' with rfl | rfl <;> kernel_rfl)
    (all_cons (by intro b b' hb hb' x hx line l; rcases hb with rfl | rfl <;> rcases hb' with rfl | rfl <;> kernel_rfl)
    (all_cons (by intro b b' hb hb' x hx line l; rcases hb with rfl | rfl <;> rcases hb' with rfl | rfl <;> kernel_rfl)
    (all_cons (by intro b b' hb hb' x hx line l; rcases hb with rfl | rfl <;> rcases hb' with rfl | rfl <;> kernel_rfl)
    (all_cons (by intro b b' hb hb' x hx line l; rcases hb with rfl | rfl <;> rcases hb' with rfl | rfl <;> kernel_rfl)
    (all_cons (by intro b b' hb hb' x hx line l; rcases hb with rfl | rfl <;> rcases hb' with rfl | rfl <;> kernel_rfl)
    (all_cons (by intro b b' hb hb' x hx line l; rcases hb with rfl | rfl <;> rcases hb' with rfl | rfl <;> kernel_rfl)
    (all_cons (by intro b b' hb hb' x hx line l; rcases hb with rfl | rfl <;> rcases hb' with rfl | rfl <;> kernel_rfl)
    (List.forall_mem_nil _)))))))))

theorem writes_volgroupTexts_3 : ∀ v, [Version.RHEL7].contains v = true → Command.Writes (RHEL7_VolGroup.cls RHEL7_VolGroupData.cls) volgroupTexts v :=
  writes_of [1, 2, 5, 8, 9, 11, 13, 15] (writes_volgroupTexts_3_texts _) (by decide +kernel)

theorem writes_volgroupTexts_4_texts (n : Str) : ∀ i ∈ [1, 2, 5, 8, 9, 11, 13, 15], Command.FirstText (RHEL8_VolGroup.cls RHEL8_VolGroupData.cls) n (volgroupTexts.texts.getD i noText) :=
  (all_cons (by intro b b' hb hb' x hx line l; rcases hb with rfl | rfl <;> rcases hb' with rfl | rfl <;> kernel_rfl)
    (all_cons (by intro b b' hb hb' x hx line l; rcases hb with rfl | rfl <;> rcases hb' with rfl | rfl <;> kernel_rfl)
    (all_cons (by intro b b' hb hb' x hx line l; rcases hb with rfl | rfl <;> rcases hb' with rfl | rfl <;> kernel_rfl)
    (all_cons (by intro b b' hb hb' x hx line l; rcases hb with rfl | rfl <;> rcases hb' with rfl | rfl <;> kernel_rfl)
    (all_cons (by intro b b' hb hb' x hx line l; rcases hb with rfl | rfl <;> rcases hb' with rfl | rfl <;> kernel_rfl)
    (all_cons (by intro b b' hb hb' x hx line l; rcases hb with rfl | rfl <;> rcases hb' with rfl | rfl <;> kernel_rfl)
    (all_cons (by intro b b' hb hb' x hx line l; rcases hb with rfl | rfl <;> rcases hb' with rfl | rfl <;> kernel_rfl)
    (all_cons (by intro b b' hb hb' x hx line l; rcases hb with rfl | rfl <;> rcases hb' with rfl | rfl <;> kernel_rfl)
    (List.forall_mem_nil _)))))))))

theorem writes_volgroupTexts_4 : ∀ v, [Version.RHEL8].contains v = true → Command.Writes (RHEL8_VolGroup.cls RHEL8_VolGroupData.cls) volgroupTexts v :=
  writes_of [1, 2, 5, 8, 9, 11, 13, 15] (writes_volgroupTexts_4_texts _) (by decide +kernel)

theorem writes_volgroupTexts : volgroupTexts.Written := by
  unfold CommandTexts.Written commandMaps
  exact (all_cons (fun c h => by cases h; exact writes_volgroupTexts_0 _ rfl)
    (all_cons (fun c h => by cases h; exact writes_volgroupTexts_0 _ rfl)
    (all_cons (fun c h => by cases h; exact writes_volgroupTexts_0 _ rfl)
    (all_cons (fun c h => by cases h; exact writes_volgroupTexts_0 _ rfl)
    (all_cons (fun c h => by cases h; exact writes_volgroupTexts_0 _ rfl)
    (all_cons (fun c h => by cases h; exact writes_volgroupTexts_0 _ rfl)
    (all_cons (fun c h => by cases h; exact writes_volgroupTexts_1 _ rfl)
    (all_cons (fun c h => by cases h; exact writes_volgroupTexts_1 _ rfl)
    (all_cons (fun c h => by cases h; exact writes_volgroupTexts_1 _ rfl)
    (all_cons (fun c h => by cases h; exact writes_volgroupTexts_1 _ rfl)
    (all_cons (fun c h => by cases h; exact writes_volgroupTexts_1 _ rfl)
    (all_cons (fun c h => by cases h; exact writes_volgroupTexts_2 _ rfl)
    (all_cons (fun c h => by cases h; exact writes_volgroupTexts_2 _ rfl)
    (all_cons (fun c h => by cases h; exact writes_volgroupTexts_2 _ rfl)
    (all_cons (fun c h => by cases h; exact writes_volgroupTexts_2 _ rfl)
    (all_cons (fun c h => by cases h; exact writes_volgroupTexts_2 _ rfl)
    (all_cons (fun c h => by cases h; exact writes_volgroupTexts_2 _ rfl)
    (all_cons (fun c h => by cases h; exact writes_volgroupTexts_2 _ rfl)
    (all_cons (fun c h => by cases h; exact writes_volgroupTexts_2 _ rfl)
    (all_cons (fun c h => by cases h; exact writes_volgroupTexts_2 _ rfl)
    (all_cons (fun c h => by cases h; exact writes_volgroupTexts_2 _ rfl)
    (all_cons (fun c h => by cases h; exact writes_volgroupTexts_2 _ rfl)
    (all_cons (fun c h => by cases h; exact writes_volgroupTexts_2 _ rfl)
    (all_cons (fun c h => by cases h; exact writes_volgroupTexts_2 _ rfl)
    (all_cons (fun c h => by cases h; exact writes_volgroupTexts_2 _ rfl)
    (all_cons (fun c h => by cases h; exact writes_volgroupTexts_0 _ rfl)
    (all_cons (fun c h => by cases h; exact writes_volgroupTexts_0 _ rfl)
    (all_cons (fun c h => by cases h; exact writes_volgroupTexts_0 _ rfl)
    (all_cons (fun c h => by cases h; exact writes_volgroupTexts_0 _ rfl)
    (all_cons (fun c h => by cases h; exact writes_volgroupTexts_0 _ rfl)
    (all_cons (fun c h => by cases h; exact writes_volgroupTexts_0 _ rfl)
    (all_cons (fun c h => by cases h; exact writes_volgroupTexts_0 _ rfl)
    (all_cons (fun c h => by cases h; exact writes_volgroupTexts_0 _ rfl)
    (all_cons (fun c h => by cases h; exact writes_volgroupTexts_0 _ rfl)
    (all_cons (fun c h => by cases h; exact writes_volgroupTexts_0 _ rfl)
    (all_cons (fun c h => by cases h; exact writes_volgroupTexts_1 _ rfl)
    (all_cons (fun c h => by cases h; exact writes_volgroupTexts_3 _ rfl)
    (all_cons (fun c h => by cases h; exact writes_volgroupTexts_4 _ rfl)
    (List.forall_mem_nil _)))))))))))))))))))))))))))))))))))))))

theorem writes_rootpwTexts_0_texts (n : Str) : ∀ i ∈ [0, 2, 3, 4, 5, 7, 8], Command.FirstText (F8_RootPw.cls) n (rootpwTexts.texts.getD i noText) :=
  (all_cons (by intro b b' hb hb' x hx line l; kernel_rfl)
    (all_cons (by intro b b' hb hb' x hx line l; kernel_rfl)
    (all_cons (by intro b b' hb hb' x hx line l; kernel_rfl)
    (all_cons (by intro b b' hb hb' x hx line l; kernel_rfl)
    (all_cons (by intro b b' hb hb' x hx line l; kernel_rfl)
    (all_cons (by intro b b' hb hb' x hx line l; kernel_rfl)
    (all_cons (by intro b b' hb hb' x hx line l; kernel_rfl)
    (List.forall_mem_nil _))))))))

theorem writes_rootpwTexts_0 : ∀ v, [Version.F8, Version.F9, Version.F10, Version.F11, Version.F12, Version.F13, Version.RHEL6, Version.F14, Version.F15, Version.F16, Version.F17].contains v = true → Command.Writes (F8_RootPw.cls) rootpwTexts v :=
  writes_of [0, 2, 3, 4, 5, 7, 8] (writes_rootpwTexts_0_texts _) (by decide +kernel)

theorem writes_rootpwTexts_1_texts (n : Str) : ∀ i ∈ [0, 2, 3, 4, 5, 7, 8, 9, 10, 11], Command.FirstText (F18_RootPw.cls) n (rootpwTexts.texts.getD i noText) :=
  (all_cons (by intro b b' hb hb' x hx line l; kernel_rfl)
    (all_cons (by intro b b' hb hb' x hx line l; kernel_rfl)
    (all_cons (by intro b b' hb hb' x hx line l; kernel_rfl)
    (all_cons (by intro b b' hb hb' x hx line l; kernel_rfl)
    (all_cons (by intro b b' hb hb' x hx line l; kernel_rfl)
    (all_cons (by intro b b' hb hb' x hx line l; kernel_rfl)
    (all_cons (by intro b b' hb hb' x hx line l; kernel_rfl)
    (all_cons (by intro b b' hb hb' x hx line l; kernel_rfl)
    (all_cons (by intro b b' hb hb' x hx line l; kernel_rfl)
    (all_cons (by intro b b' hb hb' x hx line l; kernel_rfl)
    (List.forall_mem_nil _)))))))))))

theorem writes_rootpwTexts_1 : ∀ v, [Version.F18, Version.F19, Version.F20, Version.F21, Version.RHEL7, Version.F22, Version.F23, Version.F24, Version.F25, Version.F26, Version.F27, Version.F28, Version.RHEL8, Version.F29, Version.F30, Version.F31, Version.F32, Version.F33, Version.F34].contains v = true → Command.Writes (F18_RootPw.cls) rootpwTexts v :=
  writes_of [0, 2, 3, 4, 5, 7, 8, 9, 10, 11] (writes_rootpwTexts_1_texts _) (by decide +kernel)

theorem writes_rootpwTexts_2_texts (n : Str) : ∀ i ∈ [1, 2, 6, 7], Command.FirstText (FC3_RootPw.cls) n (rootpwTexts.texts.getD i noText) :=
  (all_cons (by intro b b' hb hb' x hx line l; kernel_rfl)
    (all_cons (by intro b b' hb hb' x hx line l; kernel_rfl)
    (all_cons (by intro b b' hb hb' x hx line l; kernel_rfl)
    (all_cons (by intro b b' hb hb' x hx line l; kernel_rfl)
    (List.forall_mem_nil _)))))

theorem writes_rootpwTexts_2 : ∀ v, [Version.RHEL3, Version.FC3, Version.RHEL4, Version.FC4, Version.FC5, Version.FC6, Version.RHEL5, Version.F7].contains v = true → Command.Writes (FC3_RootPw.cls) rootpwTexts v :=
  writes_of [1, 2, 6, 7] (writes_rootpwTexts_2_texts _) (by decide +kernel)

theorem writes_rootpwTexts : rootpwTexts.Written := by
  unfold CommandTexts.Written commandMaps
  exact (all_cons (fun c h => by cases h; exact writes_rootpwTexts_0 _ rfl)
    (all_cons (fun c h => by cases h; exact writes_rootpwTexts_0 _ rfl)
    (all_cons (fun c h => by cases h; exact writes_rootpwTexts_0 _ rfl)
    (all_cons (fun c h => by cases h; exact writes_rootpwTexts_0 _ rfl)
    (all_cons (fun c h => by cases h; exact writes_rootpwTexts_0 _ rfl)
    (all_cons (fun c h => by cases h; exact writes_rootpwTexts_0 _ rfl)
    (all_cons (fun c h => by cases h; exact writes_rootpwTexts_0 _ rfl)
    (all_cons (fun c h => by cases h; exact writes_rootpwTexts_0 _ rfl)
    (all_cons (fun c h => by cases h; exact writes_rootpwTexts_1 _ rfl)
    (all_cons (fun c h => by cases h; exact writes_rootpwTexts_1 _ rfl)
    (all_cons (fun c h => by cases h; exact writes_rootpwTexts_1 _ rfl)
    (all_cons (fun c h => by cases h; exact writes_rootpwTexts_1 _ rfl)
    (all_cons (fun c h => by cases h; exact writes_rootpwTexts_1 _ rfl)
    (all_cons (fun c h => by cases h; exact writes_rootpwTexts_1 _ rfl)
    (all_cons (fun c h => by cases h; exact writes_rootpwTexts_1 _ rfl)
    (all_cons (fun c h => by cases h; exact writes_rootpwTexts_1 _ rfl)
    (all_cons (fun c h => by cases h; exact writes_rootpwTexts_1 _ rfl)
    (all_cons (fun c h => by cases h; exact writes_rootpwTexts_1 _ rfl)
    (all_cons (fun c h => by cases h; exact writes_rootpwTexts_1 _ rfl)
    (all_cons (fun c h => by cases h; exact writes_rootpwTexts_1 _ rfl)
    (all_cons (fun c h => by cases h; exact writes_rootpwTexts_1 _ rfl)
    (all_cons (fun c h => by cases h; exact writes_rootpwTexts_1 _ rfl)
    (all_cons (fun c h => by cases h; exact writes_rootpwTexts_1 _ rfl)
    (all_cons (fun c h => by cases h; exact writes_rootpwTexts_1 _ rfl)
    (all_cons (fun c h => by cases h; exact writes_rootpwTexts_1 _ rfl)
    (all_cons (fun c h => by cases h; exact writes_rootpwTexts_2 _ rfl)
    (all_cons (fun c h => by cases h; exact writes_rootpwTexts_0 _ rfl)
    (all_cons (fun c h => by cases h; exact writes_rootpwTexts_0 _ rfl)
    (all_cons (fun c h => by cases h; exact writes_rootpwTexts_2 _ rfl)
    (all_cons (fun c h => by cases h; exact writes_rootpwTexts_2 _ rfl)
    (all_cons (fun c h => by cases h; exact writes_rootpwTexts_2 _ rfl)
    (all_cons (fun c h => by cases h; exact writes_rootpwTexts_2 _ rfl)
    (all_cons (fun c h => by cases h; exact writes_rootpwTexts_2 _ rfl)
    (all_cons (fun c h => by cases h; exact writes_rootpwTexts_2 _ rfl)
    (all_cons (fun c h => by cases h; exact writes_rootpwTexts_2 _ rfl)
    (all_cons (fun c h => by cases h; exact writes_rootpwTexts_0 _ rfl)
    (all_cons (fun c h => by cases h; exact writes_rootpwTexts_1 _ rfl)
    (all_cons (fun c h => by cases h; exact writes_rootpwTexts_1 _ rfl)
    (List.forall_mem_nil _)))))))))))))))))))))))))))))))))))))))

theorem writes_keyboardTexts_0_texts (n : Str) : ∀ i ∈ [0], Command.FirstText (FC3_Keyboard.cls) n (keyboardTexts.texts.getD i noText) :=
  (all_cons (by intro b b' hb hb' x hx line l; kernel_rfl)
    (List.forall_mem_nil _))

theorem writes_keyboardTexts_0 : ∀ v, [Version.RHEL3, Version.FC3, Version.RHEL4, Version.FC4, Version.FC5, Version.FC6, Version.RHEL5, Version.F7, Version.F8, Version.F9, Version.F10, Version.F11, Version.F12, Version.F13, Version.RHEL6, Version.F14, Version.F15, Version.F16, Version.F17].contains v = true → Command.Writes (FC3_Keyboard.cls) keyboardTexts v :=
  writes_of [0] (writes_keyboardTexts_0_texts _) (by decide +kernel)

theorem writes_keyboardTexts_1_texts (n : Str) : ∀ i ∈ [1, 2, 3, 4, 5, 6, 7, 8, 9], Command.FirstText (F18_Keyboard.cls) n (keyboardTexts.texts.getD i noText) :=
  (all_cons (by intro b b' hb hb' x hx line l; kernel_rfl)
    (all_cons (by
      intro b b' hb hb' x hx line l
      cases x with
      | nil => exact absurd rfl hx
      | cons a x => (refine Eq.trans (b := some (c!"# Keyboard layouts\n# old format: keyboard K\n# new format:\nkeyboard --vckeymap=" ++ (a :: x) ++ c!"\n")) ?_ (by kernel_rfl); text_rfl))
    (all_cons (by intro b b' hb hb' x hx line l; kernel_rfl)
    (all_cons (by intro b b' hb hb' x hx line l; kernel_rfl)
    (all_cons (by intro b b' hb hb' x hx line l; kernel_rfl)
    (all_cons (by intro b b' hb hb' x hx line l; kernel_rfl)
    (all_cons (by intro b b' hb hb' x hx line l; kernel_rfl)
    (all_cons (by intro b b' hb hb' x hx line l; kernel_rfl)
    (all_cons (by intro b b' hb hb' x hx line l; kernel_rfl)
    (List.forall_mem_nil _))))))))))

theorem writes_keyboardTexts_1 : ∀ v, [Version.F18, Version.F19, Version.F20, Version.F21, Version.RHEL7, Version.F22, Version.F23, Version.F24, Version.F25, Version.F26, Version.F27, Version.F28, Version.RHEL8, Version.F29, Version.F30, Version.F31, Version.F32, Version.F33, Version.F34].contains v = true → Command.Writes (F18_Keyboard.cls) keyboardTexts v :=
  writes_of [1, 2, 3, 4, 5, 6, 7, 8, 9] (writes_keyboardTexts_1_texts _) (by decide +kernel)

theorem writes_keyboardTexts : keyboardTexts.Written := by
  unfold CommandTexts.Written commandMaps
  exact (all_cons (fun c h => by cases h; exact writes_keyboardTexts_0 _ rfl)
    (all_cons (fun c h => by cases h; exact writes_keyboardTexts_0 _ rfl)
    (all_cons (fun c h => by cases h; exact writes_keyboardTexts_0 _ rfl)
    (all_cons (fun c h => by cases h; exact writes_keyboardTexts_0 _ rfl)
    (all_cons (fun c h => by cases h; exact writes_keyboardTexts_0 _ rfl)
    (all_cons (fun c h => by cases h; exact writes_keyboardTexts_0 _ rfl)
    (all_cons (fun c h => by cases h; exact writes_keyboardTexts_0 _ rfl)
    (all_cons (fun c h => by cases h; exact writes_keyboardTexts_0 _ rfl)
    (all_cons (fun c h => by cases h; exact writes_keyboardTexts_1 _ rfl)
    (all_cons (fun c h => by cases h; exact writes_keyboardTexts_1 _ rfl)
    (all_cons (fun c h => by cases h; exact writes_keyboardTexts_1 _ rfl)
    (all_cons (fun c h => by cases h; exact writes_keyboardTexts_1 _ rfl)
    (all_cons (fun c h => by cases h; exact writes_keyboardTexts_1 _ rfl)
    (all_cons (fun c h => by cases h; exact writes_keyboardTexts_1 _ rfl)
    (all_cons (fun c h => by cases h; exact writes_keyboardTexts_1 _ rfl)
    (all_cons (fun c h => by cases h; exact writes_keyboardTexts_1 _ rfl)
    (all_cons (fun c h => by cases h; exact writes_keyboardTexts_1 _ rfl)
    (all_cons (fun c h => by cases h; exact writes_keyboardTexts_1 _ rfl)
    (all_cons (fun c h => by cases h; exact writes_keyboardTexts_1 _ rfl)
    (all_cons (fun c h => by cases h; exact writes_keyboardTexts_1 _ rfl)
    (all_cons (fun c h => by cases h; exact writes_keyboardTexts_1 _ rfl)
    (all_cons (fun c h => by cases h; exact writes_keyboardTexts_1 _ rfl)
    (all_cons (fun c h => by cases h; exact writes_keyboardTexts_1 _ rfl)
    (all_cons (fun c h => by cases h; exact writes_keyboardTexts_1 _ rfl)
    (all_cons (fun c h => by cases h; exact writes_keyboardTexts_1 _ rfl)
    (all_cons (fun c h => by cases h; exact writes_keyboardTexts_0 _ rfl)
    (all_cons (fun c h => by cases h; exact writes_keyboardTexts_0 _ rfl)
    (all_cons (fun c h => by cases h; exact writes_keyboardTexts_0 _ rfl)
    (all_cons (fun c h => by cases h; exact writes_keyboardTexts_0 _ rfl)
    (all_cons (fun c h => by cases h; exact writes_keyboardTexts_0 _ rfl)
    (all_cons (fun c h => by cases h; exact writes_keyboardTexts_0 _ rfl)
    (all_cons (fun c h => by cases h; exact writes_keyboardTexts_0 _ rfl)
    (all_cons (fun c h => by cases h; exact writes_keyboardTexts_0 _ rfl)
    (all_cons (fun c h => by cases h; exact writes_keyboardTexts_0 _ rfl)
    (all_cons (fun c h => by cases h; exact writes_keyboardTexts_0 _ rfl)
    (all_cons (fun c h => by cases h; exact writes_keyboardTexts_0 _ rfl)
    (all_cons (fun c h => by cases h; exact writes_keyboardTexts_1 _ rfl)
    (all_cons (fun c h => by cases h; exact writes_keyboardTexts_1 _ rfl)
    (List.forall_mem_nil _)))))))))))))))))))))))))))))))))))))))

theorem writes_syspurposeTexts_0_texts (n : Str) : ∀ i ∈ [0, 1, 2, 3, 4, 5, 6, 7, 8, 9], Command.FirstText (RHEL8_Syspurpose.cls) n (syspurposeTexts.texts.getD i noText) :=
  (all_cons (by intro b b' hb hb' x hx line l; kernel_rfl)
    (all_cons (by
      intro b b' hb hb' x hx line l
      cases x with
      | nil => exact absurd rfl hx
      | cons a x => (refine Eq.trans (b := some (c!"# Intended system purpose\nsyspurpose --role=\"" ++ (a :: x) ++ c!"\"\n")) ?_ (by kernel_rfl); text_rfl))
    (all_cons (by
      intro b b' hb hb' x hx line l
      cases x with
      | nil => exact absurd rfl hx
      | cons a x => (refine Eq.trans (b := some (c!"# Intended system purpose\nsyspurpose --sla=\"" ++ (a :: x) ++ c!"\"\n")) ?_ (by kernel_rfl); text_rfl))
    (all_cons (by
      intro b b' hb hb' x hx line l
      cases x with
      | nil => exact absurd rfl hx
      | cons a x => (refine Eq.trans (b := some (c!"# Intended system purpose\nsyspurpose --usage=\"" ++ (a :: x) ++ c!"\"\n")) ?_ (by kernel_rfl); text_rfl))
    (all_cons (by
      intro b b' hb hb' x hx line l
      cases x with
      | nil => exact absurd rfl hx
      | cons a x => (refine Eq.trans (b := some (c!"# Intended system purpose\nsyspurpose --addon=\"" ++ (a :: x) ++ c!"\"\n")) ?_ (by kernel_rfl); text_rfl))
    (all_cons (by intro b b' hb hb' x hx line l; kernel_rfl)
    (all_cons (by intro b b' hb hb' x hx line l; kernel_rfl)
    (all_cons (by
      intro b b' hb hb' x hx line l
      cases x with
      | nil => exact absurd rfl hx
      | cons a x => (refine Eq.trans (b := some (c!"# Intended system purpose\nsyspurpose --role=\"a\" --sla=\"" ++ (a :: x) ++ c!"\"\n")) ?_ (by kernel_rfl); text_rfl))
    (all_cons (by
      intro b b' hb hb' x hx line l
      cases x with
      | nil => exact absurd rfl hx
      | cons a x => (refine Eq.trans (b := some (c!"# Intended system purpose\nsyspurpose --role=\"a\" --usage=\"" ++ (a :: x) ++ c!"\"\n")) ?_ (by kernel_rfl); text_rfl))
    (all_cons (by
      intro b b' hb hb' x hx line l
      cases x with
      | nil => exact absurd rfl hx
      | cons a x => (refine Eq.trans (b := some (c!"# Intended system purpose\nsyspurpose --role=\"a\" --addon=\"" ++ (a :: x) ++ c!"\"\n")) ?_ (by kernel_rfl); text_rfl))
    (List.forall_mem_nil _)))))))))))

theorem writes_syspurposeTexts_0 : ∀ v, [Version.RHEL8].contains v = true → Command.Writes (RHEL8_Syspurpose.cls) syspurposeTexts v :=
  writes_of [0, 1, 2, 3, 4, 5, 6, 7, 8, 9] (writes_syspurposeTexts_0_texts _) (by decide +kernel)

theorem writes_syspurposeTexts : syspurposeTexts.Written := by
  unfold CommandTexts.Written commandMaps
  exact (all_cons (fun c h => by cases h)
    (all_cons (fun c h => by cases h)
    (all_cons (fun c h => by cases h)
    (all_cons (fun c h => by cases h)
    (all_cons (fun c h => by cases h)
    (all_cons (fun c h => by cases h)
    (all_cons (fun c h => by cases h)
    (all_cons (fun c h => by cases h)
    (all_cons (fun c h => by cases h)
    (all_cons (fun c h => by cases h)
    (all_cons (fun c h => by cases h)
    (all_cons (fun c h => by cases h)
    (all_cons (fun c h => by cases h)
    (all_cons (fun c h => by cases h)
    (all_cons (fun c h => by cases h)
    (all_cons (fun c h => by cases h)
    (all_cons (fun c h => by cases h)
    (all_cons (fun c h => by cases h)
    (all_cons (fun c h => by cases h)
    (all_cons (fun c h => by cases h)
    (all_cons (fun c h => by cases h)
    (all_cons (fun c h => by cases h)
    (all_cons (fun c h => by cases h)
    (all_cons (fun c h => by cases h)
    (all_cons (fun c h => by cases h)
    (all_cons (fun c h => by cases h)
    (all_cons (fun c h => by cases h)
    (all_cons (fun c h => by cases h)
    (all_cons (fun c h => by cases h)
    (all_cons (fun c h => by cases h)
    (all_cons (fun c h => by cases h)
    (all_cons (fun c h => by cases h)
    (all_cons (fun c h => by cases h)
    (all_cons (fun c h => by cases h)
    (all_cons (fun c h => by cases h)
    (all_cons (fun c h => by cases h)
    (all_cons (fun c h => by cases h)
    (all_cons (fun c h => by cases h; exact writes_syspurposeTexts_0 _ rfl)
    (List.forall_mem_nil _)))))))))))))))))))))))))))))))))))))))

theorem writes_mountTexts_0_texts (n : Str) : ∀ i ∈ [0, 1, 2, 3, 4, 5, 6], Command.FirstText (F27_Mount.cls F27_MountData.cls) n (mountTexts.texts.getD i noText) :=
  (all_cons (by intro b b' hb hb' x hx line l; rcases hb with rfl | rfl <;> rcases hb' with rfl | rfl <;> kernel_rfl)
    (all_cons (by
      intro b b' hb hb' x hx line l
      cases x with
      | nil => exact absurd rfl hx
      | cons a x => rcases hb with rfl | rfl <;> rcases hb' with rfl | rfl <;> (refine Eq.trans (b := some (c!"# Mount points configuration\nmount a /x --reformat=" ++ (a :: x) ++ c!"\n\n")) ?_ (by kernel_rfl); text_rfl))
    (all_cons (by
      intro b b' hb hb' x hx line l
      cases x with
      | nil => exact absurd rfl hx
      | cons a x => rcases hb with rfl | rfl <;> rcases hb' with rfl | rfl <;> (refine Eq.trans (b := some (c!"# Mount points configuration\nmount a /x --mountoptions=\"" ++ (a :: x) ++ c!"\"\n\n")) ?_ (by kernel_rfl); text_rfl))
    (all_cons (by intro b b' hb hb' x hx line l; rcases hb with rfl | rfl <;> rcases hb' with rfl | rfl <;> kernel_rfl)
    (all_cons (by
      intro b b' hb hb' x hx line l
      cases x with
      | nil => exact absurd rfl hx
      | cons a x => rcases hb with rfl | rfl <;> rcases hb' with rfl | rfl <;> (refine Eq.trans (b := some (c!"# Mount points configuration\nmount a none --mountoptions=\"" ++ (a :: x) ++ c!"\"\n\n")) ?_ (by kernel_rfl); text_rfl))
    (all_cons (by intro b b' hb hb' x hx line l; rcases hb with rfl | rfl <;> rcases hb' with rfl | rfl <;> kernel_rfl)
    (all_cons (by
      intro b b' hb hb' x hx line l
      cases x with
      | nil => exact absurd rfl hx
      | cons a x => rcases hb with rfl | rfl <;> rcases hb' with rfl | rfl <;> (refine Eq.trans (b := some (c!"# Mount points configuration\nmount a /x --reformat=ext4 --mkfsoptions=\"" ++ (a :: x) ++ c!"\"\n\n")) ?_ (by kernel_rfl); text_rfl))
    (List.forall_mem_nil _))))))))

theorem writes_mountTexts_0 : ∀ v, [Version.F27, Version.F28, Version.RHEL8, Version.F29, Version.F30, Version.F31, Version.F32, Version.F33, Version.F34].contains v = true → Command.Writes (F27_Mount.cls F27_MountData.cls) mountTexts v :=
  writes_of [0, 1, 2, 3, 4, 5, 6] (writes_mountTexts_0_texts _) (by decide +kernel)

theorem writes_mountTexts : mountTexts.Written := by
  unfold CommandTexts.Written commandMaps
  exact (all_cons (fun c h => by cases h)
    (all_cons (fun c h => by cases h)
    (all_cons (fun c h => by cases h)
    (all_cons (fun c h => by cases h)
    (all_cons (fun c h => by cases h)
    (all_cons (fun c h => by cases h)
    (all_cons (fun c h => by cases h)
    (all_cons (fun c h => by cases h)
    (all_cons (fun c h => by cases h)
    (all_cons (fun c h => by cases h)
    (all_cons (fun c h => by cases h)
    (all_cons (fun c h => by cases h)
    (all_cons (fun c h => by cases h)
    (all_cons (fun c h => by cases h)
    (all_cons (fun c h => by cases h)
    (all_cons (fun c h => by cases h)
    (all_cons (fun c h => by cases h)
    (all_cons (fun c h => by cases h; exact writes_mountTexts_0 _ rfl)
    (all_cons (fun c h => by cases h; exact writes_mountTexts_0 _ rfl)
    (all_cons (fun c h => by cases h; exact writes_mountTexts_0 _ rfl)
    (all_cons (fun c h => by cases h; exact writes_mountTexts_0 _ rfl)
    (all_cons (fun c h => by cases h; exact writes_mountTexts_0 _ rfl)
    (all_cons (fun c h => by cases h; exact writes_mountTexts_0 _ rfl)
    (all_cons (fun c h => by cases h; exact writes_mountTexts_0 _ rfl)
    (all_cons (fun c h => by cases h; exact writes_mountTexts_0 _ rfl)
    (all_cons (fun c h => by cases h)
    (all_cons (fun c h => by cases h)
    (all_cons (fun c h => by cases h)
    (all_cons (fun c h => by cases h)
    (all_cons (fun c h => by cases h)
    (all_cons (fun c h => by cases h)
    (all_cons (fun c h => by cases h)
    (all_cons (fun c h => by cases h)
    (all_cons (fun c h => by cases h)
    (all_cons (fun c h => by cases h)
    (all_cons (fun c h => by cases h)
    (all_cons (fun c h => by cases h)
    (all_cons (fun c h => by cases h; exact writes_mountTexts_0 _ rfl)
    (List.forall_mem_nil _)))))))))))))))))))))))))))))))))))))))

theorem writes_installTexts_0_texts : ∀ i ∈ [0], Command.FirstText (FC3_Upgrade.cls) c!"install" (installTexts.texts.getD i noText) :=
  (all_cons (by intro b b' hb hb' x hx line l; kernel_rfl)
    (List.forall_mem_nil _))

theorem writes_installTexts_0 : ∀ v, [Version.RHEL3, Version.FC3, Version.RHEL4, Version.FC4, Version.FC5, Version.FC6, Version.RHEL5, Version.F7, Version.F8, Version.F9, Version.F10].contains v = true → Command.Writes (FC3_Upgrade.cls) installTexts v :=
  writes_of [0] (writes_installTexts_0_texts) (by decide +kernel)

theorem writes_installTexts_1_texts : ∀ i ∈ [0, 1], Command.FirstText (F11_Upgrade.cls) c!"install" (installTexts.texts.getD i noText) :=
  (all_cons (by intro b b' hb hb' x hx line l; kernel_rfl)
    (all_cons (by
      intro b b' hb hb' x hx line l
      cases x with
      | nil => exact absurd rfl hx
      | cons a x => (kernel_rfl))
    (List.forall_mem_nil _)))

theorem writes_installTexts_1 : ∀ v, [Version.F11, Version.F12, Version.F13, Version.RHEL6, Version.F14, Version.F15, Version.F16, Version.F17, Version.F18, Version.F19, Version.RHEL7].contains v = true → Command.Writes (F11_Upgrade.cls) installTexts v :=
  writes_of [0, 1] (writes_installTexts_1_texts) (by decide +kernel)

theorem writes_installTexts_2_texts : ∀ i ∈ [0, 1], Command.FirstText (F20_Install.cls) c!"install" (installTexts.texts.getD i noText) :=
  (all_cons (by intro b b' hb hb' x hx line l; kernel_rfl)
    (all_cons (by
      intro b b' hb hb' x hx line l
      cases x with
      | nil => exact absurd rfl hx
      | cons a x => (kernel_rfl))
    (List.forall_mem_nil _)))

theorem writes_installTexts_2 : ∀ v, [Version.F20, Version.F21, Version.F22, Version.F23, Version.F24, Version.F25, Version.F26, Version.F27, Version.F28].contains v = true → Command.Writes (F20_Install.cls) installTexts v :=
  writes_of [0, 1] (writes_installTexts_2_texts) (by decide +kernel)

theorem writes_installTexts : installTexts.Written := by
  unfold CommandTexts.Written commandMaps
  exact (all_cons (fun c h => by cases h; exact writes_installTexts_0 _ rfl)
    (all_cons (fun c h => by cases h; exact writes_installTexts_1 _ rfl)
    (all_cons (fun c h => by cases h; exact writes_installTexts_1 _ rfl)
    (all_cons (fun c h => by cases h; exact writes_installTexts_1 _ rfl)
    (all_cons (fun c h => by cases h; exact writes_installTexts_1 _ rfl)
    (all_cons (fun c h => by cases h; exact writes_installTexts_1 _ rfl)
    (all_cons (fun c h => by cases h; exact writes_installTexts_1 _ rfl)
    (all_cons (fun c h => by cases h; exact writes_installTexts_1 _ rfl)
    (all_cons (fun c h => by cases h; exact writes_installTexts_1 _ rfl)
    (all_cons (fun c h => by cases h; exact writes_installTexts_1 _ rfl)
    (all_cons (fun c h => by cases h; exact writes_installTexts_2 _ rfl)
    (all_cons (fun c h => by cases h; exact writes_installTexts_2 _ rfl)
    (all_cons (fun c h => by cases h; exact writes_installTexts_2 _ rfl)
    (all_cons (fun c h => by cases h; exact writes_installTexts_2 _ rfl)
    (all_cons (fun c h => by cases h; exact writes_installTexts_2 _ rfl)
    (all_cons (fun c h => by cases h; exact writes_installTexts_2 _ rfl)
    (all_cons (fun c h => by cases h; exact writes_installTexts_2 _ rfl)
    (all_cons (fun c h => by cases h; exact writes_installTexts_2 _ rfl)
    (all_cons (fun c h => by cases h; exact writes_installTexts_2 _ rfl)
    (all_cons (fun c h => by cases h; exact writes_none (by decide +kernel))
    (all_cons (fun c h => by cases h; exact writes_none (by decide +kernel))
    (all_cons (fun c h => by cases h; exact writes_none (by decide +kernel))
    (all_cons (fun c h => by cases h; exact writes_none (by decide +kernel))
    (all_cons (fun c h => by cases h; exact writes_none (by decide +kernel))
    (all_cons (fun c h => by cases h; exact writes_none (by decide +kernel))
    (all_cons (fun c h => by cases h; exact writes_installTexts_0 _ rfl)
    (all_cons (fun c h => by cases h; exact writes_installTexts_0 _ rfl)
    (all_cons (fun c h => by cases h; exact writes_installTexts_0 _ rfl)
    (all_cons (fun c h => by cases h; exact writes_installTexts_0 _ rfl)
    (all_cons (fun c h => by cases h; exact writes_installTexts_0 _ rfl)
    (all_cons (fun c h => by cases h; exact writes_installTexts_0 _ rfl)
    (all_cons (fun c h => by cases h; exact writes_installTexts_0 _ rfl)
    (all_cons (fun c h => by cases h; exact writes_installTexts_0 _ rfl)
    (all_cons (fun c h => by cases h; exact writes_installTexts_0 _ rfl)
    (all_cons (fun c h => by cases h; exact writes_installTexts_0 _ rfl)
    (all_cons (fun c h => by cases h; exact writes_installTexts_1 _ rfl)
    (all_cons (fun c h => by cases h; exact writes_installTexts_1 _ rfl)
    (all_cons (fun c h => by cases h; exact writes_none (by decide +kernel))
    (List.forall_mem_nil _)))))))))))))))))))))))))))))))))))))))

theorem writes_multipathTexts_0_texts (n : Str) : ∀ i ∈ [0, 1, 2, 3], Command.FirstText (FC6_MultiPath.cls FC6_MultiPathData.cls) n (multipathTexts.texts.getD i noText) :=
  (all_cons (by intro b b' hb hb' x hx line l; kernel_rfl)
    (all_cons (by intro b b' hb hb' x hx line l; kernel_rfl)
    (all_cons (by
      intro b b' hb hb' x hx line l
      cases x with
      | nil => exact absurd rfl hx
      | cons a x => (refine Eq.trans (b := some (c!"multipath --name=n --device=" ++ (a :: x) ++ c!" --rule=\"r\"\n")) ?_ (by kernel_rfl); text_rfl))
    (all_cons (by
      intro b b' hb hb' x hx line l
      cases x with
      | nil => exact absurd rfl hx
      | cons a x => (refine Eq.trans (b := some (c!"multipath --name=n --device=d --rule=\"" ++ (a :: x) ++ c!"\"\n")) ?_ (by kernel_rfl); text_rfl))
    (List.forall_mem_nil _)))))

theorem writes_multipathTexts_0 : ∀ v, [Version.FC6, Version.RHEL5, Version.F7, Version.F8, Version.F9, Version.F10, Version.F11, Version.F12, Version.F13, Version.RHEL6, Version.F14, Version.F15, Version.F16, Version.F17, Version.F18, Version.F19, Version.F20, Version.F21, Version.RHEL7, Version.F22, Version.F23].contains v = true → Command.Writes (FC6_MultiPath.cls FC6_MultiPathData.cls) multipathTexts v :=
  writes_of [0, 1, 2, 3] (writes_multipathTexts_0_texts _) (by decide +kernel)

theorem writes_multipathTexts : multipathTexts.Written := by
  unfold CommandTexts.Written commandMaps
  exact (all_cons (fun c h => by cases h; exact writes_multipathTexts_0 _ rfl)
    (all_cons (fun c h => by cases h; exact writes_multipathTexts_0 _ rfl)
    (all_cons (fun c h => by cases h; exact writes_multipathTexts_0 _ rfl)
    (all_cons (fun c h => by cases h; exact writes_multipathTexts_0 _ rfl)
    (all_cons (fun c h => by cases h; exact writes_multipathTexts_0 _ rfl)
    (all_cons (fun c h => by cases h; exact writes_multipathTexts_0 _ rfl)
    (all_cons (fun c h => by cases h; exact writes_multipathTexts_0 _ rfl)
    (all_cons (fun c h => by cases h; exact writes_multipathTexts_0 _ rfl)
    (all_cons (fun c h => by cases h; exact writes_multipathTexts_0 _ rfl)
    (all_cons (fun c h => by cases h; exact writes_multipathTexts_0 _ rfl)
    (all_cons (fun c h => by cases h; exact writes_multipathTexts_0 _ rfl)
    (all_cons (fun c h => by cases h; exact writes_multipathTexts_0 _ rfl)
    (all_cons (fun c h => by cases h; exact writes_multipathTexts_0 _ rfl)
    (all_cons (fun c h => by cases h; exact writes_multipathTexts_0 _ rfl)
    (all_cons (fun c h => by cases h; exact writes_none (by decide +kernel))
    (all_cons (fun c h => by cases h; exact writes_none (by decide +kernel))
    (all_cons (fun c h => by cases h; exact writes_none (by decide +kernel))
    (all_cons (fun c h => by cases h; exact writes_none (by decide +kernel))
    (all_cons (fun c h => by cases h; exact writes_none (by decide +kernel))
    (all_cons (fun c h => by cases h; exact writes_none (by decide +kernel))
    (all_cons (fun c h => by cases h; exact writes_none (by decide +kernel))
    (all_cons (fun c h => by cases h; exact writes_none (by decide +kernel))
    (all_cons (fun c h => by cases h; exact writes_none (by decide +kernel))
    (all_cons (fun c h => by cases h; exact writes_none (by decide +kernel))
    (all_cons (fun c h => by cases h; exact writes_none (by decide +kernel))
    (all_cons (fun c h => by cases h; exact writes_multipathTexts_0 _ rfl)
    (all_cons (fun c h => by cases h; exact writes_multipathTexts_0 _ rfl)
    (all_cons (fun c h => by cases h; exact writes_multipathTexts_0 _ rfl)
    (all_cons (fun c h => by cases h)
    (all_cons (fun c h => by cases h)
    (all_cons (fun c h => by cases h)
    (all_cons (fun c h => by cases h; exact writes_multipathTexts_0 _ rfl)
    (all_cons (fun c h => by cases h)
    (all_cons (fun c h => by cases h)
    (all_cons (fun c h => by cases h; exact writes_multipathTexts_0 _ rfl)
    (all_cons (fun c h => by cases h; exact writes_multipathTexts_0 _ rfl)
    (all_cons (fun c h => by cases h; exact writes_multipathTexts_0 _ rfl)
    (all_cons (fun c h => by cases h; exact writes_none (by decide +kernel))
    (List.forall_mem_nil _)))))))))))))))))))))))))))))))))))))))

theorem writes_zerombrTexts_0_texts (n : Str) : ∀ i ∈ [0], Command.FirstText (F9_ZeroMbr.cls) n (zerombrTexts.texts.getD i noText) :=
  (all_cons (by intro b b' hb hb' x hx line l; kernel_rfl)
    (List.forall_mem_nil _))

theorem writes_zerombrTexts_0 : ∀ v, [Version.F9, Version.F10, Version.F11, Version.F12, Version.F13, Version.RHEL6, Version.F14, Version.F15, Version.F16, Version.F17, Version.F18, Version.F19, Version.F20, Version.F21, Version.RHEL7, Version.F22, Version.F23, Version.F24, Version.F25, Version.F26, Version.F27, Version.F28, Version.RHEL8, Version.F29, Version.F30, Version.F31, Version.F32, Version.F33, Version.F34].contains v = true → Command.Writes (F9_ZeroMbr.cls) zerombrTexts v :=
  writes_of [0] (writes_zerombrTexts_0_texts _) (by decide +kernel)

theorem writes_zerombrTexts_1_texts (n : Str) : ∀ i ∈ [0, 1, 2], Command.FirstText (FC3_ZeroMbr.cls) n (zerombrTexts.texts.getD i noText) :=
  (all_cons (by intro b b' hb hb' x hx line l; kernel_rfl)
    (all_cons (by intro b b' hb hb' x hx line l; kernel_rfl)
    (all_cons (by intro b b' hb hb' x hx line l; kernel_rfl)
    (List.forall_mem_nil _))))

theorem writes_zerombrTexts_1 : ∀ v, [Version.RHEL3, Version.FC3, Version.RHEL4, Version.FC4, Version.FC5, Version.FC6, Version.RHEL5, Version.F7, Version.F8].contains v = true → Command.Writes (FC3_ZeroMbr.cls) zerombrTexts v :=
  writes_of [0, 1, 2] (writes_zerombrTexts_1_texts _) (by decide +kernel)

theorem writes_zerombrTexts : zerombrTexts.Written := by
  unfold CommandTexts.Written commandMaps
  exact (all_cons (fun c h => by cases h; exact writes_zerombrTexts_0 _ rfl)
    (all_cons (fun c h => by cases h; exact writes_zerombrTexts_0 _ rfl)
    (all_cons (fun c h => by cases h; exact writes_zerombrTexts_0 _ rfl)
    (all_cons (fun c h => by cases h; exact writes_zerombrTexts_0 _ rfl)
    (all_cons (fun c h => by cases h; exact writes_zerombrTexts_0 _ rfl)
    (all_cons (fun c h => by cases h; exact writes_zerombrTexts_0 _ rfl)
    (all_cons (fun c h => by cases h; exact writes_zerombrTexts_0 _ rfl)
    (all_cons (fun c h => by cases h; exact writes_zerombrTexts_0 _ rfl)
    (all_cons (fun c h => by cases h; exact writes_zerombrTexts_0 _ rfl)
    (all_cons (fun c h => by cases h; exact writes_zerombrTexts_0 _ rfl)
    (all_cons (fun c h => by cases h; exact writes_zerombrTexts_0 _ rfl)
    (all_cons (fun c h => by cases h; exact writes_zerombrTexts_0 _ rfl)
    (all_cons (fun c h => by cases h; exact writes_zerombrTexts_0 _ rfl)
    (all_cons (fun c h => by cases h; exact writes_zerombrTexts_0 _ rfl)
    (all_cons (fun c h => by cases h; exact writes_zerombrTexts_0 _ rfl)
    (all_cons (fun c h => by cases h; exact writes_zerombrTexts_0 _ rfl)
    (all_cons (fun c h => by cases h; exact writes_zerombrTexts_0 _ rfl)
    (all_cons (fun c h => by cases h; exact writes_zerombrTexts_0 _ rfl)
    (all_cons (fun c h => by cases h; exact writes_zerombrTexts_0 _ rfl)
    (all_cons (fun c h => by cases h; exact writes_zerombrTexts_0 _ rfl)
    (all_cons (fun c h => by cases h; exact writes_zerombrTexts_0 _ rfl)
    (all_cons (fun c h => by cases h; exact writes_zerombrTexts_0 _ rfl)
    (all_cons (fun c h => by cases h; exact writes_zerombrTexts_0 _ rfl)
    (all_cons (fun c h => by cases h; exact writes_zerombrTexts_0 _ rfl)
    (all_cons (fun c h => by cases h; exact writes_zerombrTexts_0 _ rfl)
    (all_cons (fun c h => by cases h; exact writes_zerombrTexts_1 _ rfl)
    (all_cons (fun c h => by cases h; exact writes_zerombrTexts_1 _ rfl)
    (all_cons (fun c h => by cases h; exact writes_zerombrTexts_0 _ rfl)
    (all_cons (fun c h => by cases h; exact writes_zerombrTexts_1 _ rfl)
    (all_cons (fun c h => by cases h; exact writes_zerombrTexts_1 _ rfl)
    (all_cons (fun c h => by cases h; exact writes_zerombrTexts_1 _ rfl)
    (all_cons (fun c h => by cases h; exact writes_zerombrTexts_1 _ rfl)
    (all_cons (fun c h => by cases h; exact writes_zerombrTexts_1 _ rfl)
    (all_cons (fun c h => by cases h; exact writes_zerombrTexts_1 _ rfl)
    (all_cons (fun c h => by cases h; exact writes_zerombrTexts_1 _ rfl)
    (all_cons (fun c h => by cases h; exact writes_zerombrTexts_0 _ rfl)
    (all_cons (fun c h => by cases h; exact writes_zerombrTexts_0 _ rfl)
    (all_cons (fun c h => by cases h; exact writes_zerombrTexts_0 _ rfl)
    (List.forall_mem_nil _)))))))))))))))))))))))))))))))))))))))

theorem writes_langsupportTexts_0_texts (n : Str) : ∀ i ∈ [0, 1, 2], Command.FirstText (FC3_LangSupport.cls) n (langsupportTexts.texts.getD i noText) :=
  (all_cons (by intro b b' hb hb' x hx line l; kernel_rfl)
    (all_cons (by
      intro b b' hb hb' x hx line l
      cases x with
      | nil => exact absurd rfl hx
      | cons a x => (refine Eq.trans (b := some (c!"langsupport --default=" ++ (a :: x) ++ c!"\n")) ?_ (by kernel_rfl); text_rfl))
    (all_cons (by intro b b' hb hb' x hx line l; kernel_rfl)
    (List.forall_mem_nil _))))

theorem writes_langsupportTexts_0 : ∀ v, [Version.RHEL3, Version.FC3, Version.RHEL4, Version.FC4].contains v = true → Command.Writes (FC3_LangSupport.cls) langsupportTexts v :=
  writes_of [0, 1, 2] (writes_langsupportTexts_0_texts _) (by decide +kernel)

theorem writes_langsupportTexts : langsupportTexts.Written := by
  unfold CommandTexts.Written commandMaps
  exact (all_cons (fun c h => by cases h)
    (all_cons (fun c h => by cases h)
    (all_cons (fun c h => by cases h)
    (all_cons (fun c h => by cases h)
    (all_cons (fun c h => by cases h)
    (all_cons (fun c h => by cases h)
    (all_cons (fun c h => by cases h)
    (all_cons (fun c h => by cases h)
    (all_cons (fun c h => by cases h)
    (all_cons (fun c h => by cases h)
    (all_cons (fun c h => by cases h)
    (all_cons (fun c h => by cases h)
    (all_cons (fun c h => by cases h)
    (all_cons (fun c h => by cases h)
    (all_cons (fun c h => by cases h)
    (all_cons (fun c h => by cases h)
    (all_cons (fun c h => by cases h)
    (all_cons (fun c h => by cases h)
    (all_cons (fun c h => by cases h)
    (all_cons (fun c h => by cases h)
    (all_cons (fun c h => by cases h)
    (all_cons (fun c h => by cases h)
    (all_cons (fun c h => by cases h)
    (all_cons (fun c h => by cases h)
    (all_cons (fun c h => by cases h)
    (all_cons (fun c h => by cases h; exact writes_none (by decide +kernel))
    (all_cons (fun c h => by cases h)
    (all_cons (fun c h => by cases h)
    (all_cons (fun c h => by cases h; exact writes_langsupportTexts_0 _ rfl)
    (all_cons (fun c h => by cases h; exact writes_langsupportTexts_0 _ rfl)
    (all_cons (fun c h => by cases h; exact writes_none (by decide +kernel))
    (all_cons (fun c h => by cases h; exact writes_none (by decide +kernel))
    (all_cons (fun c h => by cases h; exact writes_langsupportTexts_0 _ rfl)
    (all_cons (fun c h => by cases h; exact writes_langsupportTexts_0 _ rfl)
    (all_cons (fun c h => by cases h; exact writes_none (by decide +kernel))
    (all_cons (fun c h => by cases h)
    (all_cons (fun c h => by cases h)
    (all_cons (fun c h => by cases h)
    (List.forall_mem_nil _)))))))))))))))))))))))))))))))))))))))

theorem writes_textTexts_0_texts : ∀ i ∈ [0], Command.FirstText (FC3_DisplayMode.cls) c!"text" (textTexts.texts.getD i noText) :=
  (all_cons (by intro b b' hb hb' x hx line l; kernel_rfl)
    (List.forall_mem_nil _))

theorem writes_textTexts_0 : ∀ v, [Version.RHEL3, Version.FC3, Version.RHEL4, Version.FC4, Version.FC5, Version.FC6, Version.RHEL5, Version.F7, Version.F8, Version.F9, Version.F10, Version.F11, Version.F12, Version.F13, Version.RHEL6, Version.F14, Version.F15, Version.F16, Version.F17, Version.F18, Version.F19, Version.F20, Version.F21, Version.RHEL7, Version.F22, Version.F23, Version.F24, Version.F25].contains v = true → Command.Writes (FC3_DisplayMode.cls) textTexts v :=
  writes_of [0] (writes_textTexts_0_texts) (by decide +kernel)

theorem writes_textTexts_1_texts : ∀ i ∈ [0, 1], Command.FirstText (F26_DisplayMode.cls) c!"text" (textTexts.texts.getD i noText) :=
  (all_cons (by intro b b' hb hb' x hx line l; kernel_rfl)
    (all_cons (by intro b b' hb hb' x hx line l; kernel_rfl)
    (List.forall_mem_nil _)))

theorem writes_textTexts_1 : ∀ v, [Version.F26, Version.F27, Version.F28, Version.RHEL8, Version.F29, Version.F30, Version.F31, Version.F32, Version.F33, Version.F34].contains v = true → Command.Writes (F26_DisplayMode.cls) textTexts v :=
  writes_of [0, 1] (writes_textTexts_1_texts) (by decide +kernel)

theorem writes_textTexts : textTexts.Written := by
  unfold CommandTexts.Written commandMaps
  exact (all_cons (fun c h => by cases h; exact writes_textTexts_0 _ rfl)
    (all_cons (fun c h => by cases h; exact writes_textTexts_0 _ rfl)
    (all_cons (fun c h => by cases h; exact writes_textTexts_0 _ rfl)
    (all_cons (fun c h => by cases h; exact writes_textTexts_0 _ rfl)
    (all_cons (fun c h => by cases h; exact writes_textTexts_0 _ rfl)
    (all_cons (fun c h => by cases h; exact writes_textTexts_0 _ rfl)
    (all_cons (fun c h => by cases h; exact writes_textTexts_0 _ rfl)
    (all_cons (fun c h => by cases h; exact writes_textTexts_0 _ rfl)
    (all_cons (fun c h => by cases h; exact writes_textTexts_0 _ rfl)
    (all_cons (fun c h => by cases h; exact writes_textTexts_0 _ rfl)
    (all_cons (fun c h => by cases h; exact writes_textTexts_0 _ rfl)
    (all_cons (fun c h => by cases h; exact writes_textTexts_0 _ rfl)
    (all_cons (fun c h => by cases h; exact writes_textTexts_0 _ rfl)
    (all_cons (fun c h => by cases h; exact writes_textTexts_0 _ rfl)
    (all_cons (fun c h => by cases h; exact writes_textTexts_0 _ rfl)
    (all_cons (fun c h => by cases h; exact writes_textTexts_0 _ rfl)
    (all_cons (fun c h => by cases h; exact writes_textTexts_1 _ rfl)
    (all_cons (fun c h => by cases h; exact writes_textTexts_1 _ rfl)
    (all_cons (fun c h => by cases h; exact writes_textTexts_1 _ rfl)
    (all_cons (fun c h => by cases h; exact writes_textTexts_1 _ rfl)
    (all_cons (fun c h => by cases h; exact writes_textTexts_1 _ rfl)
    (all_cons (fun c h => by cases h; exact writes_textTexts_1 _ rfl)
    (all_cons (fun c h => by cases h; exact writes_textTexts_1 _ rfl)
    (all_cons (fun c h => by cases h; exact writes_textTexts_1 _ rfl)
    (all_cons (fun c h => by cases h; exact writes_textTexts_1 _ rfl)
    (all_cons (fun c h => by cases h; exact writes_textTexts_0 _ rfl)
    (all_cons (fun c h => by cases h; exact writes_textTexts_0 _ rfl)
    (all_cons (fun c h => by cases h; exact writes_textTexts_0 _ rfl)
    (all_cons (fun c h => by cases h; exact writes_textTexts_0 _ rfl)
    (all_cons (fun c h => by cases h; exact writes_textTexts_0 _ rfl)
    (all_cons (fun c h => by cases h; exact writes_textTexts_0 _ rfl)
    (all_cons (fun c h => by cases h; exact writes_textTexts_0 _ rfl)
    (all_cons (fun c h => by cases h; exact writes_textTexts_0 _ rfl)
    (all_cons (fun c h => by cases h; exact writes_textTexts_0 _ rfl)
    (all_cons (fun c h => by cases h; exact writes_textTexts_0 _ rfl)
    (all_cons (fun c h => by cases h; exact writes_textTexts_0 _ rfl)
    (all_cons (fun c h => by cases h; exact writes_textTexts_0 _ rfl)
    (all_cons (fun c h => by cases h; exact writes_textTexts_1 _ rfl)
    (List.forall_mem_nil _)))))))))))))))))))))))))))))))))))))))

theorem writes_upgradeTexts_0_texts : ∀ i ∈ [0], Command.FirstText (FC3_Upgrade.cls) c!"upgrade" (upgradeTexts.texts.getD i noText) :=
  (all_cons (by intro b b' hb hb' x hx line l; kernel_rfl)
    (List.forall_mem_nil _))

theorem writes_upgradeTexts_0 : ∀ v, [Version.RHEL3, Version.FC3, Version.RHEL4, Version.FC4, Version.FC5, Version.FC6, Version.RHEL5, Version.F7, Version.F8, Version.F9, Version.F10].contains v = true → Command.Writes (FC3_Upgrade.cls) upgradeTexts v :=
  writes_of [0] (writes_upgradeTexts_0_texts) (by decide +kernel)

theorem writes_upgradeTexts_1_texts : ∀ i ∈ [0, 1], Command.FirstText (F11_Upgrade.cls) c!"upgrade" (upgradeTexts.texts.getD i noText) :=
  (all_cons (by intro b b' hb hb' x hx line l; kernel_rfl)
    (all_cons (by
      intro b b' hb hb' x hx line l
      cases x with
      | nil => exact absurd rfl hx
      | cons a x => (refine Eq.trans (b := some (c!"# Upgrade existing installation\nupgrade --root-device=" ++ (a :: x) ++ c!"\n")) ?_ (by kernel_rfl); text_rfl))
    (List.forall_mem_nil _)))

theorem writes_upgradeTexts_1 : ∀ v, [Version.F11, Version.F12, Version.F13, Version.RHEL6, Version.F14, Version.F15, Version.F16, Version.F17, Version.F18, Version.F19].contains v = true → Command.Writes (F11_Upgrade.cls) upgradeTexts v :=
  writes_of [0, 1] (writes_upgradeTexts_1_texts) (by decide +kernel)

theorem writes_upgradeTexts : upgradeTexts.Written := by
  unfold CommandTexts.Written commandMaps
  exact (all_cons (fun c h => by cases h; exact writes_upgradeTexts_0 _ rfl)
    (all_cons (fun c h => by cases h; exact writes_upgradeTexts_1 _ rfl)
    (all_cons (fun c h => by cases h; exact writes_upgradeTexts_1 _ rfl)
    (all_cons (fun c h => by cases h; exact writes_upgradeTexts_1 _ rfl)
    (all_cons (fun c h => by cases h; exact writes_upgradeTexts_1 _ rfl)
    (all_cons (fun c h => by cases h; exact writes_upgradeTexts_1 _ rfl)
    (all_cons (fun c h => by cases h; exact writes_upgradeTexts_1 _ rfl)
    (all_cons (fun c h => by cases h; exact writes_upgradeTexts_1 _ rfl)
    (all_cons (fun c h => by cases h; exact writes_upgradeTexts_1 _ rfl)
    (all_cons (fun c h => by cases h; exact writes_upgradeTexts_1 _ rfl)
    (all_cons (fun c h => by cases h; exact writes_none (by decide +kernel))
    (all_cons (fun c h => by cases h; exact writes_none (by decide +kernel))
    (all_cons (fun c h => by cases h; exact writes_none (by decide +kernel))
    (all_cons (fun c h => by cases h; exact writes_none (by decide +kernel))
    (all_cons (fun c h => by cases h; exact writes_none (by decide +kernel))
    (all_cons (fun c h => by cases h; exact writes_none (by decide +kernel))
    (all_cons (fun c h => by cases h; exact writes_none (by decide +kernel))
    (all_cons (fun c h => by cases h; exact writes_none (by decide +kernel))
    (all_cons (fun c h => by cases h; exact writes_none (by decide +kernel))
    (all_cons (fun c h => by cases h; exact writes_none (by decide +kernel))
    (all_cons (fun c h => by cases h)
    (all_cons (fun c h => by cases h)
    (all_cons (fun c h => by cases h)
    (all_cons (fun c h => by cases h)
    (all_cons (fun c h => by cases h)
    (all_cons (fun c h => by cases h; exact writes_upgradeTexts_0 _ rfl)
    (all_cons (fun c h => by cases h; exact writes_upgradeTexts_0 _ rfl)
    (all_cons (fun c h => by cases h; exact writes_upgradeTexts_0 _ rfl)
    (all_cons (fun c h => by cases h; exact writes_upgradeTexts_0 _ rfl)
    (all_cons (fun c h => by cases h; exact writes_upgradeTexts_0 _ rfl)
    (all_cons (fun c h => by cases h; exact writes_upgradeTexts_0 _ rfl)
    (all_cons (fun c h => by cases h; exact writes_upgradeTexts_0 _ rfl)
    (all_cons (fun c h => by cases h; exact writes_upgradeTexts_0 _ rfl)
    (all_cons (fun c h => by cases h; exact writes_upgradeTexts_0 _ rfl)
    (all_cons (fun c h => by cases h; exact writes_upgradeTexts_0 _ rfl)
    (all_cons (fun c h => by cases h; exact writes_upgradeTexts_1 _ rfl)
    (all_cons (fun c h => by cases h; exact writes_none (by decide +kernel))
    (all_cons (fun c h => by cases h)
    (List.forall_mem_nil _)))))))))))))))))))))))))))))))))))))))

theorem writes_hmcTexts_0_texts (n : Str) : ∀ i ∈ [0], Command.FirstText (F28_Hmc.cls) n (hmcTexts.texts.getD i noText) :=
  (all_cons (by intro b b' hb hb' x hx line l; kernel_rfl)
    (List.forall_mem_nil _))

theorem writes_hmcTexts_0 : ∀ v, [Version.F28, Version.RHEL8, Version.F29, Version.F30, Version.F31, Version.F32, Version.F33, Version.F34].contains v = true → Command.Writes (F28_Hmc.cls) hmcTexts v :=
  writes_of [0] (writes_hmcTexts_0_texts _) (by decide +kernel)

theorem writes_hmcTexts_1_texts (n : Str) : ∀ i ∈ [0], Command.FirstText (RHEL7_Hmc.cls) n (hmcTexts.texts.getD i noText) :=
  (all_cons (by intro b b' hb hb' x hx line l; kernel_rfl)
    (List.forall_mem_nil _))

theorem writes_hmcTexts_1 : ∀ v, [Version.RHEL7].contains v = true → Command.Writes (RHEL7_Hmc.cls) hmcTexts v :=
  writes_of [0] (writes_hmcTexts_1_texts _) (by decide +kernel)

theorem writes_hmcTexts : hmcTexts.Written := by
  unfold CommandTexts.Written commandMaps
  exact (all_cons (fun c h => by cases h)
    (all_cons (fun c h => by cases h)
    (all_cons (fun c h => by cases h)
    (all_cons (fun c h => by cases h)
    (all_cons (fun c h => by cases h)
    (all_cons (fun c h => by cases h)
    (all_cons (fun c h => by cases h)
    (all_cons (fun c h => by cases h)
    (all_cons (fun c h => by cases h)
    (all_cons (fun c h => by cases h)
    (all_cons (fun c h => by cases h)
    (all_cons (fun c h => by cases h)
    (all_cons (fun c h => by cases h)
    (all_cons (fun c h => by cases h)
    (all_cons (fun c h => by cases h)
    (all_cons (fun c h => by cases h)
    (all_cons (fun c h => by cases h)
    (all_cons (fun c h => by cases h)
    (all_cons (fun c h => by cases h; exact writes_hmcTexts_0 _ rfl)
    (all_cons (fun c h => by cases h; exact writes_hmcTexts_0 _ rfl)
    (all_cons (fun c h => by cases h; exact writes_hmcTexts_0 _ rfl)
    (all_cons (fun c h => by cases h; exact writes_hmcTexts_0 _ rfl)
    (all_cons (fun c h => by cases h; exact writes_hmcTexts_0 _ rfl)
    (all_cons (fun c h => by cases h; exact writes_hmcTexts_0 _ rfl)
    (all_cons (fun c h => by cases h; exact writes_hmcTexts_0 _ rfl)
    (all_cons (fun c h => by cases h)
    (all_cons (fun c h => by cases h)
    (all_cons (fun c h => by cases h)
    (all_cons (fun c h => by cases h)
    (all_cons (fun c h => by cases h)
    (all_cons (fun c h => by cases h)
    (all_cons (fun c h => by cases h)
    (all_cons (fun c h => by cases h)
    (all_cons (fun c h => by cases h)
    (all_cons (fun c h => by cases h)
    (all_cons (fun c h => by cases h)
    (all_cons (fun c h => by cases h; exact writes_hmcTexts_1 _ rfl)
    (all_cons (fun c h => by cases h; exact writes_hmcTexts_0 _ rfl)
    (List.forall_mem_nil _)))))))))))))))))))))))))))))))))))))))

theorem writes_interactiveTexts_0_texts (n : Str) : ∀ i ∈ [0], Command.FirstText (FC3_Interactive.cls) n (interactiveTexts.texts.getD i noText) :=
  (all_cons (by intro b b' hb hb' x hx line l; kernel_rfl)
    (List.forall_mem_nil _))

theorem writes_interactiveTexts_0 : ∀ v, [Version.RHEL3, Version.FC3, Version.RHEL4, Version.FC4, Version.FC5, Version.FC6, Version.RHEL5, Version.F7, Version.F8, Version.F9, Version.F10, Version.F11, Version.F12, Version.F13, Version.RHEL6].contains v = true → Command.Writes (FC3_Interactive.cls) interactiveTexts v :=
  writes_of [0] (writes_interactiveTexts_0_texts _) (by decide +kernel)

theorem writes_interactiveTexts : interactiveTexts.Written := by
  unfold CommandTexts.Written commandMaps
  exact (all_cons (fun c h => by cases h; exact writes_interactiveTexts_0 _ rfl)
    (all_cons (fun c h => by cases h; exact writes_interactiveTexts_0 _ rfl)
    (all_cons (fun c h => by cases h; exact writes_interactiveTexts_0 _ rfl)
    (all_cons (fun c h => by cases h; exact writes_interactiveTexts_0 _ rfl)
    (all_cons (fun c h => by cases h; exact writes_none (by decide +kernel))
    (all_cons (fun c h => by cases h; exact writes_none (by decide +kernel))
    (all_cons (fun c h => by cases h)
    (all_cons (fun c h => by cases h)
    (all_cons (fun c h => by cases h)
    (all_cons (fun c h => by cases h)
    (all_cons (fun c h => by cases h)
    (all_cons (fun c h => by cases h)
    (all_cons (fun c h => by cases h)
    (all_cons (fun c h => by cases h)
    (all_cons (fun c h => by cases h)
    (all_cons (fun c h => by cases h)
    (all_cons (fun c h => by cases h)
    (all_cons (fun c h => by cases h)
    (all_cons (fun c h => by cases h)
    (all_cons (fun c h => by cases h)
    (all_cons (fun c h => by cases h)
    (all_cons (fun c h => by cases h)
    (all_cons (fun c h => by cases h)
    (all_cons (fun c h => by cases h)
    (all_cons (fun c h => by cases h)
    (all_cons (fun c h => by cases h; exact writes_interactiveTexts_0 _ rfl)
    (all_cons (fun c h => by cases h; exact writes_interactiveTexts_0 _ rfl)
    (all_cons (fun c h => by cases h; exact writes_interactiveTexts_0 _ rfl)
    (all_cons (fun c h => by cases h; exact writes_interactiveTexts_0 _ rfl)
    (all_cons (fun c h => by cases h; exact writes_interactiveTexts_0 _ rfl)
    (all_cons (fun c h => by cases h; exact writes_interactiveTexts_0 _ rfl)
    (all_cons (fun c h => by cases h; exact writes_interactiveTexts_0 _ rfl)
    (all_cons (fun c h => by cases h; exact writes_interactiveTexts_0 _ rfl)
    (all_cons (fun c h => by cases h; exact writes_interactiveTexts_0 _ rfl)
    (all_cons (fun c h => by cases h; exact writes_interactiveTexts_0 _ rfl)
    (all_cons (fun c h => by cases h; exact writes_interactiveTexts_0 _ rfl)
    (all_cons (fun c h => by cases h)
    (all_cons (fun c h => by cases h)
    (List.forall_mem_nil _)))))))))))))))))))))))))))))))))))))))

theorem writes_lilocheckTexts_0_texts (n : Str) : ∀ i ∈ [0], Command.FirstText (FC3_LiloCheck.cls) n (lilocheckTexts.texts.getD i noText) :=
  (all_cons (by intro b b' hb hb' x hx line l; kernel_rfl)
    (List.forall_mem_nil _))

theorem writes_lilocheckTexts_0 : ∀ v, [Version.RHEL3, Version.FC3, Version.RHEL4].contains v = true → Command.Writes (FC3_LiloCheck.cls) lilocheckTexts v :=
  writes_of [0] (writes_lilocheckTexts_0_texts _) (by decide +kernel)

theorem writes_lilocheckTexts : lilocheckTexts.Written := by
  unfold CommandTexts.Written commandMaps
  exact (all_cons (fun c h => by cases h)
    (all_cons (fun c h => by cases h)
    (all_cons (fun c h => by cases h)
    (all_cons (fun c h => by cases h)
    (all_cons (fun c h => by cases h)
    (all_cons (fun c h => by cases h)
    (all_cons (fun c h => by cases h)
    (all_cons (fun c h => by cases h)
    (all_cons (fun c h => by cases h)
    (all_cons (fun c h => by cases h)
    (all_cons (fun c h => by cases h)
    (all_cons (fun c h => by cases h)
    (all_cons (fun c h => by cases h)
    (all_cons (fun c h => by cases h)
    (all_cons (fun c h => by cases h)
    (all_cons (fun c h => by cases h)
    (all_cons (fun c h => by cases h)
    (all_cons (fun c h => by cases h)
    (all_cons (fun c h => by cases h)
    (all_cons (fun c h => by cases h)
    (all_cons (fun c h => by cases h)
    (all_cons (fun c h => by cases h)
    (all_cons (fun c h => by cases h)
    (all_cons (fun c h => by cases h)
    (all_cons (fun c h => by cases h)
    (all_cons (fun c h => by cases h)
    (all_cons (fun c h => by cases h)
    (all_cons (fun c h => by cases h)
    (all_cons (fun c h => by cases h; exact writes_lilocheckTexts_0 _ rfl)
    (all_cons (fun c h => by cases h; exact writes_none (by decide +kernel))
    (all_cons (fun c h => by cases h)
    (all_cons (fun c h => by cases h)
    (all_cons (fun c h => by cases h; exact writes_lilocheckTexts_0 _ rfl)
    (all_cons (fun c h => by cases h; exact writes_lilocheckTexts_0 _ rfl)
    (all_cons (fun c h => by cases h)
    (all_cons (fun c h => by cases h)
    (all_cons (fun c h => by cases h)
    (all_cons (fun c h => by cases h)
    (List.forall_mem_nil _)))))))))))))))))))))))))))))))))))))))

theorem writes_skipxTexts_0_texts (n : Str) : ∀ i ∈ [0], Command.FirstText (FC3_SkipX.cls) n (skipxTexts.texts.getD i noText) :=
  (all_cons (by intro b b' hb hb' x hx line l; kernel_rfl)
    (List.forall_mem_nil _))

theorem writes_skipxTexts_0 : ∀ v, [Version.RHEL3, Version.FC3, Version.RHEL4, Version.FC4, Version.FC5, Version.FC6, Version.RHEL5, Version.F7, Version.F8, Version.F9, Version.F10, Version.F11, Version.F12, Version.F13, Version.RHEL6, Version.F14, Version.F15, Version.F16, Version.F17, Version.F18, Version.F19, Version.F20, Version.F21, Version.RHEL7, Version.F22, Version.F23, Version.F24, Version.F25, Version.F26, Version.F27, Version.F28, Version.RHEL8, Version.F29, Version.F30, Version.F31, Version.F32, Version.F33, Version.F34].contains v = true → Command.Writes (FC3_SkipX.cls) skipxTexts v :=
  writes_of [0] (writes_skipxTexts_0_texts _) (by decide +kernel)

theorem writes_skipxTexts : skipxTexts.Written := by
  unfold CommandTexts.Written commandMaps
  exact (all_cons (fun c h => by cases h; exact writes_skipxTexts_0 _ rfl)
    (all_cons (fun c h => by cases h; exact writes_skipxTexts_0 _ rfl)
    (all_cons (fun c h => by cases h; exact writes_skipxTexts_0 _ rfl)
    (all_cons (fun c h => by cases h; exact writes_skipxTexts_0 _ rfl)
    (all_cons (fun c h => by cases h; exact writes_skipxTexts_0 _ rfl)
    (all_cons (fun c h => by cases h; exact writes_skipxTexts_0 _ rfl)
    (all_cons (fun c h => by cases h; exact writes_skipxTexts_0 _ rfl)
    (all_cons (fun c h => by cases h; exact writes_skipxTexts_0 _ rfl)
    (all_cons (fun c h => by cases h; exact writes_skipxTexts_0 _ rfl)
    (all_cons (fun c h => by cases h; exact writes_skipxTexts_0 _ rfl)
    (all_cons (fun c h => by cases h; exact writes_skipxTexts_0 _ rfl)
    (all_cons (fun c h => by cases h; exact writes_skipxTexts_0 _ rfl)
    (all_cons (fun c h => by cases h; exact writes_skipxTexts_0 _ rfl)
    (all_cons (fun c h => by cases h; exact writes_skipxTexts_0 _ rfl)
    (all_cons (fun c h => by cases h; exact writes_skipxTexts_0 _ rfl)
    (all_cons (fun c h => by cases h; exact writes_skipxTexts_0 _ rfl)
    (all_cons (fun c h => by cases h; exact writes_skipxTexts_0 _ rfl)
    (all_cons (fun c h => by cases h; exact writes_skipxTexts_0 _ rfl)
    (all_cons (fun c h => by cases h; exact writes_skipxTexts_0 _ rfl)
    (all_cons (fun c h => by cases h; exact writes_skipxTexts_0 _ rfl)
    (all_cons (fun c h => by cases h; exact writes_skipxTexts_0 _ rfl)
    (all_cons (fun c h => by cases h; exact writes_skipxTexts_0 _ rfl)
    (all_cons (fun c h => by cases h; exact writes_skipxTexts_0 _ rfl)
    (all_cons (fun c h => by cases h; exact writes_skipxTexts_0 _ rfl)
    (all_cons (fun c h => by cases h; exact writes_skipxTexts_0 _ rfl)
    (all_cons (fun c h => by cases h; exact writes_skipxTexts_0 _ rfl)
    (all_cons (fun c h => by cases h; exact writes_skipxTexts_0 _ rfl)
    (all_cons (fun c h => by cases h; exact writes_skipxTexts_0 _ rfl)
    (all_cons (fun c h => by cases h; exact writes_skipxTexts_0 _ rfl)
    (all_cons (fun c h => by cases h; exact writes_skipxTexts_0 _ rfl)
    (all_cons (fun c h => by cases h; exact writes_skipxTexts_0 _ rfl)
    (all_cons (fun c h => by cases h; exact writes_skipxTexts_0 _ rfl)
    (all_cons (fun c h => by cases h; exact writes_skipxTexts_0 _ rfl)
    (all_cons (fun c h => by cases h; exact writes_skipxTexts_0 _ rfl)
    (all_cons (fun c h => by cases h; exact writes_skipxTexts_0 _ rfl)
    (all_cons (fun c h => by cases h; exact writes_skipxTexts_0 _ rfl)
    (all_cons (fun c h => by cases h; exact writes_skipxTexts_0 _ rfl)
    (all_cons (fun c h => by cases h; exact writes_skipxTexts_0 _ rfl)
    (List.forall_mem_nil _)))))))))))))))))))))))))))))))))))))))

end Ks.Cmd
