import Verif.Commands.TextLogic
import Verif.Commands.TextTable
/-!
# The classes of the command maps write what the table says

Written by `scripts/gen_texts.py`.
-/
namespace Ks.Cmd

set_option linter.unusedVariables false

theorem writes_firewallTexts_0_texts (n : Str) : ∀ i ∈ [0, 1, 2, 3, 4, 5, 6, 7, 8, 10, 12, 14, 16, 17, 18, 20], Command.FirstText (F10_Firewall.cls) n (firewallTexts.texts.getD i noText) :=
  (all_cons (by intro b b' hb hb' x hx line l; kernel_rfl)
    (all_cons (by intro b b' hb hb' x hx line l; kernel_rfl)
    (all_cons (by intro b b' hb hb' x hx line l; kernel_rfl)
    (all_cons (by intro b b' hb hb' x hx line l; kernel_rfl)
    (all_cons (by intro b b' hb hb' x hx line l; kernel_rfl)
    (all_cons (by intro b b' hb hb' x hx line l; kernel_rfl)
    (all_cons (by intro b b' hb hb' x hx line l; kernel_rfl)
    (all_cons (by intro b b' hb hb' x hx line l; kernel_rfl)
    (all_cons (by intro b b' hb hb' x hx line l; kernel_rfl)
    (all_cons (by intro b b' hb hb' x hx line l; kernel_rfl)
    (all_cons (by intro b b' hb hb' x hx line l; kernel_rfl)
    (all_cons (by intro b b' hb hb' x hx line l; kernel_rfl)
    (all_cons (by
      intro b b' hb hb' x hx line l
      cases x with
      | nil => exact absurd rfl hx
      | cons a x => (kernel_rfl))
    (all_cons (by intro b b' hb hb' x hx line l; kernel_rfl)
    (all_cons (by intro b b' hb hb' x hx line l; kernel_rfl)
    (all_cons (by intro b b' hb hb' x hx line l; kernel_rfl)
    (List.forall_mem_nil _)))))))))))))))))

theorem writes_firewallTexts_0 : ∀ v, [Version.F10, Version.F11, Version.F12, Version.F13, Version.RHEL6].contains v = true → Command.Writes (F10_Firewall.cls) firewallTexts v :=
  writes_of [0, 1, 2, 3, 4, 5, 6, 7, 8, 10, 12, 14, 16, 17, 18, 20] (writes_firewallTexts_0_texts _) (by decide +kernel)

theorem writes_firewallTexts_1_texts (n : Str) : ∀ i ∈ [0, 1, 2, 3, 4, 5, 6, 7, 8, 10, 12, 14, 17, 18, 20], Command.FirstText (F14_Firewall.cls) n (firewallTexts.texts.getD i noText) :=
  (all_cons (by intro b b' hb hb' x hx line l; kernel_rfl)
    (all_cons (by intro b b' hb hb' x hx line l; kernel_rfl)
    (all_cons (by intro b b' hb hb' x hx line l; kernel_rfl)
    (all_cons (by intro b b' hb hb' x hx line l; kernel_rfl)
    (all_cons (by intro b b' hb hb' x hx line l; kernel_rfl)
    (all_cons (by intro b b' hb hb' x hx line l; kernel_rfl)
    (all_cons (by intro b b' hb hb' x hx line l; kernel_rfl)
    (all_cons (by intro b b' hb hb' x hx line l; kernel_rfl)
    (all_cons (by intro b b' hb hb' x hx line l; kernel_rfl)
    (all_cons (by intro b b' hb hb' x hx line l; kernel_rfl)
    (all_cons (by intro b b' hb hb' x hx line l; kernel_rfl)
    (all_cons (by intro b b' hb hb' x hx line l; kernel_rfl)
    (all_cons (by intro b b' hb hb' x hx line l; kernel_rfl)
    (all_cons (by intro b b' hb hb' x hx line l; kernel_rfl)
    (all_cons (by intro b b' hb hb' x hx line l; kernel_rfl)
    (List.forall_mem_nil _))))))))))))))))

theorem writes_firewallTexts_1 : ∀ v, [Version.F14, Version.F15, Version.F16, Version.F17, Version.F18, Version.F19].contains v = true → Command.Writes (F14_Firewall.cls) firewallTexts v :=
  writes_of [0, 1, 2, 3, 4, 5, 6, 7, 8, 10, 12, 14, 17, 18, 20] (writes_firewallTexts_1_texts _) (by decide +kernel)

theorem writes_firewallTexts_2_texts (n : Str) : ∀ i ∈ [0, 1, 2, 3, 4, 5, 6, 7, 8, 10, 12, 14, 17, 18, 20, 21, 22], Command.FirstText (F20_Firewall.cls) n (firewallTexts.texts.getD i noText) :=
  (all_cons (by intro b b' hb hb' x hx line l; kernel_rfl)
    (all_cons (by intro b b' hb hb' x hx line l; kernel_rfl)
    (all_cons (by intro b b' hb hb' x hx line l; kernel_rfl)
    (all_cons (by intro b b' hb hb' x hx line l; kernel_rfl)
    (all_cons (by intro b b' hb hb' x hx line l; kernel_rfl)
    (all_cons (by intro b b' hb hb' x hx line l; kernel_rfl)
    (all_cons (by intro b b' hb hb' x hx line l; kernel_rfl)
    (all_cons (by intro b b' hb hb' x hx line l; kernel_rfl)
    (all_cons (by intro b b' hb hb' x hx line l; kernel_rfl)
    (all_cons (by intro b b' hb hb' x hx line l; kernel_rfl)
    (all_cons (by intro b b' hb hb' x hx line l; kernel_rfl)
    (all_cons (by intro b b' hb hb' x hx line l; kernel_rfl)
    (all_cons (by intro b b' hb hb' x hx line l; kernel_rfl)
    (all_cons (by intro b b' hb hb' x hx line l; kernel_rfl)
    (all_cons (by intro b b' hb hb' x hx line l; kernel_rfl)
    (all_cons (by intro b b' hb hb' x hx line l; kernel_rfl)
    (all_cons (by intro b b' hb hb' x hx line l; kernel_rfl)
    (List.forall_mem_nil _))))))))))))))))))

theorem writes_firewallTexts_2 : ∀ v, [Version.F20, Version.F21, Version.RHEL7, Version.F22, Version.F23, Version.F24, Version.F25, Version.F26, Version.F27].contains v = true → Command.Writes (F20_Firewall.cls) firewallTexts v :=
  writes_of [0, 1, 2, 3, 4, 5, 6, 7, 8, 10, 12, 14, 17, 18, 20, 21, 22] (writes_firewallTexts_2_texts _) (by decide +kernel)

theorem writes_firewallTexts_3_texts (n : Str) : ∀ i ∈ [0, 1, 2, 3, 4, 5, 6, 7, 8, 10, 12, 14, 17, 18, 20, 21, 22, 23], Command.FirstText (F28_Firewall.cls) n (firewallTexts.texts.getD i noText) :=
  (all_cons (by intro b b' hb hb' x hx line l; kernel_rfl)
    (all_cons (by intro b b' hb hb' x hx line l; kernel_rfl)
    (all_cons (by intro b b' hb hb' x hx line l; kernel_rfl)
    (all_cons (by intro b b' hb hb' x hx line l; kernel_rfl)
    (all_cons (by intro b b' hb hb' x hx line l; kernel_rfl)
    (all_cons (by intro b b' hb hb' x hx line l; kernel_rfl)
    (all_cons (by intro b b' hb hb' x hx line l; kernel_rfl)
    (all_cons (by intro b b' hb hb' x hx line l; kernel_rfl)
    (all_cons (by intro b b' hb hb' x hx line l; kernel_rfl)
    (all_cons (by intro b b' hb hb' x hx line l; kernel_rfl)
    (all_cons (by intro b b' hb hb' x hx line l; kernel_rfl)
    (all_cons (by intro b b' hb hb' x hx line l; kernel_rfl)
    (all_cons (by intro b b' hb hb' x hx line l; kernel_rfl)
    (all_cons (by intro b b' hb hb' x hx line l; kernel_rfl)
    (all_cons (by intro b b' hb hb' x hx line l; kernel_rfl)
    (all_cons (by intro b b' hb hb' x hx line l; kernel_rfl)
    (all_cons (by intro b b' hb hb' x hx line l; kernel_rfl)
    (all_cons (by intro b b' hb hb' x hx line l; kernel_rfl)
    (List.forall_mem_nil _)))))))))))))))))))

theorem writes_firewallTexts_3 : ∀ v, [Version.F28, Version.RHEL8, Version.F29, Version.F30, Version.F31, Version.F32, Version.F33, Version.F34].contains v = true → Command.Writes (F28_Firewall.cls) firewallTexts v :=
  writes_of [0, 1, 2, 3, 4, 5, 6, 7, 8, 10, 12, 14, 17, 18, 20, 21, 22, 23] (writes_firewallTexts_3_texts _) (by decide +kernel)

theorem writes_firewallTexts_4_texts (n : Str) : ∀ i ∈ [0, 1, 2, 3, 4, 5, 6, 9, 11, 13, 15, 17, 19, 20, 24, 25, 26], Command.FirstText (FC3_Firewall.cls) n (firewallTexts.texts.getD i noText) :=
  (all_cons (by intro b b' hb hb' x hx line l; kernel_rfl)
    (all_cons (by intro b b' hb hb' x hx line l; kernel_rfl)
    (all_cons (by intro b b' hb hb' x hx line l; kernel_rfl)
    (all_cons (by intro b b' hb hb' x hx line l; kernel_rfl)
    (all_cons (by intro b b' hb hb' x hx line l; kernel_rfl)
    (all_cons (by intro b b' hb hb' x hx line l; kernel_rfl)
    (all_cons (by intro b b' hb hb' x hx line l; kernel_rfl)
    (all_cons (by intro b b' hb hb' x hx line l; kernel_rfl)
    (all_cons (by intro b b' hb hb' x hx line l; kernel_rfl)
    (all_cons (by intro b b' hb hb' x hx line l; kernel_rfl)
    (all_cons (by intro b b' hb hb' x hx line l; kernel_rfl)
    (all_cons (by intro b b' hb hb' x hx line l; kernel_rfl)
    (all_cons (by intro b b' hb hb' x hx line l; kernel_rfl)
    (all_cons (by intro b b' hb hb' x hx line l; kernel_rfl)
    (all_cons (by intro b b' hb hb' x hx line l; kernel_rfl)
    (all_cons (by
      intro b b' hb hb' x hx line l
      cases x with
      | nil => exact absurd rfl hx
      | cons a x => (kernel_rfl))
    (all_cons (by
      intro b b' hb hb' x hx line l
      cases x with
      | nil => exact absurd rfl hx
      | cons a x => (kernel_rfl))
    (List.forall_mem_nil _))))))))))))))))))

theorem writes_firewallTexts_4 : ∀ v, [Version.RHEL3, Version.FC3, Version.RHEL4, Version.FC4, Version.FC5, Version.FC6, Version.RHEL5, Version.F7, Version.F8].contains v = true → Command.Writes (FC3_Firewall.cls) firewallTexts v :=
  writes_of [0, 1, 2, 3, 4, 5, 6, 9, 11, 13, 15, 17, 19, 20, 24, 25, 26] (writes_firewallTexts_4_texts _) (by decide +kernel)

theorem writes_firewallTexts_5_texts (n : Str) : ∀ i ∈ [0, 1, 2, 3, 4, 5, 6, 9, 11, 13, 15, 17, 19, 20, 24], Command.FirstText (F9_Firewall.cls) n (firewallTexts.texts.getD i noText) :=
  (all_cons (by intro b b' hb hb' x hx line l; kernel_rfl)
    (all_cons (by intro b b' hb hb' x hx line l; kernel_rfl)
    (all_cons (by intro b b' hb hb' x hx line l; kernel_rfl)
    (all_cons (by intro b b' hb hb' x hx line l; kernel_rfl)
    (all_cons (by intro b b' hb hb' x hx line l; kernel_rfl)
    (all_cons (by intro b b' hb hb' x hx line l; kernel_rfl)
    (all_cons (by intro b b' hb hb' x hx line l; kernel_rfl)
    (all_cons (by intro b b' hb hb' x hx line l; kernel_rfl)
    (all_cons (by intro b b' hb hb' x hx line l; kernel_rfl)
    (all_cons (by intro b b' hb hb' x hx line l; kernel_rfl)
    (all_cons (by intro b b' hb hb' x hx line l; kernel_rfl)
    (all_cons (by intro b b' hb hb' x hx line l; kernel_rfl)
    (all_cons (by intro b b' hb hb' x hx line l; kernel_rfl)
    (all_cons (by intro b b' hb hb' x hx line l; kernel_rfl)
    (all_cons (by intro b b' hb hb' x hx line l; kernel_rfl)
    (List.forall_mem_nil _))))))))))))))))

theorem writes_firewallTexts_5 : ∀ v, [Version.F9].contains v = true → Command.Writes (F9_Firewall.cls) firewallTexts v :=
  writes_of [0, 1, 2, 3, 4, 5, 6, 9, 11, 13, 15, 17, 19, 20, 24] (writes_firewallTexts_5_texts _) (by decide +kernel)

theorem writes_firewallTexts : firewallTexts.Written := by
  unfold CommandTexts.Written commandMaps
  exact (all_cons (fun c h => by cases h; exact writes_firewallTexts_0 _ rfl)
    (all_cons (fun c h => by cases h; exact writes_firewallTexts_0 _ rfl)
    (all_cons (fun c h => by cases h; exact writes_firewallTexts_0 _ rfl)
    (all_cons (fun c h => by cases h; exact writes_firewallTexts_0 _ rfl)
    (all_cons (fun c h => by cases h; exact writes_firewallTexts_1 _ rfl)
    (all_cons (fun c h => by cases h; exact writes_firewallTexts_1 _ rfl)
    (all_cons (fun c h => by cases h; exact writes_firewallTexts_1 _ rfl)
    (all_cons (fun c h => by cases h; exact writes_firewallTexts_1 _ rfl)
    (all_cons (fun c h => by cases h; exact writes_firewallTexts_1 _ rfl)
    (all_cons (fun c h => by cases h; exact writes_firewallTexts_1 _ rfl)
    (all_cons (fun c h => by cases h; exact writes_firewallTexts_2 _ rfl)
    (all_cons (fun c h => by cases h; exact writes_firewallTexts_2 _ rfl)
    (all_cons (fun c h => by cases h; exact writes_firewallTexts_2 _ rfl)
    (all_cons (fun c h => by cases h; exact writes_firewallTexts_2 _ rfl)
    (all_cons (fun c h => by cases h; exact writes_firewallTexts_2 _ rfl)
    (all_cons (fun c h => by cases h; exact writes_firewallTexts_2 _ rfl)
    (all_cons (fun c h => by cases h; exact writes_firewallTexts_2 _ rfl)
    (all_cons (fun c h => by cases h; exact writes_firewallTexts_2 _ rfl)
    (all_cons (fun c h => by cases h; exact writes_firewallTexts_3 _ rfl)
    (all_cons (fun c h => by cases h; exact writes_firewallTexts_3 _ rfl)
    (all_cons (fun c h => by cases h; exact writes_firewallTexts_3 _ rfl)
    (all_cons (fun c h => by cases h; exact writes_firewallTexts_3 _ rfl)
    (all_cons (fun c h => by cases h; exact writes_firewallTexts_3 _ rfl)
    (all_cons (fun c h => by cases h; exact writes_firewallTexts_3 _ rfl)
    (all_cons (fun c h => by cases h; exact writes_firewallTexts_3 _ rfl)
    (all_cons (fun c h => by cases h; exact writes_firewallTexts_4 _ rfl)
    (all_cons (fun c h => by cases h; exact writes_firewallTexts_4 _ rfl)
    (all_cons (fun c h => by cases h; exact writes_firewallTexts_5 _ rfl)
    (all_cons (fun c h => by cases h; exact writes_firewallTexts_4 _ rfl)
    (all_cons (fun c h => by cases h; exact writes_firewallTexts_4 _ rfl)
    (all_cons (fun c h => by cases h; exact writes_firewallTexts_4 _ rfl)
    (all_cons (fun c h => by cases h; exact writes_firewallTexts_4 _ rfl)
    (all_cons (fun c h => by cases h; exact writes_firewallTexts_4 _ rfl)
    (all_cons (fun c h => by cases h; exact writes_firewallTexts_4 _ rfl)
    (all_cons (fun c h => by cases h; exact writes_firewallTexts_4 _ rfl)
    (all_cons (fun c h => by cases h; exact writes_firewallTexts_0 _ rfl)
    (all_cons (fun c h => by cases h; exact writes_firewallTexts_2 _ rfl)
    (all_cons (fun c h => by cases h; exact writes_firewallTexts_3 _ rfl)
    (List.forall_mem_nil _)))))))))))))))))))))))))))))))))))))))

theorem writes_btrfsTexts_0_texts (n : Str) : ∀ i ∈ [0, 1, 2, 3, 4, 5, 6, 7, 8, 9, 10, 11, 12, 13, 14, 15, 16, 17, 18, 19], Command.FirstText (F17_BTRFS.cls F17_BTRFSData.cls) n (btrfsTexts.texts.getD i noText) :=
  (all_cons (by intro b b' hb hb' x hx line l; rcases hb with rfl | rfl <;> rcases hb' with rfl | rfl <;> kernel_rfl)
    (all_cons (by intro b b' hb hb' x hx line l; rcases hb with rfl | rfl <;> rcases hb' with rfl | rfl <;> kernel_rfl)
    (all_cons (by intro b b' hb hb' x hx line l; rcases hb with rfl | rfl <;> rcases hb' with rfl | rfl <;> kernel_rfl)
    (all_cons (by
      intro b b' hb hb' x hx line l
      cases x with
      | nil => exact absurd rfl hx
      | cons a x => rcases hb with rfl | rfl <;> rcases hb' with rfl | rfl <;> (refine Eq.trans (b := some (c!"btrfs /x --label=" ++ (a :: x) ++ c!" a\n")) ?_ (by kernel_rfl); text_rfl))
    (all_cons (by intro b b' hb hb' x hx line l; rcases hb with rfl | rfl <;> rcases hb' with rfl | rfl <;> kernel_rfl)
    (all_cons (by intro b b' hb hb' x hx line l; rcases hb with rfl | rfl <;> rcases hb' with rfl | rfl <;> kernel_rfl)
    (all_cons (by intro b b' hb hb' x hx line l; rcases hb with rfl | rfl <;> rcases hb' with rfl | rfl <;> kernel_rfl)
    (all_cons (by intro b b' hb hb' x hx line l; rcases hb with rfl | rfl <;> rcases hb' with rfl | rfl <;> kernel_rfl)
    (all_cons (by intro b b' hb hb' x hx line l; rcases hb with rfl | rfl <;> rcases hb' with rfl | rfl <;> kernel_rfl)
    (all_cons (by intro b b' hb hb' x hx line l; rcases hb with rfl | rfl <;> rcases hb' with rfl | rfl <;> kernel_rfl)
    (all_cons (by intro b b' hb hb' x hx line l; rcases hb with rfl | rfl <;> rcases hb' with rfl | rfl <;> kernel_rfl)
    (all_cons (by intro b b' hb hb' x hx line l; rcases hb with rfl | rfl <;> rcases hb' with rfl | rfl <;> kernel_rfl)
    (all_cons (by
      intro b b' hb hb' x hx line l
      cases x with
      | nil => exact absurd rfl hx
      | cons a x => rcases hb with rfl | rfl <;> rcases hb' with rfl | rfl <;> (kernel_rfl))
    (all_cons (by
      intro b b' hb hb' x hx line l
      cases x with
      | nil => exact absurd rfl hx
      | cons a x => rcases hb with rfl | rfl <;> rcases hb' with rfl | rfl <;> (kernel_rfl))
    (all_cons (by intro b b' hb hb' x hx line l; rcases hb with rfl | rfl <;> rcases hb' with rfl | rfl <;> kernel_rfl)
    (all_cons (by intro b b' hb hb' x hx line l; rcases hb with rfl | rfl <;> rcases hb' with rfl | rfl <;> kernel_rfl)
    (all_cons (by intro b b' hb hb' x hx line l; rcases hb with rfl | rfl <;> rcases hb' with rfl | rfl <;> kernel_rfl)
    (all_cons (by
      intro b b' hb hb' x hx line l
      cases x with
      | nil => exact absurd rfl hx
      | cons a x => rcases hb with rfl | rfl <;> rcases hb' with rfl | rfl <;> (kernel_rfl))
    (all_cons (by intro b b' hb hb' x hx line l; rcases hb with rfl | rfl <;> rcases hb' with rfl | rfl <;> kernel_rfl)
    (all_cons (by intro b b' hb hb' x hx line l; rcases hb with rfl | rfl <;> rcases hb' with rfl | rfl <;> kernel_rfl)
    (List.forall_mem_nil _)))))))))))))))))))))

theorem writes_btrfsTexts_0 : ∀ v, [Version.F17, Version.F18, Version.F19, Version.F20, Version.F21, Version.F22].contains v = true → Command.Writes (F17_BTRFS.cls F17_BTRFSData.cls) btrfsTexts v :=
  writes_of [0, 1, 2, 3, 4, 5, 6, 7, 8, 9, 10, 11, 12, 13, 14, 15, 16, 17, 18, 19] (writes_btrfsTexts_0_texts _) (by decide +kernel)

theorem writes_btrfsTexts_1_texts (n : Str) : ∀ i ∈ [0, 1, 2, 3, 4, 5, 6, 7, 8, 9, 10, 11, 12, 13, 14, 15, 16, 17, 18, 19, 20], Command.FirstText (F23_BTRFS.cls F23_BTRFSData.cls) n (btrfsTexts.texts.getD i noText) :=
  (all_cons (by intro b b' hb hb' x hx line l; rcases hb with rfl | rfl <;> rcases hb' with rfl | rfl <;> kernel_rfl)
    (all_cons (by intro b b' hb hb' x hx line l; rcases hb with rfl | rfl <;> rcases hb' with rfl | rfl <;> kernel_rfl)
    (all_cons (by intro b b' hb hb' x hx line l; rcases hb with rfl | rfl <;> rcases hb' with rfl | rfl <;> kernel_rfl)
    (all_cons (by
      intro b b' hb hb' x hx line l
      cases x with
      | nil => exact absurd rfl hx
      | cons a x => rcases hb with rfl | rfl <;> rcases hb' with rfl | rfl <;> (refine Eq.trans (b := some (c!"btrfs /x --label=" ++ (a :: x) ++ c!" a\n")) ?_ (by kernel_rfl); text_rfl))
    (all_cons (by intro b b' hb hb' x hx line l; rcases hb with rfl | rfl <;> rcases hb' with rfl | rfl <;> kernel_rfl)
    (all_cons (by intro b b' hb hb' x hx line l; rcases hb with rfl | rfl <;> rcases hb' with rfl | rfl <;> kernel_rfl)
    (all_cons (by intro b b' hb hb' x hx line l; rcases hb with rfl | rfl <;> rcases hb' with rfl | rfl <;> kernel_rfl)
    (all_cons (by intro b b' hb hb' x hx line l; rcases hb with rfl | rfl <;> rcases hb' with rfl | rfl <;> kernel_rfl)
    (all_cons (by intro b b' hb hb' x hx line l; rcases hb with rfl | rfl <;> rcases hb' with rfl | rfl <;> kernel_rfl)
    (all_cons (by intro b b' hb hb' x hx line l; rcases hb with rfl | rfl <;> rcases hb' with rfl | rfl <;> kernel_rfl)
    (all_cons (by intro b b' hb hb' x hx line l; rcases hb with rfl | rfl <;> rcases hb' with rfl | rfl <;> kernel_rfl)
    (all_cons (by intro b b' hb hb' x hx line l; rcases hb with rfl | rfl <;> rcases hb' with rfl | rfl <;> kernel_rfl)
    (all_cons (by
      intro b b' hb hb' x hx line l
      cases x with
      | nil => exact absurd rfl hx
      | cons a x => rcases hb with rfl | rfl <;> rcases hb' with rfl | rfl <;> (kernel_rfl))
    (all_cons (by
      intro b b' hb hb' x hx line l
      cases x with
      | nil => exact absurd rfl hx
      | cons a x => rcases hb with rfl | rfl <;> rcases hb' with rfl | rfl <;> (kernel_rfl))
    (all_cons (by intro b b' hb hb' x hx line l; rcases hb with rfl | rfl <;> rcases hb' with rfl | rfl <;> kernel_rfl)
    (all_cons (by intro b b' hb hb' x hx line l; rcases hb with rfl | rfl <;> rcases hb' with rfl | rfl <;> kernel_rfl)
    (all_cons (by intro b b' hb hb' x hx line l; rcases hb with rfl | rfl <;> rcases hb' with rfl | rfl <;> kernel_rfl)
    (all_cons (by
      intro b b' hb hb' x hx line l
      cases x with
      | nil => exact absurd rfl hx
      | cons a x => rcases hb with rfl | rfl <;> rcases hb' with rfl | rfl <;> (kernel_rfl))
    (all_cons (by intro b b' hb hb' x hx line l; rcases hb with rfl | rfl <;> rcases hb' with rfl | rfl <;> kernel_rfl)
    (all_cons (by intro b b' hb hb' x hx line l; rcases hb with rfl | rfl <;> rcases hb' with rfl | rfl <;> kernel_rfl)
    (all_cons (by
      intro b b' hb hb' x hx line l
      cases x with
      | nil => exact absurd rfl hx
      | cons a x => rcases hb with rfl | rfl <;> rcases hb' with rfl | rfl <;> (refine Eq.trans (b := some (c!"btrfs /x --mkfsoptions=\"" ++ (a :: x) ++ c!"\" a\n")) ?_ (by kernel_rfl); text_rfl))
    (List.forall_mem_nil _))))))))))))))))))))))

theorem writes_btrfsTexts_1 : ∀ v, [Version.F23, Version.F24, Version.F25, Version.F26, Version.F27, Version.F28, Version.F29, Version.F30, Version.F31, Version.F32, Version.F33, Version.F34].contains v = true → Command.Writes (F23_BTRFS.cls F23_BTRFSData.cls) btrfsTexts v :=
  writes_of [0, 1, 2, 3, 4, 5, 6, 7, 8, 9, 10, 11, 12, 13, 14, 15, 16, 17, 18, 19, 20] (writes_btrfsTexts_1_texts _) (by decide +kernel)

theorem writes_btrfsTexts_2_texts (n : Str) : ∀ i ∈ [0, 1, 2, 3, 4, 5, 6, 7, 8, 9, 10, 11, 12, 13, 14, 15, 16, 17, 18, 19, 20], Command.FirstText (RHEL7_BTRFS.cls RHEL7_BTRFSData.cls) n (btrfsTexts.texts.getD i noText) :=
  (all_cons (by intro b b' hb hb' x hx line l; rcases hb with rfl | rfl <;> rcases hb' with rfl | rfl <;> kernel_rfl)
    (all_cons (by intro b b' hb hb' x hx line l; rcases hb with rfl | rfl <;> rcases hb' with rfl | rfl <;> kernel_rfl)
    (all_cons (by intro b b' hb hb' x hx line l; rcases hb with rfl | rfl <;> rcases hb' with rfl | rfl <;> kernel_rfl)
    (all_cons (by
      intro b b' hb hb' x hx line l
      cases x with
      | nil => exact absurd rfl hx
      | cons a x => rcases hb with rfl | rfl <;> rcases hb' with rfl | rfl <;> (refine Eq.trans (b := some (c!"btrfs /x --label=" ++ (a :: x) ++ c!" a\n")) ?_ (by kernel_rfl); text_rfl))
    (all_cons (by intro b b' hb hb' x hx line l; rcases hb with rfl | rfl <;> rcases hb' with rfl | rfl <;> kernel_rfl)
    (all_cons (by intro b b' hb hb' x hx line l; rcases hb with rfl | rfl <;> rcases hb' with rfl | rfl <;> kernel_rfl)
    (all_cons (by intro b b' hb hb' x hx line l; rcases hb with rfl | rfl <;> rcases hb' with rfl | rfl <;> kernel_rfl)
    (all_cons (by intro b b' hb hb' x hx line l; rcases hb with rfl | rfl <;> rcases hb' with rfl | rfl <;> kernel_rfl)
    (all_cons (by intro b b' hb hb' x hx line l; rcases hb with rfl | rfl <;> rcases hb' with rfl | rfl <;> kernel_rfl)
    (all_cons (by intro b b' hb hb' x hx line l; rcases hb with rfl | rfl <;> rcases hb' with rfl | rfl <;> kernel_rfl)
    (all_cons (by intro b b' hb hb' x hx line l; rcases hb with rfl | rfl <;> rcases hb' with rfl | rfl <;> kernel_rfl)
    (all_cons (by intro b b' hb hb' x hx line l; rcases hb with rfl | rfl <;> rcases hb' with rfl | rfl <;> kernel_rfl)
    (all_cons (by
      intro b b' hb hb' x hx line l
      cases x with
      | nil => exact absurd rfl hx
      | cons a x => rcases hb with rfl | rfl <;> rcases hb' with rfl | rfl <;> (kernel_rfl))
    (all_cons (by
      intro b b' hb hb' x hx line l
      cases x with
      | nil => exact absurd rfl hx
      | cons a x => rcases hb with rfl | rfl <;> rcases hb' with rfl | rfl <;> (kernel_rfl))
    (all_cons (by intro b b' hb hb' x hx line l; rcases hb with rfl | rfl <;> rcases hb' with rfl | rfl <;> kernel_rfl)
    (all_cons (by intro b b' hb hb' x hx line l; rcases hb with rfl | rfl <;> rcases hb' with rfl | rfl <;> kernel_rfl)
    (all_cons (by intro b b' hb hb' x hx line l; rcases hb with rfl | rfl <;> rcases hb' with rfl | rfl <;> kernel_rfl)
    (all_cons (by
      intro b b' hb hb' x hx line l
      cases x with
      | nil => exact absurd rfl hx
      | cons a x => rcases hb with rfl | rfl <;> rcases hb' with rfl | rfl <;> (kernel_rfl))
    (all_cons (by intro b b' hb hb' x hx line l; rcases hb with rfl | rfl <;> rcases hb' with rfl | rfl <;> kernel_rfl)
    (all_cons (by intro b b' hb hb' x hx line l; rcases hb with rfl | rfl <;> rcases hb' with rfl | rfl <;> kernel_rfl)
    (all_cons (by
      intro b b' hb hb' x hx line l
      cases x with
      | nil => exact absurd rfl hx
      | cons a x => rcases hb with rfl | rfl <;> rcases hb' with rfl | rfl <;> (refine Eq.trans (b := some (c!"btrfs /x --mkfsoptions=\"" ++ (a :: x) ++ c!"\" a\n")) ?_ (by kernel_rfl); text_rfl))
    (List.forall_mem_nil _))))))))))))))))))))))

theorem writes_btrfsTexts_2 : ∀ v, [Version.RHEL7].contains v = true → Command.Writes (RHEL7_BTRFS.cls RHEL7_BTRFSData.cls) btrfsTexts v :=
  writes_of [0, 1, 2, 3, 4, 5, 6, 7, 8, 9, 10, 11, 12, 13, 14, 15, 16, 17, 18, 19, 20] (writes_btrfsTexts_2_texts _) (by decide +kernel)

theorem writes_btrfsTexts : btrfsTexts.Written := by
  unfold CommandTexts.Written commandMaps
  exact (all_cons (fun c h => by cases h)
    (all_cons (fun c h => by cases h)
    (all_cons (fun c h => by cases h)
    (all_cons (fun c h => by cases h)
    (all_cons (fun c h => by cases h)
    (all_cons (fun c h => by cases h)
    (all_cons (fun c h => by cases h)
    (all_cons (fun c h => by cases h; exact writes_btrfsTexts_0 _ rfl)
    (all_cons (fun c h => by cases h; exact writes_btrfsTexts_0 _ rfl)
    (all_cons (fun c h => by cases h; exact writes_btrfsTexts_0 _ rfl)
    (all_cons (fun c h => by cases h; exact writes_btrfsTexts_0 _ rfl)
    (all_cons (fun c h => by cases h; exact writes_btrfsTexts_0 _ rfl)
    (all_cons (fun c h => by cases h; exact writes_btrfsTexts_0 _ rfl)
    (all_cons (fun c h => by cases h; exact writes_btrfsTexts_1 _ rfl)
    (all_cons (fun c h => by cases h; exact writes_btrfsTexts_1 _ rfl)
    (all_cons (fun c h => by cases h; exact writes_btrfsTexts_1 _ rfl)
    (all_cons (fun c h => by cases h; exact writes_btrfsTexts_1 _ rfl)
    (all_cons (fun c h => by cases h; exact writes_btrfsTexts_1 _ rfl)
    (all_cons (fun c h => by cases h; exact writes_btrfsTexts_1 _ rfl)
    (all_cons (fun c h => by cases h; exact writes_btrfsTexts_1 _ rfl)
    (all_cons (fun c h => by cases h; exact writes_btrfsTexts_1 _ rfl)
    (all_cons (fun c h => by cases h; exact writes_btrfsTexts_1 _ rfl)
    (all_cons (fun c h => by cases h; exact writes_btrfsTexts_1 _ rfl)
    (all_cons (fun c h => by cases h; exact writes_btrfsTexts_1 _ rfl)
    (all_cons (fun c h => by cases h; exact writes_btrfsTexts_1 _ rfl)
    (all_cons (fun c h => by cases h)
    (all_cons (fun c h => by cases h)
    (all_cons (fun c h => by cases h)
    (all_cons (fun c h => by cases h)
    (all_cons (fun c h => by cases h)
    (all_cons (fun c h => by cases h)
    (all_cons (fun c h => by cases h)
    (all_cons (fun c h => by cases h)
    (all_cons (fun c h => by cases h)
    (all_cons (fun c h => by cases h)
    (all_cons (fun c h => by cases h)
    (all_cons (fun c h => by cases h; exact writes_btrfsTexts_2 _ rfl)
    (all_cons (fun c h => by cases h; exact writes_none (by decide +kernel))
    (List.forall_mem_nil _)))))))))))))))))))))))))))))))))))))))

theorem writes_liloTexts_0_texts : ∀ i ∈ [0, 1, 2, 3, 4, 5, 6, 7, 8, 9, 10, 11, 12, 13, 14], Command.FirstText (FC3_Lilo.cls) c!"lilo" (liloTexts.texts.getD i noText) :=
  (all_cons (by intro b b' hb hb' x hx line l; kernel_rfl)
    (all_cons (by
      intro b b' hb hb' x hx line l
      cases x with
      | nil => exact absurd rfl hx
      | cons a x => (refine Eq.trans (b := some (c!"# System bootloader configuration\nbootloader --append=\"" ++ (a :: x) ++ c!"\" --linear --location=mbr --useLilo\n")) ?_ (by kernel_rfl); text_rfl))
    (all_cons (by intro b b' hb hb' x hx line l; kernel_rfl)
    (all_cons (by intro b b' hb hb' x hx line l; kernel_rfl)
    (all_cons (by intro b b' hb hb' x hx line l; kernel_rfl)
    (all_cons (by intro b b' hb hb' x hx line l; kernel_rfl)
    (all_cons (by intro b b' hb hb' x hx line l; kernel_rfl)
    (all_cons (by intro b b' hb hb' x hx line l; kernel_rfl)
    (all_cons (by intro b b' hb hb' x hx line l; kernel_rfl)
    (all_cons (by
      intro b b' hb hb' x hx line l
      cases x with
      | nil => exact absurd rfl hx
      | cons a x => (refine Eq.trans (b := some (c!"# System bootloader configuration\nbootloader --linear --location=mbr --password=\"" ++ (a :: x) ++ c!"\" --useLilo\n")) ?_ (by kernel_rfl); text_rfl))
    (all_cons (by
      intro b b' hb hb' x hx line l
      cases x with
      | nil => exact absurd rfl hx
      | cons a x => (refine Eq.trans (b := some (c!"# System bootloader configuration\nbootloader --linear --location=mbr --md5pass=\"" ++ (a :: x) ++ c!"\" --useLilo\n")) ?_ (by kernel_rfl); text_rfl))
    (all_cons (by intro b b' hb hb' x hx line l; kernel_rfl)
    (all_cons (by intro b b' hb hb' x hx line l; kernel_rfl)
    (all_cons (by intro b b' hb hb' x hx line l; kernel_rfl)
    (all_cons (by intro b b' hb hb' x hx line l; kernel_rfl)
    (List.forall_mem_nil _))))))))))))))))

theorem writes_liloTexts_0 : ∀ v, [Version.RHEL3, Version.FC3, Version.RHEL4].contains v = true → Command.Writes (FC3_Lilo.cls) liloTexts v :=
  writes_of [0, 1, 2, 3, 4, 5, 6, 7, 8, 9, 10, 11, 12, 13, 14] (writes_liloTexts_0_texts) (by decide +kernel)

theorem writes_liloTexts : liloTexts.Written := by
  unfold CommandTexts.Written commandMaps
  exact (all_cons (fun c h => by cases h)
    (all_cons (fun c h => by cases h)
    (all_cons (fun c h => by cases h)
    (all_cons (fun c h => by cases h)
    (all_cons (fun c h => by cases h)
    (all_cons (fun c h => by cases h)
    (all_cons (fun c h => by cases h)
    (all_cons (fun c h => by cases h)
    (all_cons (fun c h => by cases h)
    (all_cons (fun c h => by cases h)
    (all_cons (fun c h => by cases h)
    (all_cons (fun c h => by cases h)
    (all_cons (fun c h => by cases h)
    (all_cons (fun c h => by cases h)
    (all_cons (fun c h => by cases h)
    (all_cons (fun c h => by cases h)
    (all_cons (fun c h => by cases h)
    (all_cons (fun c h => by cases h)
    (all_cons (fun c h => by cases h)
    (all_cons (fun c h => by cases h)
    (all_cons (fun c h => by cases h)
    (all_cons (fun c h => by cases h)
    (all_cons (fun c h => by cases h)
    (all_cons (fun c h => by cases h)
    (all_cons (fun c h => by cases h)
    (all_cons (fun c h => by cases h)
    (all_cons (fun c h => by cases h)
    (all_cons (fun c h => by cases h)
    (all_cons (fun c h => by cases h; exact writes_liloTexts_0 _ rfl)
    (all_cons (fun c h => by cases h; exact writes_none (by decide +kernel))
    (all_cons (fun c h => by cases h)
    (all_cons (fun c h => by cases h)
    (all_cons (fun c h => by cases h; exact writes_liloTexts_0 _ rfl)
    (all_cons (fun c h => by cases h; exact writes_liloTexts_0 _ rfl)
    (all_cons (fun c h => by cases h)
    (all_cons (fun c h => by cases h)
    (all_cons (fun c h => by cases h)
    (all_cons (fun c h => by cases h)
    (List.forall_mem_nil _)))))))))))))))))))))))))))))))))))))))

theorem writes_rhsmTexts_0_texts (n : Str) : ∀ i ∈ [0, 1, 2, 3, 4, 5, 6, 7], Command.FirstText (RHEL8_RHSM.cls) n (rhsmTexts.texts.getD i noText) :=
  (all_cons (by intro b b' hb hb' x hx line l; kernel_rfl)
    (all_cons (by
      intro b b' hb hb' x hx line l
      cases x with
      | nil => exact absurd rfl hx
      | cons a x => (refine Eq.trans (b := some (c!"# Red Hat Subscription Manager\nrhsm --organization=\"" ++ (a :: x) ++ c!"\" --activation-key=\"k\"\n")) ?_ (by kernel_rfl); text_rfl))
    (all_cons (by
      intro b b' hb hb' x hx line l
      cases x with
      | nil => exact absurd rfl hx
      | cons a x => (refine Eq.trans (b := some (c!"# Red Hat Subscription Manager\nrhsm --organization=\"o\" --activation-key=\"k\" --activation-key=\"" ++ (a :: x) ++ c!"\"\n")) ?_ (by kernel_rfl); text_rfl))
    (all_cons (by intro b b' hb hb' x hx line l; kernel_rfl)
    (all_cons (by
      intro b b' hb hb' x hx line l
      cases x with
      | nil => exact absurd rfl hx
      | cons a x => (refine Eq.trans (b := some (c!"# Red Hat Subscription Manager\nrhsm --organization=\"o\" --activation-key=\"k\" --proxy=\"" ++ (a :: x) ++ c!"\"\n")) ?_ (by kernel_rfl); text_rfl))
    (all_cons (by
      intro b b' hb hb' x hx line l
      cases x with
      | nil => exact absurd rfl hx
      | cons a x => (refine Eq.trans (b := some (c!"# Red Hat Subscription Manager\nrhsm --organization=\"o\" --activation-key=\"k\" --server-hostname=\"" ++ (a :: x) ++ c!"\"\n")) ?_ (by kernel_rfl); text_rfl))
    (all_cons (by
      intro b b' hb hb' x hx line l
      cases x with
      | nil => exact absurd rfl hx
      | cons a x => (refine Eq.trans (b := some (c!"# Red Hat Subscription Manager\nrhsm --organization=\"o\" --activation-key=\"k\" --rhsm-baseurl=\"" ++ (a :: x) ++ c!"\"\n")) ?_ (by kernel_rfl); text_rfl))
    (all_cons (by intro b b' hb hb' x hx line l; kernel_rfl)
    (List.forall_mem_nil _)))))))))

theorem writes_rhsmTexts_0 : ∀ v, [Version.RHEL8].contains v = true → Command.Writes (RHEL8_RHSM.cls) rhsmTexts v :=
  writes_of [0, 1, 2, 3, 4, 5, 6, 7] (writes_rhsmTexts_0_texts _) (by decide +kernel)

theorem writes_rhsmTexts : rhsmTexts.Written := by
  unfold CommandTexts.Written commandMaps
  exact (all_cons (fun c h => by cases h)
    (all_cons (fun c h => by cases h)
    (all_cons (fun c h => by cases h)
    (all_cons (fun c h => by cases h)
    (all_cons (fun c h => by cases h)
    (all_cons (fun c h => by cases h)
    (all_cons (fun c h => by cases h)
    (all_cons (fun c h => by cases h)
    (all_cons (fun c h => by cases h)
    (all_cons (fun c h => by cases h)
    (all_cons (fun c h => by cases h)
    (all_cons (fun c h => by cases h)
    (all_cons (fun c h => by cases h)
    (all_cons (fun c h => by cases h)
    (all_cons (fun c h => by cases h)
    (all_cons (fun c h => by cases h)
    (all_cons (fun c h => by cases h)
    (all_cons (fun c h => by cases h)
    (all_cons (fun c h => by cases h)
    (all_cons (fun c h => by cases h)
    (all_cons (fun c h => by cases h)
    (all_cons (fun c h => by cases h)
    (all_cons (fun c h => by cases h)
    (all_cons (fun c h => by cases h)
    (all_cons (fun c h => by cases h)
    (all_cons (fun c h => by cases h)
    (all_cons (fun c h => by cases h)
    (all_cons (fun c h => by cases h)
    (all_cons (fun c h => by cases h)
    (all_cons (fun c h => by cases h)
    (all_cons (fun c h => by cases h)
    (all_cons (fun c h => by cases h)
    (all_cons (fun c h => by cases h)
    (all_cons (fun c h => by cases h)
    (all_cons (fun c h => by cases h)
    (all_cons (fun c h => by cases h)
    (all_cons (fun c h => by cases h)
    (all_cons (fun c h => by cases h; exact writes_rhsmTexts_0 _ rfl)
    (List.forall_mem_nil _)))))))))))))))))))))))))))))))))))))))

theorem writes_firstbootTexts_0_texts (n : Str) : ∀ i ∈ [0, 1, 2, 3, 4, 5], Command.FirstText (FC3_Firstboot.cls) n (firstbootTexts.texts.getD i noText) :=
  (all_cons (by intro b b' hb hb' x hx line l; kernel_rfl)
    (all_cons (by intro b b' hb hb' x hx line l; kernel_rfl)
    (all_cons (by intro b b' hb hb' x hx line l; kernel_rfl)
    (all_cons (by intro b b' hb hb' x hx line l; kernel_rfl)
    (all_cons (by intro b b' hb hb' x hx line l; kernel_rfl)
    (all_cons (by intro b b' hb hb' x hx line l; kernel_rfl)
    (List.forall_mem_nil _)))))))

theorem writes_firstbootTexts_0 : ∀ v, [Version.RHEL3, Version.FC3, Version.RHEL4, Version.FC4, Version.FC5, Version.FC6, Version.RHEL5, Version.F7, Version.F8, Version.F9, Version.F10, Version.F11, Version.F12, Version.F13, Version.RHEL6, Version.F14, Version.F15, Version.F16, Version.F17, Version.F18, Version.F19, Version.F20, Version.F21, Version.RHEL7, Version.F22, Version.F23, Version.F24, Version.F25, Version.F26, Version.F27, Version.F28, Version.RHEL8, Version.F29, Version.F30, Version.F31, Version.F32, Version.F33, Version.F34].contains v = true → Command.Writes (FC3_Firstboot.cls) firstbootTexts v :=
  writes_of [0, 1, 2, 3, 4, 5] (writes_firstbootTexts_0_texts _) (by decide +kernel)

theorem writes_firstbootTexts : firstbootTexts.Written := by
  unfold CommandTexts.Written commandMaps
  exact (all_cons (fun c h => by cases h; exact writes_firstbootTexts_0 _ rfl)
    (all_cons (fun c h => by cases h; exact writes_firstbootTexts_0 _ rfl)
    (all_cons (fun c h => by cases h; exact writes_firstbootTexts_0 _ rfl)
    (all_cons (fun c h => by cases h; exact writes_firstbootTexts_0 _ rfl)
    (all_cons (fun c h => by cases h; exact writes_firstbootTexts_0 _ rfl)
    (all_cons (fun c h => by cases h; exact writes_firstbootTexts_0 _ rfl)
    (all_cons (fun c h => by cases h; exact writes_firstbootTexts_0 _ rfl)
    (all_cons (fun c h => by cases h; exact writes_firstbootTexts_0 _ rfl)
    (all_cons (fun c h => by cases h; exact writes_firstbootTexts_0 _ rfl)
    (all_cons (fun c h => by cases h; exact writes_firstbootTexts_0 _ rfl)
    (all_cons (fun c h => by cases h; exact writes_firstbootTexts_0 _ rfl)
    (all_cons (fun c h => by cases h; exact writes_firstbootTexts_0 _ rfl)
    (all_cons (fun c h => by cases h; exact writes_firstbootTexts_0 _ rfl)
    (all_cons (fun c h => by cases h; exact writes_firstbootTexts_0 _ rfl)
    (all_cons (fun c h => by cases h; exact writes_firstbootTexts_0 _ rfl)
    (all_cons (fun c h => by cases h; exact writes_firstbootTexts_0 _ rfl)
    (all_cons (fun c h => by cases h; exact writes_firstbootTexts_0 _ rfl)
    (all_cons (fun c h => by cases h; exact writes_firstbootTexts_0 _ rfl)
    (all_cons (fun c h => by cases h; exact writes_firstbootTexts_0 _ rfl)
    (all_cons (fun c h => by cases h; exact writes_firstbootTexts_0 _ rfl)
    (all_cons (fun c h => by cases h; exact writes_firstbootTexts_0 _ rfl)
    (all_cons (fun c h => by cases h; exact writes_firstbootTexts_0 _ rfl)
    (all_cons (fun c h => by cases h; exact writes_firstbootTexts_0 _ rfl)
    (all_cons (fun c h => by cases h; exact writes_firstbootTexts_0 _ rfl)
    (all_cons (fun c h => by cases h; exact writes_firstbootTexts_0 _ rfl)
    (all_cons (fun c h => by cases h; exact writes_firstbootTexts_0 _ rfl)
    (all_cons (fun c h => by cases h; exact writes_firstbootTexts_0 _ rfl)
    (all_cons (fun c h => by cases h; exact writes_firstbootTexts_0 _ rfl)
    (all_cons (fun c h => by cases h; exact writes_firstbootTexts_0 _ rfl)
    (all_cons (fun c h => by cases h; exact writes_firstbootTexts_0 _ rfl)
    (all_cons (fun c h => by cases h; exact writes_firstbootTexts_0 _ rfl)
    (all_cons (fun c h => by cases h; exact writes_firstbootTexts_0 _ rfl)
    (all_cons (fun c h => by cases h; exact writes_firstbootTexts_0 _ rfl)
    (all_cons (fun c h => by cases h; exact writes_firstbootTexts_0 _ rfl)
    (all_cons (fun c h => by cases h; exact writes_firstbootTexts_0 _ rfl)
    (all_cons (fun c h => by cases h; exact writes_firstbootTexts_0 _ rfl)
    (all_cons (fun c h => by cases h; exact writes_firstbootTexts_0 _ rfl)
    (all_cons (fun c h => by cases h; exact writes_firstbootTexts_0 _ rfl)
    (List.forall_mem_nil _)))))))))))))))))))))))))))))))))))))))

theorem writes_dmraidTexts_0_texts (n : Str) : ∀ i ∈ [0, 1, 2, 3, 4], Command.FirstText (FC6_DmRaid.cls FC6_DmRaidData.cls) n (dmraidTexts.texts.getD i noText) :=
  (all_cons (by intro b b' hb hb' x hx line l; kernel_rfl)
    (all_cons (by intro b b' hb hb' x hx line l; kernel_rfl)
    (all_cons (by
      intro b b' hb hb' x hx line l
      cases x with
      | nil => exact absurd rfl hx
      | cons a x => (refine Eq.trans (b := some (c!"dmraid --name=n --dev=\"d\" --dev=\"" ++ (a :: x) ++ c!"\"\n")) ?_ (by kernel_rfl); text_rfl))
    (all_cons (by intro b b' hb hb' x hx line l; kernel_rfl)
    (all_cons (by intro b b' hb hb' x hx line l; kernel_rfl)
    (List.forall_mem_nil _))))))

theorem writes_dmraidTexts_0 : ∀ v, [Version.FC6, Version.RHEL5, Version.F7, Version.F8, Version.F9, Version.F10, Version.F11, Version.F12, Version.F13, Version.RHEL6, Version.F14, Version.F15, Version.F16, Version.F17, Version.F18, Version.F19, Version.F20, Version.F21, Version.RHEL7, Version.F22, Version.F23].contains v = true → Command.Writes (FC6_DmRaid.cls FC6_DmRaidData.cls) dmraidTexts v :=
  writes_of [0, 1, 2, 3, 4] (writes_dmraidTexts_0_texts _) (by decide +kernel)

theorem writes_dmraidTexts : dmraidTexts.Written := by
  unfold CommandTexts.Written commandMaps
  exact (all_cons (fun c h => by cases h; exact writes_dmraidTexts_0 _ rfl)
    (all_cons (fun c h => by cases h; exact writes_dmraidTexts_0 _ rfl)
    (all_cons (fun c h => by cases h; exact writes_dmraidTexts_0 _ rfl)
    (all_cons (fun c h => by cases h; exact writes_dmraidTexts_0 _ rfl)
    (all_cons (fun c h => by cases h; exact writes_dmraidTexts_0 _ rfl)
    (all_cons (fun c h => by cases h; exact writes_dmraidTexts_0 _ rfl)
    (all_cons (fun c h => by cases h; exact writes_dmraidTexts_0 _ rfl)
    (all_cons (fun c h => by cases h; exact writes_dmraidTexts_0 _ rfl)
    (all_cons (fun c h => by cases h; exact writes_dmraidTexts_0 _ rfl)
    (all_cons (fun c h => by cases h; exact writes_dmraidTexts_0 _ rfl)
    (all_cons (fun c h => by cases h; exact writes_dmraidTexts_0 _ rfl)
    (all_cons (fun c h => by cases h; exact writes_dmraidTexts_0 _ rfl)
    (all_cons (fun c h => by cases h; exact writes_dmraidTexts_0 _ rfl)
    (all_cons (fun c h => by cases h; exact writes_dmraidTexts_0 _ rfl)
    (all_cons (fun c h => by cases h; exact writes_none (by decide +kernel))
    (all_cons (fun c h => by cases h; exact writes_none (by decide +kernel))
    (all_cons (fun c h => by cases h; exact writes_none (by decide +kernel))
    (all_cons (fun c h => by cases h; exact writes_none (by decide +kernel))
    (all_cons (fun c h => by cases h; exact writes_none (by decide +kernel))
    (all_cons (fun c h => by cases h; exact writes_none (by decide +kernel))
    (all_cons (fun c h => by cases h; exact writes_none (by decide +kernel))
    (all_cons (fun c h => by cases h; exact writes_none (by decide +kernel))
    (all_cons (fun c h => by cases h; exact writes_none (by decide +kernel))
    (all_cons (fun c h => by cases h; exact writes_none (by decide +kernel))
    (all_cons (fun c h => by cases h; exact writes_none (by decide +kernel))
    (all_cons (fun c h => by cases h; exact writes_dmraidTexts_0 _ rfl)
    (all_cons (fun c h => by cases h; exact writes_dmraidTexts_0 _ rfl)
    (all_cons (fun c h => by cases h; exact writes_dmraidTexts_0 _ rfl)
    (all_cons (fun c h => by cases h)
    (all_cons (fun c h => by cases h)
    (all_cons (fun c h => by cases h)
    (all_cons (fun c h => by cases h; exact writes_dmraidTexts_0 _ rfl)
    (all_cons (fun c h => by cases h)
    (all_cons (fun c h => by cases h)
    (all_cons (fun c h => by cases h; exact writes_dmraidTexts_0 _ rfl)
    (all_cons (fun c h => by cases h; exact writes_dmraidTexts_0 _ rfl)
    (all_cons (fun c h => by cases h; exact writes_dmraidTexts_0 _ rfl)
    (all_cons (fun c h => by cases h; exact writes_none (by decide +kernel))
    (List.forall_mem_nil _)))))))))))))))))))))))))))))))))))))))

theorem writes_snapshotTexts_0_texts (n : Str) : ∀ i ∈ [0, 1, 2, 3, 4], Command.FirstText (F26_Snapshot.cls F26_SnapshotData.cls) n (snapshotTexts.texts.getD i noText) :=
  (all_cons (by intro b b' hb hb' x hx line l; kernel_rfl)
    (all_cons (by intro b b' hb hb' x hx line l; kernel_rfl)
    (all_cons (by intro b b' hb hb' x hx line l; kernel_rfl)
    (all_cons (by intro b b' hb hb' x hx line l; kernel_rfl)
    (all_cons (by intro b b' hb hb' x hx line l; kernel_rfl)
    (List.forall_mem_nil _))))))

theorem writes_snapshotTexts_0 : ∀ v, [Version.RHEL7, Version.F26, Version.F27, Version.F28, Version.RHEL8, Version.F29, Version.F30, Version.F31, Version.F32, Version.F33, Version.F34].contains v = true → Command.Writes (F26_Snapshot.cls F26_SnapshotData.cls) snapshotTexts v :=
  writes_of [0, 1, 2, 3, 4] (writes_snapshotTexts_0_texts _) (by decide +kernel)

theorem writes_snapshotTexts : snapshotTexts.Written := by
  unfold CommandTexts.Written commandMaps
  exact (all_cons (fun c h => by cases h)
    (all_cons (fun c h => by cases h)
    (all_cons (fun c h => by cases h)
    (all_cons (fun c h => by cases h)
    (all_cons (fun c h => by cases h)
    (all_cons (fun c h => by cases h)
    (all_cons (fun c h => by cases h)
    (all_cons (fun c h => by cases h)
    (all_cons (fun c h => by cases h)
    (all_cons (fun c h => by cases h)
    (all_cons (fun c h => by cases h)
    (all_cons (fun c h => by cases h)
    (all_cons (fun c h => by cases h)
    (all_cons (fun c h => by cases h)
    (all_cons (fun c h => by cases h)
    (all_cons (fun c h => by cases h)
    (all_cons (fun c h => by cases h; exact writes_snapshotTexts_0 _ rfl)
    (all_cons (fun c h => by cases h; exact writes_snapshotTexts_0 _ rfl)
    (all_cons (fun c h => by cases h; exact writes_snapshotTexts_0 _ rfl)
    (all_cons (fun c h => by cases h; exact writes_snapshotTexts_0 _ rfl)
    (all_cons (fun c h => by cases h; exact writes_snapshotTexts_0 _ rfl)
    (all_cons (fun c h => by cases h; exact writes_snapshotTexts_0 _ rfl)
    (all_cons (fun c h => by cases h; exact writes_snapshotTexts_0 _ rfl)
    (all_cons (fun c h => by cases h; exact writes_snapshotTexts_0 _ rfl)
    (all_cons (fun c h => by cases h; exact writes_snapshotTexts_0 _ rfl)
    (all_cons (fun c h => by cases h)
    (all_cons (fun c h => by cases h)
    (all_cons (fun c h => by cases h)
    (all_cons (fun c h => by cases h)
    (all_cons (fun c h => by cases h)
    (all_cons (fun c h => by cases h)
    (all_cons (fun c h => by cases h)
    (all_cons (fun c h => by cases h)
    (all_cons (fun c h => by cases h)
    (all_cons (fun c h => by cases h)
    (all_cons (fun c h => by cases h)
    (all_cons (fun c h => by cases h; exact writes_snapshotTexts_0 _ rfl)
    (all_cons (fun c h => by cases h; exact writes_snapshotTexts_0 _ rfl)
    (List.forall_mem_nil _)))))))))))))))))))))))))))))))))))))))

theorem writes_graphicalTexts_0_texts : ∀ i ∈ [0], Command.FirstText (FC3_DisplayMode.cls) c!"graphical" (graphicalTexts.texts.getD i noText) :=
  (all_cons (by intro b b' hb hb' x hx line l; kernel_rfl)
    (List.forall_mem_nil _))

theorem writes_graphicalTexts_0 : ∀ v, [Version.RHEL3, Version.FC3, Version.RHEL4, Version.FC4, Version.FC5, Version.FC6, Version.RHEL5, Version.F7, Version.F8, Version.F9, Version.F10, Version.F11, Version.F12, Version.F13, Version.RHEL6, Version.F14, Version.F15, Version.F16, Version.F17, Version.F18, Version.F19, Version.F20, Version.F21, Version.RHEL7, Version.F22, Version.F23, Version.F24, Version.F25].contains v = true → Command.Writes (FC3_DisplayMode.cls) graphicalTexts v :=
  writes_of [0] (writes_graphicalTexts_0_texts) (by decide +kernel)

theorem writes_graphicalTexts_1_texts : ∀ i ∈ [0, 1], Command.FirstText (F26_DisplayMode.cls) c!"graphical" (graphicalTexts.texts.getD i noText) :=
  (all_cons (by intro b b' hb hb' x hx line l; kernel_rfl)
    (all_cons (by intro b b' hb hb' x hx line l; kernel_rfl)
    (List.forall_mem_nil _)))

theorem writes_graphicalTexts_1 : ∀ v, [Version.F26, Version.F27, Version.F28, Version.RHEL8, Version.F29, Version.F30, Version.F31, Version.F32, Version.F33, Version.F34].contains v = true → Command.Writes (F26_DisplayMode.cls) graphicalTexts v :=
  writes_of [0, 1] (writes_graphicalTexts_1_texts) (by decide +kernel)

theorem writes_graphicalTexts : graphicalTexts.Written := by
  unfold CommandTexts.Written commandMaps
  exact (all_cons (fun c h => by cases h; exact writes_graphicalTexts_0 _ rfl)
    (all_cons (fun c h => by cases h; exact writes_graphicalTexts_0 _ rfl)
    (all_cons (fun c h => by cases h; exact writes_graphicalTexts_0 _ rfl)
    (all_cons (fun c h => by cases h; exact writes_graphicalTexts_0 _ rfl)
    (all_cons (fun c h => by cases h; exact writes_graphicalTexts_0 _ rfl)
    (all_cons (fun c h => by cases h; exact writes_graphicalTexts_0 _ rfl)
    (all_cons (fun c h => by cases h; exact writes_graphicalTexts_0 _ rfl)
    (all_cons (fun c h => by cases h; exact writes_graphicalTexts_0 _ rfl)
    (all_cons (fun c h => by cases h; exact writes_graphicalTexts_0 _ rfl)
    (all_cons (fun c h => by cases h; exact writes_graphicalTexts_0 _ rfl)
    (all_cons (fun c h => by cases h; exact writes_graphicalTexts_0 _ rfl)
    (all_cons (fun c h => by cases h; exact writes_graphicalTexts_0 _ rfl)
    (all_cons (fun c h => by cases h; exact writes_graphicalTexts_0 _ rfl)
    (all_cons (fun c h => by cases h; exact writes_graphicalTexts_0 _ rfl)
    (all_cons (fun c h => by cases h; exact writes_graphicalTexts_0 _ rfl)
    (all_cons (fun c h => by cases h; exact writes_graphicalTexts_0 _ rfl)
    (all_cons (fun c h => by cases h; exact writes_graphicalTexts_1 _ rfl)
    (all_cons (fun c h => by cases h; exact writes_graphicalTexts_1 _ rfl)
    (all_cons (fun c h => by cases h; exact writes_graphicalTexts_1 _ rfl)
    (all_cons (fun c h => by cases h; exact writes_graphicalTexts_1 _ rfl)
    (all_cons (fun c h => by cases h; exact writes_graphicalTexts_1 _ rfl)
    (all_cons (fun c h => by cases h; exact writes_graphicalTexts_1 _ rfl)
    (all_cons (fun c h => by cases h; exact writes_graphicalTexts_1 _ rfl)
    (all_cons (fun c h => by cases h; exact writes_graphicalTexts_1 _ rfl)
    (all_cons (fun c h => by cases h; exact writes_graphicalTexts_1 _ rfl)
    (all_cons (fun c h => by cases h; exact writes_graphicalTexts_0 _ rfl)
    (all_cons (fun c h => by cases h; exact writes_graphicalTexts_0 _ rfl)
    (all_cons (fun c h => by cases h; exact writes_graphicalTexts_0 _ rfl)
    (all_cons (fun c h => by cases h; exact writes_graphicalTexts_0 _ rfl)
    (all_cons (fun c h => by cases h; exact writes_graphicalTexts_0 _ rfl)
    (all_cons (fun c h => by cases h; exact writes_graphicalTexts_0 _ rfl)
    (all_cons (fun c h => by cases h; exact writes_graphicalTexts_0 _ rfl)
    (all_cons (fun c h => by cases h; exact writes_graphicalTexts_0 _ rfl)
    (all_cons (fun c h => by cases h; exact writes_graphicalTexts_0 _ rfl)
    (all_cons (fun c h => by cases h; exact writes_graphicalTexts_0 _ rfl)
    (all_cons (fun c h => by cases h; exact writes_graphicalTexts_0 _ rfl)
    (all_cons (fun c h => by cases h; exact writes_graphicalTexts_0 _ rfl)
    (all_cons (fun c h => by cases h; exact writes_graphicalTexts_1 _ rfl)
    (List.forall_mem_nil _)))))))))))))))))))))))))))))))))))))))

theorem writes_keyTexts_0_texts (n : Str) : ∀ i ∈ [0, 1, 2], Command.FirstText (RHEL5_Key.cls) n (keyTexts.texts.getD i noText) :=
  (all_cons (by intro b b' hb hb' x hx line l; kernel_rfl)
    (all_cons (by intro b b' hb hb' x hx line l; kernel_rfl)
    (all_cons (by intro b b' hb hb' x hx line l; kernel_rfl)
    (List.forall_mem_nil _))))

theorem writes_keyTexts_0 : ∀ v, [Version.RHEL5, Version.RHEL6].contains v = true → Command.Writes (RHEL5_Key.cls) keyTexts v :=
  writes_of [0, 1, 2] (writes_keyTexts_0_texts _) (by decide +kernel)

theorem writes_keyTexts : keyTexts.Written := by
  unfold CommandTexts.Written commandMaps
  exact (all_cons (fun c h => by cases h)
    (all_cons (fun c h => by cases h)
    (all_cons (fun c h => by cases h)
    (all_cons (fun c h => by cases h)
    (all_cons (fun c h => by cases h)
    (all_cons (fun c h => by cases h)
    (all_cons (fun c h => by cases h)
    (all_cons (fun c h => by cases h)
    (all_cons (fun c h => by cases h)
    (all_cons (fun c h => by cases h)
    (all_cons (fun c h => by cases h)
    (all_cons (fun c h => by cases h)
    (all_cons (fun c h => by cases h)
    (all_cons (fun c h => by cases h)
    (all_cons (fun c h => by cases h)
    (all_cons (fun c h => by cases h)
    (all_cons (fun c h => by cases h)
    (all_cons (fun c h => by cases h)
    (all_cons (fun c h => by cases h)
    (all_cons (fun c h => by cases h)
    (all_cons (fun c h => by cases h)
    (all_cons (fun c h => by cases h)
    (all_cons (fun c h => by cases h)
    (all_cons (fun c h => by cases h)
    (all_cons (fun c h => by cases h)
    (all_cons (fun c h => by cases h)
    (all_cons (fun c h => by cases h)
    (all_cons (fun c h => by cases h)
    (all_cons (fun c h => by cases h)
    (all_cons (fun c h => by cases h)
    (all_cons (fun c h => by cases h)
    (all_cons (fun c h => by cases h)
    (all_cons (fun c h => by cases h)
    (all_cons (fun c h => by cases h)
    (all_cons (fun c h => by cases h; exact writes_keyTexts_0 _ rfl)
    (all_cons (fun c h => by cases h; exact writes_keyTexts_0 _ rfl)
    (all_cons (fun c h => by cases h)
    (all_cons (fun c h => by cases h)
    (List.forall_mem_nil _)))))))))))))))))))))))))))))))))))))))

theorem writes_nvdimmTexts_0_texts (n : Str) : ∀ i ∈ [0, 1, 2], Command.FirstText (F28_Nvdimm.cls F28_NvdimmData.cls) n (nvdimmTexts.texts.getD i noText) :=
  (all_cons (by intro b b' hb hb' x hx line l; kernel_rfl)
    (all_cons (by intro b b' hb hb' x hx line l; kernel_rfl)
    (all_cons (by intro b b' hb hb' x hx line l; kernel_rfl)
    (List.forall_mem_nil _))))

theorem writes_nvdimmTexts_0 : ∀ v, [Version.RHEL7, Version.F28, Version.RHEL8, Version.F29, Version.F30, Version.F31, Version.F32, Version.F33, Version.F34].contains v = true → Command.Writes (F28_Nvdimm.cls F28_NvdimmData.cls) nvdimmTexts v :=
  writes_of [0, 1, 2] (writes_nvdimmTexts_0_texts _) (by decide +kernel)

theorem writes_nvdimmTexts : nvdimmTexts.Written := by
  unfold CommandTexts.Written commandMaps
  exact (all_cons (fun c h => by cases h)
    (all_cons (fun c h => by cases h)
    (all_cons (fun c h => by cases h)
    (all_cons (fun c h => by cases h)
    (all_cons (fun c h => by cases h)
    (all_cons (fun c h => by cases h)
    (all_cons (fun c h => by cases h)
    (all_cons (fun c h => by cases h)
    (all_cons (fun c h => by cases h)
    (all_cons (fun c h => by cases h)
    (all_cons (fun c h => by cases h)
    (all_cons (fun c h => by cases h)
    (all_cons (fun c h => by cases h)
    (all_cons (fun c h => by cases h)
    (all_cons (fun c h => by cases h)
    (all_cons (fun c h => by cases h)
    (all_cons (fun c h => by cases h)
    (all_cons (fun c h => by cases h)
    (all_cons (fun c h => by cases h; exact writes_nvdimmTexts_0 _ rfl)
    (all_cons (fun c h => by cases h; exact writes_nvdimmTexts_0 _ rfl)
    (all_cons (fun c h => by cases h; exact writes_nvdimmTexts_0 _ rfl)
    (all_cons (fun c h => by cases h; exact writes_nvdimmTexts_0 _ rfl)
    (all_cons (fun c h => by cases h; exact writes_nvdimmTexts_0 _ rfl)
    (all_cons (fun c h => by cases h; exact writes_nvdimmTexts_0 _ rfl)
    (all_cons (fun c h => by cases h; exact writes_nvdimmTexts_0 _ rfl)
    (all_cons (fun c h => by cases h)
    (all_cons (fun c h => by cases h)
    (all_cons (fun c h => by cases h)
    (all_cons (fun c h => by cases h)
    (all_cons (fun c h => by cases h)
    (all_cons (fun c h => by cases h)
    (all_cons (fun c h => by cases h)
    (all_cons (fun c h => by cases h)
    (all_cons (fun c h => by cases h)
    (all_cons (fun c h => by cases h)
    (all_cons (fun c h => by cases h)
    (all_cons (fun c h => by cases h; exact writes_nvdimmTexts_0 _ rfl)
    (all_cons (fun c h => by cases h; exact writes_nvdimmTexts_0 _ rfl)
    (List.forall_mem_nil _)))))))))))))))))))))))))))))))))))))))

theorem writes_updatesTexts_0_texts (n : Str) : ∀ i ∈ [0, 1], Command.FirstText (F7_Updates.cls) n (updatesTexts.texts.getD i noText) :=
  (all_cons (by intro b b' hb hb' x hx line l; kernel_rfl)
    (all_cons (by intro b b' hb hb' x hx line l; kernel_rfl)
    (List.forall_mem_nil _)))

theorem writes_updatesTexts_0 : ∀ v, [Version.F7, Version.F8, Version.F9, Version.F10, Version.F11, Version.F12, Version.F13, Version.RHEL6, Version.F14, Version.F15, Version.F16, Version.F17, Version.F18, Version.F19, Version.F20, Version.F21, Version.RHEL7, Version.F22, Version.F23, Version.F24, Version.F25, Version.F26, Version.F27, Version.F28, Version.RHEL8, Version.F29, Version.F30, Version.F31, Version.F32, Version.F33].contains v = true → Command.Writes (F7_Updates.cls) updatesTexts v :=
  writes_of [0, 1] (writes_updatesTexts_0_texts _) (by decide +kernel)

theorem writes_updatesTexts_1_texts (n : Str) : ∀ i ∈ [1], Command.FirstText (F34_Updates.cls) n (updatesTexts.texts.getD i noText) :=
  (all_cons (by intro b b' hb hb' x hx line l; kernel_rfl)
    (List.forall_mem_nil _))

theorem writes_updatesTexts_1 : ∀ v, [Version.F34].contains v = true → Command.Writes (F34_Updates.cls) updatesTexts v :=
  writes_of [1] (writes_updatesTexts_1_texts _) (by decide +kernel)

theorem writes_updatesTexts : updatesTexts.Written := by
  unfold CommandTexts.Written commandMaps
  exact (all_cons (fun c h => by cases h; exact writes_updatesTexts_0 _ rfl)
    (all_cons (fun c h => by cases h; exact writes_updatesTexts_0 _ rfl)
    (all_cons (fun c h => by cases h; exact writes_updatesTexts_0 _ rfl)
    (all_cons (fun c h => by cases h; exact writes_updatesTexts_0 _ rfl)
    (all_cons (fun c h => by cases h; exact writes_updatesTexts_0 _ rfl)
    (all_cons (fun c h => by cases h; exact writes_updatesTexts_0 _ rfl)
    (all_cons (fun c h => by cases h; exact writes_updatesTexts_0 _ rfl)
    (all_cons (fun c h => by cases h; exact writes_updatesTexts_0 _ rfl)
    (all_cons (fun c h => by cases h; exact writes_updatesTexts_0 _ rfl)
    (all_cons (fun c h => by cases h; exact writes_updatesTexts_0 _ rfl)
    (all_cons (fun c h => by cases h; exact writes_updatesTexts_0 _ rfl)
    (all_cons (fun c h => by cases h; exact writes_updatesTexts_0 _ rfl)
    (all_cons (fun c h => by cases h; exact writes_updatesTexts_0 _ rfl)
    (all_cons (fun c h => by cases h; exact writes_updatesTexts_0 _ rfl)
    (all_cons (fun c h => by cases h; exact writes_updatesTexts_0 _ rfl)
    (all_cons (fun c h => by cases h; exact writes_updatesTexts_0 _ rfl)
    (all_cons (fun c h => by cases h; exact writes_updatesTexts_0 _ rfl)
    (all_cons (fun c h => by cases h; exact writes_updatesTexts_0 _ rfl)
    (all_cons (fun c h => by cases h; exact writes_updatesTexts_0 _ rfl)
    (all_cons (fun c h => by cases h; exact writes_updatesTexts_0 _ rfl)
    (all_cons (fun c h => by cases h; exact writes_updatesTexts_0 _ rfl)
    (all_cons (fun c h => by cases h; exact writes_updatesTexts_0 _ rfl)
    (all_cons (fun c h => by cases h; exact writes_updatesTexts_0 _ rfl)
    (all_cons (fun c h => by cases h; exact writes_updatesTexts_0 _ rfl)
    (all_cons (fun c h => by cases h; exact writes_updatesTexts_1 _ rfl)
    (all_cons (fun c h => by cases h; exact writes_updatesTexts_0 _ rfl)
    (all_cons (fun c h => by cases h; exact writes_updatesTexts_0 _ rfl)
    (all_cons (fun c h => by cases h; exact writes_updatesTexts_0 _ rfl)
    (all_cons (fun c h => by cases h)
    (all_cons (fun c h => by cases h)
    (all_cons (fun c h => by cases h)
    (all_cons (fun c h => by cases h)
    (all_cons (fun c h => by cases h)
    (all_cons (fun c h => by cases h)
    (all_cons (fun c h => by cases h)
    (all_cons (fun c h => by cases h; exact writes_updatesTexts_0 _ rfl)
    (all_cons (fun c h => by cases h; exact writes_updatesTexts_0 _ rfl)
    (all_cons (fun c h => by cases h; exact writes_updatesTexts_0 _ rfl)
    (List.forall_mem_nil _)))))))))))))))))))))))))))))))))))))))

theorem writes_cmdlineTexts_0_texts : ∀ i ∈ [0], Command.FirstText (FC3_DisplayMode.cls) c!"cmdline" (cmdlineTexts.texts.getD i noText) :=
  (all_cons (by intro b b' hb hb' x hx line l; kernel_rfl)
    (List.forall_mem_nil _))

theorem writes_cmdlineTexts_0 : ∀ v, [Version.RHEL3, Version.FC3, Version.RHEL4, Version.FC4, Version.FC5, Version.FC6, Version.RHEL5, Version.F7, Version.F8, Version.F9, Version.F10, Version.F11, Version.F12, Version.F13, Version.RHEL6, Version.F14, Version.F15, Version.F16, Version.F17, Version.F18, Version.F19, Version.F20, Version.F21, Version.RHEL7, Version.F22, Version.F23, Version.F24, Version.F25].contains v = true → Command.Writes (FC3_DisplayMode.cls) cmdlineTexts v :=
  writes_of [0] (writes_cmdlineTexts_0_texts) (by decide +kernel)

theorem writes_cmdlineTexts_1_texts : ∀ i ∈ [0], Command.FirstText (F26_DisplayMode.cls) c!"cmdline" (cmdlineTexts.texts.getD i noText) :=
  (all_cons (by intro b b' hb hb' x hx line l; kernel_rfl)
    (List.forall_mem_nil _))

theorem writes_cmdlineTexts_1 : ∀ v, [Version.F26, Version.F27, Version.F28, Version.RHEL8, Version.F29, Version.F30, Version.F31, Version.F32, Version.F33, Version.F34].contains v = true → Command.Writes (F26_DisplayMode.cls) cmdlineTexts v :=
  writes_of [0] (writes_cmdlineTexts_1_texts) (by decide +kernel)

theorem writes_cmdlineTexts : cmdlineTexts.Written := by
  unfold CommandTexts.Written commandMaps
  exact (all_cons (fun c h => by cases h; exact writes_cmdlineTexts_0 _ rfl)
    (all_cons (fun c h => by cases h; exact writes_cmdlineTexts_0 _ rfl)
    (all_cons (fun c h => by cases h; exact writes_cmdlineTexts_0 _ rfl)
    (all_cons (fun c h => by cases h; exact writes_cmdlineTexts_0 _ rfl)
    (all_cons (fun c h => by cases h; exact writes_cmdlineTexts_0 _ rfl)
    (all_cons (fun c h => by cases h; exact writes_cmdlineTexts_0 _ rfl)
    (all_cons (fun c h => by cases h; exact writes_cmdlineTexts_0 _ rfl)
    (all_cons (fun c h => by cases h; exact writes_cmdlineTexts_0 _ rfl)
    (all_cons (fun c h => by cases h; exact writes_cmdlineTexts_0 _ rfl)
    (all_cons (fun c h => by cases h; exact writes_cmdlineTexts_0 _ rfl)
    (all_cons (fun c h => by cases h; exact writes_cmdlineTexts_0 _ rfl)
    (all_cons (fun c h => by cases h; exact writes_cmdlineTexts_0 _ rfl)
    (all_cons (fun c h => by cases h; exact writes_cmdlineTexts_0 _ rfl)
    (all_cons (fun c h => by cases h; exact writes_cmdlineTexts_0 _ rfl)
    (all_cons (fun c h => by cases h; exact writes_cmdlineTexts_0 _ rfl)
    (all_cons (fun c h => by cases h; exact writes_cmdlineTexts_0 _ rfl)
    (all_cons (fun c h => by cases h; exact writes_cmdlineTexts_1 _ rfl)
    (all_cons (fun c h => by cases h; exact writes_cmdlineTexts_1 _ rfl)
    (all_cons (fun c h => by cases h; exact writes_cmdlineTexts_1 _ rfl)
    (all_cons (fun c h => by cases h; exact writes_cmdlineTexts_1 _ rfl)
    (all_cons (fun c h => by cases h; exact writes_cmdlineTexts_1 _ rfl)
    (all_cons (fun c h => by cases h; exact writes_cmdlineTexts_1 _ rfl)
    (all_cons (fun c h => by cases h; exact writes_cmdlineTexts_1 _ rfl)
    (all_cons (fun c h => by cases h; exact writes_cmdlineTexts_1 _ rfl)
    (all_cons (fun c h => by cases h; exact writes_cmdlineTexts_1 _ rfl)
    (all_cons (fun c h => by cases h; exact writes_cmdlineTexts_0 _ rfl)
    (all_cons (fun c h => by cases h; exact writes_cmdlineTexts_0 _ rfl)
    (all_cons (fun c h => by cases h; exact writes_cmdlineTexts_0 _ rfl)
    (all_cons (fun c h => by cases h; exact writes_cmdlineTexts_0 _ rfl)
    (all_cons (fun c h => by cases h; exact writes_cmdlineTexts_0 _ rfl)
    (all_cons (fun c h => by cases h; exact writes_cmdlineTexts_0 _ rfl)
    (all_cons (fun c h => by cases h; exact writes_cmdlineTexts_0 _ rfl)
    (all_cons (fun c h => by cases h; exact writes_cmdlineTexts_0 _ rfl)
    (all_cons (fun c h => by cases h; exact writes_cmdlineTexts_0 _ rfl)
    (all_cons (fun c h => by cases h; exact writes_cmdlineTexts_0 _ rfl)
    (all_cons (fun c h => by cases h; exact writes_cmdlineTexts_0 _ rfl)
    (all_cons (fun c h => by cases h; exact writes_cmdlineTexts_0 _ rfl)
    (all_cons (fun c h => by cases h; exact writes_cmdlineTexts_1 _ rfl)
    (List.forall_mem_nil _)))))))))))))))))))))))))))))))))))))))

theorem writes_cdromTexts_0_texts (n : Str) : ∀ i ∈ [0], Command.FirstText (FC3_Cdrom.cls) n (cdromTexts.texts.getD i noText) :=
  (all_cons (by intro b b' hb hb' x hx line l; kernel_rfl)
    (List.forall_mem_nil _))

theorem writes_cdromTexts_0 : ∀ v, [Version.RHEL3, Version.FC3, Version.RHEL4, Version.FC4, Version.FC5, Version.FC6, Version.RHEL5, Version.F7, Version.F8, Version.F9, Version.F10, Version.F11, Version.F12, Version.F13, Version.RHEL6, Version.F14, Version.F15, Version.F16, Version.F17, Version.F18, Version.F19, Version.F20, Version.F21, Version.RHEL7, Version.F22, Version.F23, Version.F24, Version.F25, Version.F26, Version.F27, Version.F28, Version.RHEL8, Version.F29, Version.F30, Version.F31, Version.F32, Version.F33, Version.F34].contains v = true → Command.Writes (FC3_Cdrom.cls) cdromTexts v :=
  writes_of [0] (writes_cdromTexts_0_texts _) (by decide +kernel)

theorem writes_cdromTexts : cdromTexts.Written := by
  unfold CommandTexts.Written commandMaps
  exact (all_cons (fun c h => by cases h; exact writes_cdromTexts_0 _ rfl)
    (all_cons (fun c h => by cases h; exact writes_cdromTexts_0 _ rfl)
    (all_cons (fun c h => by cases h; exact writes_cdromTexts_0 _ rfl)
    (all_cons (fun c h => by cases h; exact writes_cdromTexts_0 _ rfl)
    (all_cons (fun c h => by cases h; exact writes_cdromTexts_0 _ rfl)
    (all_cons (fun c h => by cases h; exact writes_cdromTexts_0 _ rfl)
    (all_cons (fun c h => by cases h; exact writes_cdromTexts_0 _ rfl)
    (all_cons (fun c h => by cases h; exact writes_cdromTexts_0 _ rfl)
    (all_cons (fun c h => by cases h; exact writes_cdromTexts_0 _ rfl)
    (all_cons (fun c h => by cases h; exact writes_cdromTexts_0 _ rfl)
    (all_cons (fun c h => by cases h; exact writes_cdromTexts_0 _ rfl)
    (all_cons (fun c h => by cases h; exact writes_cdromTexts_0 _ rfl)
    (all_cons (fun c h => by cases h; exact writes_cdromTexts_0 _ rfl)
    (all_cons (fun c h => by cases h; exact writes_cdromTexts_0 _ rfl)
    (all_cons (fun c h => by cases h; exact writes_cdromTexts_0 _ rfl)
    (all_cons (fun c h => by cases h; exact writes_cdromTexts_0 _ rfl)
    (all_cons (fun c h => by cases h; exact writes_cdromTexts_0 _ rfl)
    (all_cons (fun c h => by cases h; exact writes_cdromTexts_0 _ rfl)
    (all_cons (fun c h => by cases h; exact writes_cdromTexts_0 _ rfl)
    (all_cons (fun c h => by cases h; exact writes_cdromTexts_0 _ rfl)
    (all_cons (fun c h => by cases h; exact writes_cdromTexts_0 _ rfl)
    (all_cons (fun c h => by cases h; exact writes_cdromTexts_0 _ rfl)
    (all_cons (fun c h => by cases h; exact writes_cdromTexts_0 _ rfl)
    (all_cons (fun c h => by cases h; exact writes_cdromTexts_0 _ rfl)
    (all_cons (fun c h => by cases h; exact writes_cdromTexts_0 _ rfl)
    (all_cons (fun c h => by cases h; exact writes_cdromTexts_0 _ rfl)
    (all_cons (fun c h => by cases h; exact writes_cdromTexts_0 _ rfl)
    (all_cons (fun c h => by cases h; exact writes_cdromTexts_0 _ rfl)
    (all_cons (fun c h => by cases h; exact writes_cdromTexts_0 _ rfl)
    (all_cons (fun c h => by cases h; exact writes_cdromTexts_0 _ rfl)
    (all_cons (fun c h => by cases h; exact writes_cdromTexts_0 _ rfl)
    (all_cons (fun c h => by cases h; exact writes_cdromTexts_0 _ rfl)
    (all_cons (fun c h => by cases h; exact writes_cdromTexts_0 _ rfl)
    (all_cons (fun c h => by cases h; exact writes_cdromTexts_0 _ rfl)
    (all_cons (fun c h => by cases h; exact writes_cdromTexts_0 _ rfl)
    (all_cons (fun c h => by cases h; exact writes_cdromTexts_0 _ rfl)
    (all_cons (fun c h => by cases h; exact writes_cdromTexts_0 _ rfl)
    (all_cons (fun c h => by cases h; exact writes_cdromTexts_0 _ rfl)
    (List.forall_mem_nil _)))))))))))))))))))))))))))))))))))))))

theorem writes_iscsinameTexts_0_texts (n : Str) : ∀ i ∈ [0], Command.FirstText (FC6_IscsiName.cls) n (iscsinameTexts.texts.getD i noText) :=
  (all_cons (by intro b b' hb hb' x hx line l; kernel_rfl)
    (List.forall_mem_nil _))

theorem writes_iscsinameTexts_0 : ∀ v, [Version.FC6, Version.RHEL5, Version.F7, Version.F8, Version.F9, Version.F10, Version.F11, Version.F12, Version.F13, Version.RHEL6, Version.F14, Version.F15, Version.F16, Version.F17, Version.F18, Version.F19, Version.F20, Version.F21, Version.RHEL7, Version.F22, Version.F23, Version.F24, Version.F25, Version.F26, Version.F27, Version.F28, Version.RHEL8, Version.F29, Version.F30, Version.F31, Version.F32, Version.F33, Version.F34].contains v = true → Command.Writes (FC6_IscsiName.cls) iscsinameTexts v :=
  writes_of [0] (writes_iscsinameTexts_0_texts _) (by decide +kernel)

theorem writes_iscsinameTexts : iscsinameTexts.Written := by
  unfold CommandTexts.Written commandMaps
  exact (all_cons (fun c h => by cases h; exact writes_iscsinameTexts_0 _ rfl)
    (all_cons (fun c h => by cases h; exact writes_iscsinameTexts_0 _ rfl)
    (all_cons (fun c h => by cases h; exact writes_iscsinameTexts_0 _ rfl)
    (all_cons (fun c h => by cases h; exact writes_iscsinameTexts_0 _ rfl)
    (all_cons (fun c h => by cases h; exact writes_iscsinameTexts_0 _ rfl)
    (all_cons (fun c h => by cases h; exact writes_iscsinameTexts_0 _ rfl)
    (all_cons (fun c h => by cases h; exact writes_iscsinameTexts_0 _ rfl)
    (all_cons (fun c h => by cases h; exact writes_iscsinameTexts_0 _ rfl)
    (all_cons (fun c h => by cases h; exact writes_iscsinameTexts_0 _ rfl)
    (all_cons (fun c h => by cases h; exact writes_iscsinameTexts_0 _ rfl)
    (all_cons (fun c h => by cases h; exact writes_iscsinameTexts_0 _ rfl)
    (all_cons (fun c h => by cases h; exact writes_iscsinameTexts_0 _ rfl)
    (all_cons (fun c h => by cases h; exact writes_iscsinameTexts_0 _ rfl)
    (all_cons (fun c h => by cases h; exact writes_iscsinameTexts_0 _ rfl)
    (all_cons (fun c h => by cases h; exact writes_iscsinameTexts_0 _ rfl)
    (all_cons (fun c h => by cases h; exact writes_iscsinameTexts_0 _ rfl)
    (all_cons (fun c h => by cases h; exact writes_iscsinameTexts_0 _ rfl)
    (all_cons (fun c h => by cases h; exact writes_iscsinameTexts_0 _ rfl)
    (all_cons (fun c h => by cases h; exact writes_iscsinameTexts_0 _ rfl)
    (all_cons (fun c h => by cases h; exact writes_iscsinameTexts_0 _ rfl)
    (all_cons (fun c h => by cases h; exact writes_iscsinameTexts_0 _ rfl)
    (all_cons (fun c h => by cases h; exact writes_iscsinameTexts_0 _ rfl)
    (all_cons (fun c h => by cases h; exact writes_iscsinameTexts_0 _ rfl)
    (all_cons (fun c h => by cases h; exact writes_iscsinameTexts_0 _ rfl)
    (all_cons (fun c h => by cases h; exact writes_iscsinameTexts_0 _ rfl)
    (all_cons (fun c h => by cases h; exact writes_iscsinameTexts_0 _ rfl)
    (all_cons (fun c h => by cases h; exact writes_iscsinameTexts_0 _ rfl)
    (all_cons (fun c h => by cases h; exact writes_iscsinameTexts_0 _ rfl)
    (all_cons (fun c h => by cases h)
    (all_cons (fun c h => by cases h)
    (all_cons (fun c h => by cases h)
    (all_cons (fun c h => by cases h; exact writes_iscsinameTexts_0 _ rfl)
    (all_cons (fun c h => by cases h)
    (all_cons (fun c h => by cases h)
    (all_cons (fun c h => by cases h; exact writes_iscsinameTexts_0 _ rfl)
    (all_cons (fun c h => by cases h; exact writes_iscsinameTexts_0 _ rfl)
    (all_cons (fun c h => by cases h; exact writes_iscsinameTexts_0 _ rfl)
    (all_cons (fun c h => by cases h; exact writes_iscsinameTexts_0 _ rfl)
    (List.forall_mem_nil _)))))))))))))))))))))))))))))))))))))))

theorem writes_mediacheckTexts_0_texts (n : Str) : ∀ i ∈ [0], Command.FirstText (FC4_MediaCheck.cls) n (mediacheckTexts.texts.getD i noText) :=
  (all_cons (by intro b b' hb hb' x hx line l; kernel_rfl)
    (List.forall_mem_nil _))

theorem writes_mediacheckTexts_0 : ∀ v, [Version.FC4, Version.FC5, Version.FC6, Version.RHEL5, Version.F7, Version.F8, Version.F9, Version.F10, Version.F11, Version.F12, Version.F13, Version.RHEL6, Version.F14, Version.F15, Version.F16, Version.F17, Version.F18, Version.F19, Version.F20, Version.F21, Version.RHEL7, Version.F22, Version.F23, Version.F24, Version.F25, Version.F26, Version.F27, Version.F28, Version.RHEL8, Version.F29, Version.F30, Version.F31, Version.F32, Version.F33, Version.F34].contains v = true → Command.Writes (FC4_MediaCheck.cls) mediacheckTexts v :=
  writes_of [0] (writes_mediacheckTexts_0_texts _) (by decide +kernel)

theorem writes_mediacheckTexts : mediacheckTexts.Written := by
  unfold CommandTexts.Written commandMaps
  exact (all_cons (fun c h => by cases h; exact writes_mediacheckTexts_0 _ rfl)
    (all_cons (fun c h => by cases h; exact writes_mediacheckTexts_0 _ rfl)
    (all_cons (fun c h => by cases h; exact writes_mediacheckTexts_0 _ rfl)
    (all_cons (fun c h => by cases h; exact writes_mediacheckTexts_0 _ rfl)
    (all_cons (fun c h => by cases h; exact writes_mediacheckTexts_0 _ rfl)
    (all_cons (fun c h => by cases h; exact writes_mediacheckTexts_0 _ rfl)
    (all_cons (fun c h => by cases h; exact writes_mediacheckTexts_0 _ rfl)
    (all_cons (fun c h => by cases h; exact writes_mediacheckTexts_0 _ rfl)
    (all_cons (fun c h => by cases h; exact writes_mediacheckTexts_0 _ rfl)
    (all_cons (fun c h => by cases h; exact writes_mediacheckTexts_0 _ rfl)
    (all_cons (fun c h => by cases h; exact writes_mediacheckTexts_0 _ rfl)
    (all_cons (fun c h => by cases h; exact writes_mediacheckTexts_0 _ rfl)
    (all_cons (fun c h => by cases h; exact writes_mediacheckTexts_0 _ rfl)
    (all_cons (fun c h => by cases h; exact writes_mediacheckTexts_0 _ rfl)
    (all_cons (fun c h => by cases h; exact writes_mediacheckTexts_0 _ rfl)
    (all_cons (fun c h => by cases h; exact writes_mediacheckTexts_0 _ rfl)
    (all_cons (fun c h => by cases h; exact writes_mediacheckTexts_0 _ rfl)
    (all_cons (fun c h => by cases h; exact writes_mediacheckTexts_0 _ rfl)
    (all_cons (fun c h => by cases h; exact writes_mediacheckTexts_0 _ rfl)
    (all_cons (fun c h => by cases h; exact writes_mediacheckTexts_0 _ rfl)
    (all_cons (fun c h => by cases h; exact writes_mediacheckTexts_0 _ rfl)
    (all_cons (fun c h => by cases h; exact writes_mediacheckTexts_0 _ rfl)
    (all_cons (fun c h => by cases h; exact writes_mediacheckTexts_0 _ rfl)
    (all_cons (fun c h => by cases h; exact writes_mediacheckTexts_0 _ rfl)
    (all_cons (fun c h => by cases h; exact writes_mediacheckTexts_0 _ rfl)
    (all_cons (fun c h => by cases h; exact writes_mediacheckTexts_0 _ rfl)
    (all_cons (fun c h => by cases h; exact writes_mediacheckTexts_0 _ rfl)
    (all_cons (fun c h => by cases h; exact writes_mediacheckTexts_0 _ rfl)
    (all_cons (fun c h => by cases h)
    (all_cons (fun c h => by cases h; exact writes_mediacheckTexts_0 _ rfl)
    (all_cons (fun c h => by cases h; exact writes_mediacheckTexts_0 _ rfl)
    (all_cons (fun c h => by cases h; exact writes_mediacheckTexts_0 _ rfl)
    (all_cons (fun c h => by cases h)
    (all_cons (fun c h => by cases h)
    (all_cons (fun c h => by cases h; exact writes_mediacheckTexts_0 _ rfl)
    (all_cons (fun c h => by cases h; exact writes_mediacheckTexts_0 _ rfl)
    (all_cons (fun c h => by cases h; exact writes_mediacheckTexts_0 _ rfl)
    (all_cons (fun c h => by cases h; exact writes_mediacheckTexts_0 _ rfl)
    (List.forall_mem_nil _)))))))))))))))))))))))))))))))))))))))

theorem writes_unsupportedHardwareTexts_0_texts (n : Str) : ∀ i ∈ [0], Command.FirstText (RHEL6_UnsupportedHardware.cls) n (unsupportedHardwareTexts.texts.getD i noText) :=
  (all_cons (by intro b b' hb hb' x hx line l; kernel_rfl)
    (List.forall_mem_nil _))

theorem writes_unsupportedHardwareTexts_0 : ∀ v, [Version.RHEL6, Version.RHEL7].contains v = true → Command.Writes (RHEL6_UnsupportedHardware.cls) unsupportedHardwareTexts v :=
  writes_of [0] (writes_unsupportedHardwareTexts_0_texts _) (by decide +kernel)

theorem writes_unsupportedHardwareTexts : unsupportedHardwareTexts.Written := by
  unfold CommandTexts.Written commandMaps
  exact (all_cons (fun c h => by cases h)
    (all_cons (fun c h => by cases h)
    (all_cons (fun c h => by cases h)
    (all_cons (fun c h => by cases h)
    (all_cons (fun c h => by cases h)
    (all_cons (fun c h => by cases h)
    (all_cons (fun c h => by cases h)
    (all_cons (fun c h => by cases h)
    (all_cons (fun c h => by cases h)
    (all_cons (fun c h => by cases h)
    (all_cons (fun c h => by cases h)
    (all_cons (fun c h => by cases h)
    (all_cons (fun c h => by cases h)
    (all_cons (fun c h => by cases h)
    (all_cons (fun c h => by cases h)
    (all_cons (fun c h => by cases h)
    (all_cons (fun c h => by cases h)
    (all_cons (fun c h => by cases h)
    (all_cons (fun c h => by cases h)
    (all_cons (fun c h => by cases h)
    (all_cons (fun c h => by cases h)
    (all_cons (fun c h => by cases h)
    (all_cons (fun c h => by cases h)
    (all_cons (fun c h => by cases h)
    (all_cons (fun c h => by cases h)
    (all_cons (fun c h => by cases h)
    (all_cons (fun c h => by cases h)
    (all_cons (fun c h => by cases h)
    (all_cons (fun c h => by cases h)
    (all_cons (fun c h => by cases h)
    (all_cons (fun c h => by cases h)
    (all_cons (fun c h => by cases h)
    (all_cons (fun c h => by cases h)
    (all_cons (fun c h => by cases h)
    (all_cons (fun c h => by cases h)
    (all_cons (fun c h => by cases h; exact writes_unsupportedHardwareTexts_0 _ rfl)
    (all_cons (fun c h => by cases h; exact writes_unsupportedHardwareTexts_0 _ rfl)
    (all_cons (fun c h => by cases h)
    (List.forall_mem_nil _)))))))))))))))))))))))))))))))))))))))

end Ks.Cmd
