import Verif.Commands.LineLogic
import Verif.Commands.LineTable
/-!
# The classes of the command maps do what the table of first lines says

Written by `scripts/gen_lines.py`.
-/
namespace Ks.Cmd

set_option linter.unusedVariables false

def obeys_autopartLines_0_object (_ : Nat) : Ns := [(c!"autopart", .bool true), (c!"encrypted", .bool false), (c!"passphrase", .str c!"")]

theorem obeys_autopartLines_0_base (n : Str) : Command.FirstBase (F9_AutoPart.cls) n [] obeys_autopartLines_0_object := by
  intro b b' hb hb' line l; kernel_rfl

theorem obeys_autopartLines_0_start : Command.FirstStart (F9_AutoPart.cls) obeys_autopartLines_0_object (autopartLines.start.getD 0 ([], [])).2 := fun _ => .inr ⟨fun _ => rfl, by kernel_rfl⟩

theorem obeys_autopartLines_0_lines (n : Str) : ∀ i ∈ [0, 2, 4, 6], Command.FirstLine (F9_AutoPart.cls) n [] obeys_autopartLines_0_object (autopartLines.lines.getD i noLine) :=
  (all_cons (by intro b b' hb hb' x hx line l; kernel_rfl)
    (all_cons (by intro b b' hb hb' x hx line l; (cases x with | nil => exact absurd rfl hx | cons a x => kernel_rfl))
    (all_cons (by intro b b' hb hb' x hx line l; (cases x with | nil => exact absurd rfl hx | cons a x => kernel_rfl))
    (all_cons (by intro b b' hb hb' x hx line l; kernel_rfl)
    (List.forall_mem_nil _)))))

theorem obeys_autopartLines_0 : ∀ v, [Version.RHEL5, Version.F9, Version.F10, Version.F11].contains v = true → Command.Obeys (F9_AutoPart.cls) autopartLines v :=
  obeys_of obeys_autopartLines_0_object [0] [0, 2, 4, 6] (obeys_autopartLines_0_base _) (all_cons obeys_autopartLines_0_start (List.forall_mem_nil _)) (obeys_autopartLines_0_lines _) (by decide +kernel)

def obeys_autopartLines_1_object (_ : Nat) : Ns := [(c!"autopart", .bool true), (c!"encrypted", .bool false), (c!"passphrase", .str c!""), (c!"escrowcert", .str c!""), (c!"backuppassphrase", .bool false)]

theorem obeys_autopartLines_1_base (n : Str) : Command.FirstBase (F12_AutoPart.cls) n [] obeys_autopartLines_1_object := by
  intro b b' hb hb' line l; kernel_rfl

theorem obeys_autopartLines_1_start : Command.FirstStart (F12_AutoPart.cls) obeys_autopartLines_1_object (autopartLines.start.getD 0 ([], [])).2 := fun _ => .inr ⟨fun _ => rfl, by kernel_rfl⟩

theorem obeys_autopartLines_1_lines (n : Str) : ∀ i ∈ [5, 7, 8, 19], Command.FirstLine (F12_AutoPart.cls) n [] obeys_autopartLines_1_object (autopartLines.lines.getD i noLine) :=
  (all_cons (by intro b b' hb hb' x hx line l; (cases x with | nil => exact absurd rfl hx | cons a x => kernel_rfl))
    (all_cons (by intro b b' hb hb' x hx line l; kernel_rfl)
    (all_cons (by intro b b' hb hb' x hx line l; kernel_rfl)
    (all_cons (by intro b b' hb hb' x hx line l; (cases x with | nil => exact absurd rfl hx | cons a x => kernel_rfl))
    (List.forall_mem_nil _)))))

theorem obeys_autopartLines_1 : ∀ v, [Version.F12, Version.F13, Version.F14, Version.F15].contains v = true → Command.Obeys (F12_AutoPart.cls) autopartLines v :=
  obeys_of obeys_autopartLines_1_object [0] [5, 7, 8, 19] (obeys_autopartLines_1_base _) (all_cons obeys_autopartLines_1_start (List.forall_mem_nil _)) (obeys_autopartLines_1_lines _) (by decide +kernel)

def obeys_autopartLines_2_object (_ : Nat) : Ns := [(c!"autopart", .bool true), (c!"encrypted", .bool false), (c!"passphrase", .str c!""), (c!"escrowcert", .str c!""), (c!"backuppassphrase", .bool false), (c!"lvm", .bool true)]

theorem obeys_autopartLines_2_base (n : Str) : Command.FirstBase (F16_AutoPart.cls) n [] obeys_autopartLines_2_object := by
  intro b b' hb hb' line l; kernel_rfl

theorem obeys_autopartLines_2_start : Command.FirstStart (F16_AutoPart.cls) obeys_autopartLines_2_object (autopartLines.start.getD 0 ([], [])).2 := fun _ => .inr ⟨fun _ => rfl, by kernel_rfl⟩

theorem obeys_autopartLines_2_lines (n : Str) : ∀ i ∈ [9, 11, 13, 15, 17], Command.FirstLine (F16_AutoPart.cls) n [] obeys_autopartLines_2_object (autopartLines.lines.getD i noLine) :=
  (all_cons (by intro b b' hb hb' x hx line l; kernel_rfl)
    (all_cons (by intro b b' hb hb' x hx line l; kernel_rfl)
    (all_cons (by intro b b' hb hb' x hx line l; kernel_rfl)
    (all_cons (by intro b b' hb hb' x hx line l; kernel_rfl)
    (all_cons (by intro b b' hb hb' x hx line l; kernel_rfl)
    (List.forall_mem_nil _))))))

theorem obeys_autopartLines_2 : ∀ v, [Version.F16].contains v = true → Command.Obeys (F16_AutoPart.cls) autopartLines v :=
  obeys_of obeys_autopartLines_2_object [0] [9, 11, 13, 15, 17] (obeys_autopartLines_2_base _) (all_cons obeys_autopartLines_2_start (List.forall_mem_nil _)) (obeys_autopartLines_2_lines _) (by decide +kernel)

def obeys_autopartLines_3_object (_ : Nat) : Ns := [(c!"autopart", .bool true), (c!"encrypted", .bool false), (c!"passphrase", .str c!""), (c!"escrowcert", .str c!""), (c!"backuppassphrase", .bool false), (c!"lvm", .bool true), (c!"type", .none)]

theorem obeys_autopartLines_3_base (n : Str) : Command.FirstBase (F17_AutoPart.cls) n [] obeys_autopartLines_3_object := by
  intro b b' hb hb' line l; kernel_rfl

theorem obeys_autopartLines_3_start : Command.FirstStart (F17_AutoPart.cls) obeys_autopartLines_3_object (autopartLines.start.getD 0 ([], [])).2 := fun _ => .inr ⟨fun _ => rfl, by kernel_rfl⟩

theorem obeys_autopartLines_3_lines (n : Str) : ∀ i ∈ [10, 12, 14, 16, 18, 19], Command.FirstLine (F17_AutoPart.cls) n [] obeys_autopartLines_3_object (autopartLines.lines.getD i noLine) :=
  (all_cons (by intro b b' hb hb' x hx line l; kernel_rfl)
    (all_cons (by intro b b' hb hb' x hx line l; kernel_rfl)
    (all_cons (by intro b b' hb hb' x hx line l; kernel_rfl)
    (all_cons (by intro b b' hb hb' x hx line l; kernel_rfl)
    (all_cons (by intro b b' hb hb' x hx line l; kernel_rfl)
    (all_cons (by intro b b' hb hb' x hx line l; (cases x with | nil => exact absurd rfl hx | cons a x => kernel_rfl))
    (List.forall_mem_nil _)))))))

theorem obeys_autopartLines_3 : ∀ v, [Version.F17].contains v = true → Command.Obeys (F17_AutoPart.cls) autopartLines v :=
  obeys_of obeys_autopartLines_3_object [0] [10, 12, 14, 16, 18, 19] (obeys_autopartLines_3_base _) (all_cons obeys_autopartLines_3_start (List.forall_mem_nil _)) (obeys_autopartLines_3_lines _) (by decide +kernel)

def obeys_autopartLines_4_object (_ : Nat) : Ns := [(c!"autopart", .bool true), (c!"encrypted", .bool false), (c!"passphrase", .str c!""), (c!"escrowcert", .str c!""), (c!"backuppassphrase", .bool false), (c!"lvm", .bool true), (c!"type", .none), (c!"cipher", .str c!"")]

theorem obeys_autopartLines_4_base (n : Str) : Command.FirstBase (F18_AutoPart.cls) n [] obeys_autopartLines_4_object := by
  intro b b' hb hb' line l; kernel_rfl

theorem obeys_autopartLines_4_start : Command.FirstStart (F18_AutoPart.cls) obeys_autopartLines_4_object (autopartLines.start.getD 0 ([], [])).2 := fun _ => .inr ⟨fun _ => rfl, by kernel_rfl⟩

theorem obeys_autopartLines_4_lines (n : Str) : ∀ i ∈ [20, 21], Command.FirstLine (F18_AutoPart.cls) n [] obeys_autopartLines_4_object (autopartLines.lines.getD i noLine) :=
  (all_cons (by intro b b' hb hb' x hx line l; (cases x with | nil => exact absurd rfl hx | cons a x => kernel_rfl))
    (all_cons (by intro b b' hb hb' x hx line l; kernel_rfl)
    (List.forall_mem_nil _)))

theorem obeys_autopartLines_4 : ∀ v, [Version.F18, Version.F19].contains v = true → Command.Obeys (F18_AutoPart.cls) autopartLines v :=
  obeys_of obeys_autopartLines_4_object [0] [20, 21] (obeys_autopartLines_4_base _) (all_cons obeys_autopartLines_4_start (List.forall_mem_nil _)) (obeys_autopartLines_4_lines _) (by decide +kernel)

def obeys_autopartLines_5_object (_ : Nat) : Ns := [(c!"autopart", .bool true), (c!"encrypted", .bool false), (c!"passphrase", .str c!""), (c!"escrowcert", .str c!""), (c!"backuppassphrase", .bool false), (c!"lvm", .bool true), (c!"type", .none), (c!"cipher", .str c!"")]

theorem obeys_autopartLines_5_base (n : Str) : Command.FirstBase (F20_AutoPart.cls) n [] obeys_autopartLines_5_object := by
  intro b b' hb hb' line l; rcases hb with rfl | rfl <;> rcases hb' with rfl | rfl <;> kernel_rfl

theorem obeys_autopartLines_5_start : Command.FirstStart (F20_AutoPart.cls) obeys_autopartLines_5_object (autopartLines.start.getD 0 ([], [])).2 := fun _ => .inr ⟨fun _ => rfl, by kernel_rfl⟩

theorem obeys_autopartLines_5_lines (n : Str) : ∀ i ∈ [22, 23], Command.FirstLine (F20_AutoPart.cls) n [] obeys_autopartLines_5_object (autopartLines.lines.getD i noLine) :=
  (all_cons (by intro b b' hb hb' x hx line l; rcases hb with rfl | rfl <;> rcases hb' with rfl | rfl <;> kernel_rfl)
    (all_cons (by intro b b' hb hb' x hx line l; rcases hb with rfl | rfl <;> rcases hb' with rfl | rfl <;> kernel_rfl)
    (List.forall_mem_nil _)))

theorem obeys_autopartLines_5 : ∀ v, [Version.F20].contains v = true → Command.Obeys (F20_AutoPart.cls) autopartLines v :=
  obeys_of obeys_autopartLines_5_object [0] [22, 23] (obeys_autopartLines_5_base _) (all_cons obeys_autopartLines_5_start (List.forall_mem_nil _)) (obeys_autopartLines_5_lines _) (by decide +kernel)

def obeys_autopartLines_6_object (_ : Nat) : Ns := [(c!"autopart", .bool true), (c!"encrypted", .bool false), (c!"passphrase", .str c!""), (c!"escrowcert", .str c!""), (c!"backuppassphrase", .bool false), (c!"lvm", .bool true), (c!"type", .none), (c!"cipher", .str c!""), (c!"fstype", .str c!"")]

theorem obeys_autopartLines_6_base (n : Str) : Command.FirstBase (F21_AutoPart.cls) n [] obeys_autopartLines_6_object := by
  intro b b' hb hb' line l; rcases hb with rfl | rfl <;> rcases hb' with rfl | rfl <;> kernel_rfl

theorem obeys_autopartLines_6_start : Command.FirstStart (F21_AutoPart.cls) obeys_autopartLines_6_object (autopartLines.start.getD 0 ([], [])).2 := fun _ => .inr ⟨fun _ => rfl, by kernel_rfl⟩

theorem obeys_autopartLines_6_lines (n : Str) : ∀ i ∈ [24, 25], Command.FirstLine (F21_AutoPart.cls) n [] obeys_autopartLines_6_object (autopartLines.lines.getD i noLine) :=
  (all_cons (by intro b b' hb hb' x hx line l; rcases hb with rfl | rfl <;> rcases hb' with rfl | rfl <;> kernel_rfl)
    (all_cons (by intro b b' hb hb' x hx line l; rcases hb with rfl | rfl <;> rcases hb' with rfl | rfl <;> kernel_rfl)
    (List.forall_mem_nil _)))

theorem obeys_autopartLines_6 : ∀ v, [Version.F21, Version.F22].contains v = true → Command.Obeys (F21_AutoPart.cls) autopartLines v :=
  obeys_of obeys_autopartLines_6_object [0] [24, 25] (obeys_autopartLines_6_base _) (all_cons obeys_autopartLines_6_start (List.forall_mem_nil _)) (obeys_autopartLines_6_lines _) (by decide +kernel)

def obeys_autopartLines_7_object (_ : Nat) : Ns := [(c!"autopart", .bool true), (c!"encrypted", .bool false), (c!"passphrase", .str c!""), (c!"escrowcert", .str c!""), (c!"backuppassphrase", .bool false), (c!"lvm", .bool true), (c!"type", .none), (c!"cipher", .str c!""), (c!"fstype", .str c!"")]

theorem obeys_autopartLines_7_base (n : Str) : Command.FirstBase (F23_AutoPart.cls) n [] obeys_autopartLines_7_object := by
  intro b b' hb hb' line l; rcases hb with rfl | rfl <;> rcases hb' with rfl | rfl <;> kernel_rfl

theorem obeys_autopartLines_7_start : Command.FirstStart (F23_AutoPart.cls) obeys_autopartLines_7_object (autopartLines.start.getD 0 ([], [])).2 := fun _ => .inr ⟨fun _ => rfl, by kernel_rfl⟩

theorem obeys_autopartLines_7_lines (n : Str) : ∀ i ∈ [25, 27, 29], Command.FirstLine (F23_AutoPart.cls) n [] obeys_autopartLines_7_object (autopartLines.lines.getD i noLine) :=
  (all_cons (by intro b b' hb hb' x hx line l; rcases hb with rfl | rfl <;> rcases hb' with rfl | rfl <;> kernel_rfl)
    (all_cons (by intro b b' hb hb' x hx line l; rcases hb with rfl | rfl <;> rcases hb' with rfl | rfl <;> kernel_rfl)
    (all_cons (by intro b b' hb hb' x hx line l; rcases hb with rfl | rfl <;> rcases hb' with rfl | rfl <;> kernel_rfl)
    (List.forall_mem_nil _))))

theorem obeys_autopartLines_7 : ∀ v, [Version.F23, Version.F24, Version.F25].contains v = true → Command.Obeys (F23_AutoPart.cls) autopartLines v :=
  obeys_of obeys_autopartLines_7_object [0] [25, 27, 29] (obeys_autopartLines_7_base _) (all_cons obeys_autopartLines_7_start (List.forall_mem_nil _)) (obeys_autopartLines_7_lines _) (by decide +kernel)

def obeys_autopartLines_8_object (_ : Nat) : Ns := [(c!"autopart", .bool true), (c!"encrypted", .bool false), (c!"passphrase", .str c!""), (c!"escrowcert", .str c!""), (c!"backuppassphrase", .bool false), (c!"lvm", .bool true), (c!"type", .none), (c!"cipher", .str c!""), (c!"fstype", .str c!""), (c!"nohome", .bool false), (c!"noboot", .bool false), (c!"noswap", .bool false)]

theorem obeys_autopartLines_8_base (n : Str) : Command.FirstBase (F26_AutoPart.cls) n [] obeys_autopartLines_8_object := by
  intro b b' hb hb' line l; rcases hb with rfl | rfl <;> rcases hb' with rfl | rfl <;> kernel_rfl

theorem obeys_autopartLines_8_start : Command.FirstStart (F26_AutoPart.cls) obeys_autopartLines_8_object (autopartLines.start.getD 0 ([], [])).2 := fun _ => .inr ⟨fun _ => rfl, by kernel_rfl⟩

theorem obeys_autopartLines_8_lines (n : Str) : ∀ i ∈ [26, 28, 30, 31, 33, 35, 37, 39], Command.FirstLine (F26_AutoPart.cls) n [] obeys_autopartLines_8_object (autopartLines.lines.getD i noLine) :=
  (all_cons (by intro b b' hb hb' x hx line l; rcases hb with rfl | rfl <;> rcases hb' with rfl | rfl <;> kernel_rfl)
    (all_cons (by intro b b' hb hb' x hx line l; rcases hb with rfl | rfl <;> rcases hb' with rfl | rfl <;> kernel_rfl)
    (all_cons (by intro b b' hb hb' x hx line l; rcases hb with rfl | rfl <;> rcases hb' with rfl | rfl <;> kernel_rfl)
    (all_cons (by intro b b' hb hb' x hx line l; (cases x with | nil => exact absurd rfl hx | cons a x => rcases hb with rfl | rfl <;> rcases hb' with rfl | rfl <;> kernel_rfl))
    (all_cons (by intro b b' hb hb' x hx line l; (cases x with | nil => exact absurd rfl hx | cons a x => rcases hb with rfl | rfl <;> rcases hb' with rfl | rfl <;> kernel_rfl))
    (all_cons (by intro b b' hb hb' x hx line l; rcases hb with rfl | rfl <;> rcases hb' with rfl | rfl <;> kernel_rfl)
    (all_cons (by intro b b' hb hb' x hx line l; rcases hb with rfl | rfl <;> rcases hb' with rfl | rfl <;> kernel_rfl)
    (all_cons (by intro b b' hb hb' x hx line l; rcases hb with rfl | rfl <;> rcases hb' with rfl | rfl <;> kernel_rfl)
    (List.forall_mem_nil _)))))))))

theorem obeys_autopartLines_8 : ∀ v, [Version.F26, Version.F27, Version.F28].contains v = true → Command.Obeys (F26_AutoPart.cls) autopartLines v :=
  obeys_of obeys_autopartLines_8_object [0] [26, 28, 30, 31, 33, 35, 37, 39] (obeys_autopartLines_8_base _) (all_cons obeys_autopartLines_8_start (List.forall_mem_nil _)) (obeys_autopartLines_8_lines _) (by decide +kernel)

def obeys_autopartLines_9_object (_ : Nat) : Ns := [(c!"autopart", .bool true), (c!"encrypted", .bool false), (c!"passphrase", .str c!""), (c!"escrowcert", .str c!""), (c!"backuppassphrase", .bool false), (c!"lvm", .bool true), (c!"type", .none), (c!"cipher", .str c!""), (c!"fstype", .str c!""), (c!"nohome", .bool false), (c!"noboot", .bool false), (c!"noswap", .bool false), (c!"luks_version", .str c!""), (c!"pbkdf", .str c!""), (c!"pbkdf_memory", .int 0), (c!"pbkdf_time", .int 0), (c!"pbkdf_iterations", .int 0)]

theorem obeys_autopartLines_9_base (n : Str) : Command.FirstBase (F29_AutoPart.cls) n [] obeys_autopartLines_9_object := by
  intro b b' hb hb' line l; rcases hb with rfl | rfl <;> rcases hb' with rfl | rfl <;> kernel_rfl

theorem obeys_autopartLines_9_start : Command.FirstStart (F29_AutoPart.cls) obeys_autopartLines_9_object (autopartLines.start.getD 0 ([], [])).2 := fun _ => .inr ⟨fun _ => rfl, by kernel_rfl⟩

theorem obeys_autopartLines_9_lines (n : Str) : ∀ i ∈ [0, 2, 5, 7, 10, 12, 14, 16, 18, 20, 22, 24, 26, 28, 30, 32, 34, 36, 38, 40], Command.FirstLine (F29_AutoPart.cls) n [] obeys_autopartLines_9_object (autopartLines.lines.getD i noLine) :=
  (all_cons (by intro b b' hb hb' x hx line l; rcases hb with rfl | rfl <;> rcases hb' with rfl | rfl <;> kernel_rfl)
    (all_cons (by intro b b' hb hb' x hx line l; (cases x with | nil => exact absurd rfl hx | cons a x => rcases hb with rfl | rfl <;> rcases hb' with rfl | rfl <;> kernel_rfl))
    (all_cons (by intro b b' hb hb' x hx line l; (cases x with | nil => exact absurd rfl hx | cons a x => rcases hb with rfl | rfl <;> rcases hb' with rfl | rfl <;> kernel_rfl))
    (all_cons (by intro b b' hb hb' x hx line l; rcases hb with rfl | rfl <;> rcases hb' with rfl | rfl <;> kernel_rfl)
    (all_cons (by intro b b' hb hb' x hx line l; rcases hb with rfl | rfl <;> rcases hb' with rfl | rfl <;> kernel_rfl)
    (all_cons (by intro b b' hb hb' x hx line l; rcases hb with rfl | rfl <;> rcases hb' with rfl | rfl <;> kernel_rfl)
    (all_cons (by intro b b' hb hb' x hx line l; rcases hb with rfl | rfl <;> rcases hb' with rfl | rfl <;> kernel_rfl)
    (all_cons (by intro b b' hb hb' x hx line l; rcases hb with rfl | rfl <;> rcases hb' with rfl | rfl <;> kernel_rfl)
    (all_cons (by intro b b' hb hb' x hx line l; rcases hb with rfl | rfl <;> rcases hb' with rfl | rfl <;> kernel_rfl)
    (all_cons (by intro b b' hb hb' x hx line l; (cases x with | nil => exact absurd rfl hx | cons a x => rcases hb with rfl | rfl <;> rcases hb' with rfl | rfl <;> kernel_rfl))
    (all_cons (by intro b b' hb hb' x hx line l; rcases hb with rfl | rfl <;> rcases hb' with rfl | rfl <;> kernel_rfl)
    (all_cons (by intro b b' hb hb' x hx line l; rcases hb with rfl | rfl <;> rcases hb' with rfl | rfl <;> kernel_rfl)
    (all_cons (by intro b b' hb hb' x hx line l; rcases hb with rfl | rfl <;> rcases hb' with rfl | rfl <;> kernel_rfl)
    (all_cons (by intro b b' hb hb' x hx line l; rcases hb with rfl | rfl <;> rcases hb' with rfl | rfl <;> kernel_rfl)
    (all_cons (by intro b b' hb hb' x hx line l; rcases hb with rfl | rfl <;> rcases hb' with rfl | rfl <;> kernel_rfl)
    (all_cons (by intro b b' hb hb' x hx line l; (cases x with | nil => exact absurd rfl hx | cons a x => rcases hb with rfl | rfl <;> rcases hb' with rfl | rfl <;> kernel_rfl))
    (all_cons (by intro b b' hb hb' x hx line l; (cases x with | nil => exact absurd rfl hx | cons a x => rcases hb with rfl | rfl <;> rcases hb' with rfl | rfl <;> kernel_rfl))
    (all_cons (by intro b b' hb hb' x hx line l; rcases hb with rfl | rfl <;> rcases hb' with rfl | rfl <;> kernel_rfl)
    (all_cons (by intro b b' hb hb' x hx line l; rcases hb with rfl | rfl <;> rcases hb' with rfl | rfl <;> kernel_rfl)
    (all_cons (by intro b b' hb hb' x hx line l; rcases hb with rfl | rfl <;> rcases hb' with rfl | rfl <;> kernel_rfl)
    (List.forall_mem_nil _)))))))))))))))))))))

theorem obeys_autopartLines_9 : ∀ v, [Version.F29, Version.F30, Version.F31, Version.F32, Version.F33, Version.F34].contains v = true → Command.Obeys (F29_AutoPart.cls) autopartLines v :=
  obeys_of obeys_autopartLines_9_object [0] [0, 2, 5, 7, 10, 12, 14, 16, 18, 20, 22, 24, 26, 28, 30, 32, 34, 36, 38, 40] (obeys_autopartLines_9_base _) (all_cons obeys_autopartLines_9_start (List.forall_mem_nil _)) (obeys_autopartLines_9_lines _) (by decide +kernel)

def obeys_autopartLines_10_object (_ : Nat) : Ns := [(c!"autopart", .bool true)]

theorem obeys_autopartLines_10_base (n : Str) : Command.FirstBase (FC3_AutoPart.cls) n [] obeys_autopartLines_10_object := by
  intro b b' hb hb' line l; kernel_rfl

theorem obeys_autopartLines_10_start : Command.FirstStart (FC3_AutoPart.cls) obeys_autopartLines_10_object (autopartLines.start.getD 0 ([], [])).2 := fun _ => .inr ⟨fun _ => rfl, by kernel_rfl⟩

theorem obeys_autopartLines_10_lines (n : Str) : ∀ i ∈ [1, 3], Command.FirstLine (FC3_AutoPart.cls) n [] obeys_autopartLines_10_object (autopartLines.lines.getD i noLine) :=
  (all_cons (by intro b b' hb hb' x hx line l; kernel_rfl)
    (all_cons (by intro b b' hb hb' x hx line l; (cases x with | nil => exact absurd rfl hx | cons a x => kernel_rfl))
    (List.forall_mem_nil _)))

theorem obeys_autopartLines_10 : ∀ v, [Version.RHEL3, Version.FC3, Version.RHEL4, Version.FC4, Version.FC5, Version.FC6, Version.F7, Version.F8].contains v = true → Command.Obeys (FC3_AutoPart.cls) autopartLines v :=
  obeys_of obeys_autopartLines_10_object [0] [1, 3] (obeys_autopartLines_10_base _) (all_cons obeys_autopartLines_10_start (List.forall_mem_nil _)) (obeys_autopartLines_10_lines _) (by decide +kernel)

def obeys_autopartLines_11_object (_ : Nat) : Ns := [(c!"autopart", .bool true), (c!"encrypted", .bool false), (c!"passphrase", .str c!""), (c!"escrowcert", .str c!""), (c!"backuppassphrase", .bool false), (c!"cipher", .str c!"")]

theorem obeys_autopartLines_11_base (n : Str) : Command.FirstBase (RHEL6_AutoPart.cls) n [] obeys_autopartLines_11_object := by
  intro b b' hb hb' line l; kernel_rfl

theorem obeys_autopartLines_11_start : Command.FirstStart (RHEL6_AutoPart.cls) obeys_autopartLines_11_object (autopartLines.start.getD 0 ([], [])).2 := fun _ => .inr ⟨fun _ => rfl, by kernel_rfl⟩

theorem obeys_autopartLines_11_lines (n : Str) : ∀ i ∈ [20], Command.FirstLine (RHEL6_AutoPart.cls) n [] obeys_autopartLines_11_object (autopartLines.lines.getD i noLine) :=
  (all_cons (by intro b b' hb hb' x hx line l; (cases x with | nil => exact absurd rfl hx | cons a x => kernel_rfl))
    (List.forall_mem_nil _))

theorem obeys_autopartLines_11 : ∀ v, [Version.RHEL6].contains v = true → Command.Obeys (RHEL6_AutoPart.cls) autopartLines v :=
  obeys_of obeys_autopartLines_11_object [0] [20] (obeys_autopartLines_11_base _) (all_cons obeys_autopartLines_11_start (List.forall_mem_nil _)) (obeys_autopartLines_11_lines _) (by decide +kernel)

def obeys_autopartLines_12_object (_ : Nat) : Ns := [(c!"autopart", .bool true), (c!"encrypted", .bool false), (c!"passphrase", .str c!""), (c!"escrowcert", .str c!""), (c!"backuppassphrase", .bool false), (c!"lvm", .bool true), (c!"type", .none), (c!"cipher", .str c!""), (c!"fstype", .str c!""), (c!"nohome", .bool false)]

theorem obeys_autopartLines_12_base (n : Str) : Command.FirstBase (RHEL7_AutoPart.cls) n [] obeys_autopartLines_12_object := by
  intro b b' hb hb' line l; rcases hb with rfl | rfl <;> rcases hb' with rfl | rfl <;> kernel_rfl

theorem obeys_autopartLines_12_start : Command.FirstStart (RHEL7_AutoPart.cls) obeys_autopartLines_12_object (autopartLines.start.getD 0 ([], [])).2 := fun _ => .inr ⟨fun _ => rfl, by kernel_rfl⟩

theorem obeys_autopartLines_12_lines (n : Str) : ∀ i ∈ [26], Command.FirstLine (RHEL7_AutoPart.cls) n [] obeys_autopartLines_12_object (autopartLines.lines.getD i noLine) :=
  (all_cons (by intro b b' hb hb' x hx line l; rcases hb with rfl | rfl <;> rcases hb' with rfl | rfl <;> kernel_rfl)
    (List.forall_mem_nil _))

theorem obeys_autopartLines_12 : ∀ v, [Version.RHEL7].contains v = true → Command.Obeys (RHEL7_AutoPart.cls) autopartLines v :=
  obeys_of obeys_autopartLines_12_object [0] [26] (obeys_autopartLines_12_base _) (all_cons obeys_autopartLines_12_start (List.forall_mem_nil _)) (obeys_autopartLines_12_lines _) (by decide +kernel)

def obeys_autopartLines_13_object (_ : Nat) : Ns := [(c!"autopart", .bool true), (c!"encrypted", .bool false), (c!"passphrase", .str c!""), (c!"escrowcert", .str c!""), (c!"backuppassphrase", .bool false), (c!"lvm", .bool true), (c!"type", .none), (c!"cipher", .str c!""), (c!"fstype", .str c!""), (c!"nohome", .bool false), (c!"noboot", .bool false), (c!"noswap", .bool false), (c!"luks_version", .str c!""), (c!"pbkdf", .str c!""), (c!"pbkdf_memory", .int 0), (c!"pbkdf_time", .int 0), (c!"pbkdf_iterations", .int 0)]

theorem obeys_autopartLines_13_base (n : Str) : Command.FirstBase (RHEL8_AutoPart.cls) n [] obeys_autopartLines_13_object := by
  intro b b' hb hb' line l; rcases hb with rfl | rfl <;> rcases hb' with rfl | rfl <;> kernel_rfl

theorem obeys_autopartLines_13_start : Command.FirstStart (RHEL8_AutoPart.cls) obeys_autopartLines_13_object (autopartLines.start.getD 0 ([], [])).2 := fun _ => .inr ⟨fun _ => rfl, by kernel_rfl⟩

theorem obeys_autopartLines_13_lines (n : Str) : ∀ i ∈ [13, 32, 34, 36, 38, 40], Command.FirstLine (RHEL8_AutoPart.cls) n [] obeys_autopartLines_13_object (autopartLines.lines.getD i noLine) :=
  (all_cons (by intro b b' hb hb' x hx line l; rcases hb with rfl | rfl <;> rcases hb' with rfl | rfl <;> kernel_rfl)
    (all_cons (by intro b b' hb hb' x hx line l; (cases x with | nil => exact absurd rfl hx | cons a x => rcases hb with rfl | rfl <;> rcases hb' with rfl | rfl <;> kernel_rfl))
    (all_cons (by intro b b' hb hb' x hx line l; (cases x with | nil => exact absurd rfl hx | cons a x => rcases hb with rfl | rfl <;> rcases hb' with rfl | rfl <;> kernel_rfl))
    (all_cons (by intro b b' hb hb' x hx line l; rcases hb with rfl | rfl <;> rcases hb' with rfl | rfl <;> kernel_rfl)
    (all_cons (by intro b b' hb hb' x hx line l; rcases hb with rfl | rfl <;> rcases hb' with rfl | rfl <;> kernel_rfl)
    (all_cons (by intro b b' hb hb' x hx line l; rcases hb with rfl | rfl <;> rcases hb' with rfl | rfl <;> kernel_rfl)
    (List.forall_mem_nil _)))))))

theorem obeys_autopartLines_13 : ∀ v, [Version.RHEL8].contains v = true → Command.Obeys (RHEL8_AutoPart.cls) autopartLines v :=
  obeys_of obeys_autopartLines_13_object [0] [13, 32, 34, 36, 38, 40] (obeys_autopartLines_13_base _) (all_cons obeys_autopartLines_13_start (List.forall_mem_nil _)) (obeys_autopartLines_13_lines _) (by decide +kernel)

theorem obeys_autopartLines : autopartLines.Obeyed := by
  unfold CommandLines.Obeyed commandMaps
  exact (all_cons (fun _ c h => by cases h; exact obeys_autopartLines_0 _ rfl)
    (all_cons (fun _ c h => by cases h; exact obeys_autopartLines_0 _ rfl)
    (all_cons (fun _ c h => by cases h; exact obeys_autopartLines_1 _ rfl)
    (all_cons (fun _ c h => by cases h; exact obeys_autopartLines_1 _ rfl)
    (all_cons (fun _ c h => by cases h; exact obeys_autopartLines_1 _ rfl)
    (all_cons (fun _ c h => by cases h; exact obeys_autopartLines_1 _ rfl)
    (all_cons (fun _ c h => by cases h; exact obeys_autopartLines_2 _ rfl)
    (all_cons (fun _ c h => by cases h; exact obeys_autopartLines_3 _ rfl)
    (all_cons (fun _ c h => by cases h; exact obeys_autopartLines_4 _ rfl)
    (all_cons (fun _ c h => by cases h; exact obeys_autopartLines_4 _ rfl)
    (all_cons (fun _ c h => by cases h; exact obeys_autopartLines_5 _ rfl)
    (all_cons (fun _ c h => by cases h; exact obeys_autopartLines_6 _ rfl)
    (all_cons (fun _ c h => by cases h; exact obeys_autopartLines_6 _ rfl)
    (all_cons (fun _ c h => by cases h; exact obeys_autopartLines_7 _ rfl)
    (all_cons (fun _ c h => by cases h; exact obeys_autopartLines_7 _ rfl)
    (all_cons (fun _ c h => by cases h; exact obeys_autopartLines_7 _ rfl)
    (all_cons (fun _ c h => by cases h; exact obeys_autopartLines_8 _ rfl)
    (all_cons (fun _ c h => by cases h; exact obeys_autopartLines_8 _ rfl)
    (all_cons (fun _ c h => by cases h; exact obeys_autopartLines_8 _ rfl)
    (all_cons (fun _ c h => by cases h; exact obeys_autopartLines_9 _ rfl)
    (all_cons (fun _ c h => by cases h; exact obeys_autopartLines_9 _ rfl)
    (all_cons (fun _ c h => by cases h; exact obeys_autopartLines_9 _ rfl)
    (all_cons (fun _ c h => by cases h; exact obeys_autopartLines_9 _ rfl)
    (all_cons (fun _ c h => by cases h; exact obeys_autopartLines_9 _ rfl)
    (all_cons (fun _ c h => by cases h; exact obeys_autopartLines_9 _ rfl)
    (all_cons (fun _ c h => by cases h; exact obeys_autopartLines_10 _ rfl)
    (all_cons (fun _ c h => by cases h; exact obeys_autopartLines_10 _ rfl)
    (all_cons (fun _ c h => by cases h; exact obeys_autopartLines_0 _ rfl)
    (all_cons (fun _ c h => by cases h; exact obeys_autopartLines_10 _ rfl)
    (all_cons (fun _ c h => by cases h; exact obeys_autopartLines_10 _ rfl)
    (all_cons (fun _ c h => by cases h; exact obeys_autopartLines_10 _ rfl)
    (all_cons (fun _ c h => by cases h; exact obeys_autopartLines_10 _ rfl)
    (all_cons (fun _ c h => by cases h; exact obeys_autopartLines_10 _ rfl)
    (all_cons (fun _ c h => by cases h; exact obeys_autopartLines_10 _ rfl)
    (all_cons (fun _ c h => by cases h; exact obeys_autopartLines_0 _ rfl)
    (all_cons (fun _ c h => by cases h; exact obeys_autopartLines_11 _ rfl)
    (all_cons (fun _ c h => by cases h; exact obeys_autopartLines_12 _ rfl)
    (all_cons (fun _ c h => by cases h; exact obeys_autopartLines_13 _ rfl) (List.forall_mem_nil _)))))))))))))))))))))))))))))))))))))))

def obeys_bootloaderLines_0_object (_ : Nat) : Ns := [(c!"driveorder", .list []), (c!"appendLine", .str c!""), (c!"forceLBA", .bool false), (c!"location", .str c!"mbr"), (c!"md5pass", .str c!""), (c!"password", .str c!""), (c!"upgrade", .bool false), (c!"timeout", .none), (c!"default", .str c!"")]

theorem obeys_bootloaderLines_0_base : Command.FirstBase (F8_Bootloader.cls) c!"bootloader" [] obeys_bootloaderLines_0_object := by
  intro b b' hb hb' line l; kernel_rfl

theorem obeys_bootloaderLines_0_start : Command.FirstStart (F8_Bootloader.cls) obeys_bootloaderLines_0_object (bootloaderLines.start.getD 0 ([], [])).2 := fun _ => .inr ⟨fun _ => rfl, by kernel_rfl⟩

theorem obeys_bootloaderLines_0_lines : ∀ i ∈ [13, 15], Command.FirstLine (F8_Bootloader.cls) c!"bootloader" [] obeys_bootloaderLines_0_object (bootloaderLines.lines.getD i noLine) :=
  (all_cons (by intro b b' hb hb' x hx line l; kernel_rfl)
    (all_cons (by intro b b' hb hb' x hx line l; (cases x with | nil => exact absurd rfl hx | cons a x => kernel_rfl))
    (List.forall_mem_nil _)))

theorem obeys_bootloaderLines_0 : ∀ v, [Version.F8, Version.F9, Version.F10, Version.F11].contains v = true → Command.Obeys (F8_Bootloader.cls) bootloaderLines v :=
  obeys_of obeys_bootloaderLines_0_object [0] [13, 15] (obeys_bootloaderLines_0_base) (all_cons obeys_bootloaderLines_0_start (List.forall_mem_nil _)) (obeys_bootloaderLines_0_lines) (by decide +kernel)

def obeys_bootloaderLines_1_object (_ : Nat) : Ns := [(c!"driveorder", .list []), (c!"appendLine", .str c!""), (c!"forceLBA", .bool false), (c!"location", .str c!"mbr"), (c!"md5pass", .str c!""), (c!"password", .str c!""), (c!"upgrade", .bool false), (c!"timeout", .none), (c!"default", .str c!"")]

theorem obeys_bootloaderLines_1_base : Command.FirstBase (F12_Bootloader.cls) c!"bootloader" [] obeys_bootloaderLines_1_object := by
  intro b b' hb hb' line l; kernel_rfl

theorem obeys_bootloaderLines_1_start : Command.FirstStart (F12_Bootloader.cls) obeys_bootloaderLines_1_object (bootloaderLines.start.getD 0 ([], [])).2 := fun _ => .inr ⟨fun _ => rfl, by kernel_rfl⟩

theorem obeys_bootloaderLines_1_lines : ∀ i ∈ [17], Command.FirstLine (F12_Bootloader.cls) c!"bootloader" [] obeys_bootloaderLines_1_object (bootloaderLines.lines.getD i noLine) :=
  (all_cons (by intro b b' hb hb' x hx line l; kernel_rfl)
    (List.forall_mem_nil _))

theorem obeys_bootloaderLines_1 : ∀ v, [Version.F12, Version.F13].contains v = true → Command.Obeys (F12_Bootloader.cls) bootloaderLines v :=
  obeys_of obeys_bootloaderLines_1_object [0] [17] (obeys_bootloaderLines_1_base) (all_cons obeys_bootloaderLines_1_start (List.forall_mem_nil _)) (obeys_bootloaderLines_1_lines) (by decide +kernel)

def obeys_bootloaderLines_2_object (_ : Nat) : Ns := [(c!"driveorder", .list []), (c!"appendLine", .str c!""), (c!"location", .str c!"mbr"), (c!"md5pass", .str c!""), (c!"password", .str c!""), (c!"upgrade", .bool false), (c!"timeout", .none), (c!"default", .str c!"")]

theorem obeys_bootloaderLines_2_base : Command.FirstBase (F14_Bootloader.cls) c!"bootloader" [] obeys_bootloaderLines_2_object := by
  intro b b' hb hb' line l; kernel_rfl

theorem obeys_bootloaderLines_2_start : Command.FirstStart (F14_Bootloader.cls) obeys_bootloaderLines_2_object (bootloaderLines.start.getD 0 ([], [])).2 := fun _ => .inr ⟨fun _ => rfl, by kernel_rfl⟩

theorem obeys_bootloaderLines_2_lines : ∀ i ∈ [5, 8, 17], Command.FirstLine (F14_Bootloader.cls) c!"bootloader" [] obeys_bootloaderLines_2_object (bootloaderLines.lines.getD i noLine) :=
  (all_cons (by intro b b' hb hb' x hx line l; kernel_rfl)
    (all_cons (by intro b b' hb hb' x hx line l; (cases x with | nil => exact absurd rfl hx | cons a x => kernel_rfl))
    (all_cons (by intro b b' hb hb' x hx line l; kernel_rfl)
    (List.forall_mem_nil _))))

theorem obeys_bootloaderLines_2 : ∀ v, [Version.F14].contains v = true → Command.Obeys (F14_Bootloader.cls) bootloaderLines v :=
  obeys_of obeys_bootloaderLines_2_object [0] [5, 8, 17] (obeys_bootloaderLines_2_base) (all_cons obeys_bootloaderLines_2_start (List.forall_mem_nil _)) (obeys_bootloaderLines_2_lines) (by decide +kernel)

def obeys_bootloaderLines_3_object (_ : Nat) : Ns := [(c!"driveorder", .list []), (c!"appendLine", .str c!""), (c!"location", .str c!"mbr"), (c!"md5pass", .str c!""), (c!"password", .str c!""), (c!"upgrade", .bool false), (c!"timeout", .none), (c!"default", .str c!""), (c!"isCrypted", .bool false)]

theorem obeys_bootloaderLines_3_base : Command.FirstBase (F15_Bootloader.cls) c!"bootloader" [] obeys_bootloaderLines_3_object := by
  intro b b' hb hb' line l; kernel_rfl

theorem obeys_bootloaderLines_3_start : Command.FirstStart (F15_Bootloader.cls) obeys_bootloaderLines_3_object (bootloaderLines.start.getD 0 ([], [])).2 := fun _ => .inr ⟨fun _ => rfl, by kernel_rfl⟩

theorem obeys_bootloaderLines_3_lines : ∀ i ∈ [9, 18, 19], Command.FirstLine (F15_Bootloader.cls) c!"bootloader" [] obeys_bootloaderLines_3_object (bootloaderLines.lines.getD i noLine) :=
  (all_cons (by intro b b' hb hb' x hx line l; (cases x with | nil => exact absurd rfl hx | cons a x => kernel_rfl))
    (all_cons (by intro b b' hb hb' x hx line l; kernel_rfl)
    (all_cons (by intro b b' hb hb' x hx line l; kernel_rfl)
    (List.forall_mem_nil _))))

theorem obeys_bootloaderLines_3 : ∀ v, [Version.F15, Version.F16].contains v = true → Command.Obeys (F15_Bootloader.cls) bootloaderLines v :=
  obeys_of obeys_bootloaderLines_3_object [0] [9, 18, 19] (obeys_bootloaderLines_3_base) (all_cons obeys_bootloaderLines_3_start (List.forall_mem_nil _)) (obeys_bootloaderLines_3_lines) (by decide +kernel)

def obeys_bootloaderLines_4_object (_ : Nat) : Ns := [(c!"driveorder", .list []), (c!"appendLine", .str c!""), (c!"location", .str c!"mbr"), (c!"md5pass", .str c!""), (c!"password", .str c!""), (c!"upgrade", .bool false), (c!"timeout", .none), (c!"default", .str c!""), (c!"isCrypted", .bool false), (c!"bootDrive", .str c!"")]

theorem obeys_bootloaderLines_4_base : Command.FirstBase (F17_Bootloader.cls) c!"bootloader" [] obeys_bootloaderLines_4_object := by
  intro b b' hb hb' line l; kernel_rfl

theorem obeys_bootloaderLines_4_start : Command.FirstStart (F17_Bootloader.cls) obeys_bootloaderLines_4_object (bootloaderLines.start.getD 0 ([], [])).2 := fun _ => .inr ⟨fun _ => rfl, by kernel_rfl⟩

theorem obeys_bootloaderLines_4_lines : ∀ i ∈ [20, 21], Command.FirstLine (F17_Bootloader.cls) c!"bootloader" [] obeys_bootloaderLines_4_object (bootloaderLines.lines.getD i noLine) :=
  (all_cons (by intro b b' hb hb' x hx line l; kernel_rfl)
    (all_cons (by intro b b' hb hb' x hx line l; kernel_rfl)
    (List.forall_mem_nil _)))

theorem obeys_bootloaderLines_4 : ∀ v, [Version.F17].contains v = true → Command.Obeys (F17_Bootloader.cls) bootloaderLines v :=
  obeys_of obeys_bootloaderLines_4_object [0] [20, 21] (obeys_bootloaderLines_4_base) (all_cons obeys_bootloaderLines_4_start (List.forall_mem_nil _)) (obeys_bootloaderLines_4_lines) (by decide +kernel)

def obeys_bootloaderLines_5_object (_ : Nat) : Ns := [(c!"driveorder", .list []), (c!"appendLine", .str c!""), (c!"location", .str c!"mbr"), (c!"md5pass", .str c!""), (c!"password", .str c!""), (c!"upgrade", .bool false), (c!"timeout", .none), (c!"default", .str c!""), (c!"isCrypted", .bool false), (c!"bootDrive", .str c!""), (c!"leavebootorder", .bool false)]

theorem obeys_bootloaderLines_5_base : Command.FirstBase (F18_Bootloader.cls) c!"bootloader" [] obeys_bootloaderLines_5_object := by
  intro b b' hb hb' line l; kernel_rfl

theorem obeys_bootloaderLines_5_start : Command.FirstStart (F18_Bootloader.cls) obeys_bootloaderLines_5_object (bootloaderLines.start.getD 0 ([], [])).2 := fun _ => .inr ⟨fun _ => rfl, by kernel_rfl⟩

theorem obeys_bootloaderLines_5_lines : ∀ i ∈ [22, 23], Command.FirstLine (F18_Bootloader.cls) c!"bootloader" [] obeys_bootloaderLines_5_object (bootloaderLines.lines.getD i noLine) :=
  (all_cons (by intro b b' hb hb' x hx line l; kernel_rfl)
    (all_cons (by intro b b' hb hb' x hx line l; kernel_rfl)
    (List.forall_mem_nil _)))

theorem obeys_bootloaderLines_5 : ∀ v, [Version.F18].contains v = true → Command.Obeys (F18_Bootloader.cls) bootloaderLines v :=
  obeys_of obeys_bootloaderLines_5_object [0] [22, 23] (obeys_bootloaderLines_5_base) (all_cons obeys_bootloaderLines_5_start (List.forall_mem_nil _)) (obeys_bootloaderLines_5_lines) (by decide +kernel)

def obeys_bootloaderLines_6_object (_ : Nat) : Ns := [(c!"driveorder", .list []), (c!"appendLine", .str c!""), (c!"location", .str c!"mbr"), (c!"md5pass", .str c!""), (c!"password", .str c!""), (c!"upgrade", .bool false), (c!"timeout", .none), (c!"default", .str c!""), (c!"isCrypted", .bool false), (c!"bootDrive", .str c!""), (c!"leavebootorder", .bool false), (c!"extlinux", .bool false)]

theorem obeys_bootloaderLines_6_base : Command.FirstBase (F19_Bootloader.cls) c!"bootloader" [] obeys_bootloaderLines_6_object := by
  intro b b' hb hb' line l; kernel_rfl

theorem obeys_bootloaderLines_6_start : Command.FirstStart (F19_Bootloader.cls) obeys_bootloaderLines_6_object (bootloaderLines.start.getD 0 ([], [])).2 := fun _ => .inr ⟨fun _ => rfl, by kernel_rfl⟩

theorem obeys_bootloaderLines_6_lines : ∀ i ∈ [24, 25, 27], Command.FirstLine (F19_Bootloader.cls) c!"bootloader" [] obeys_bootloaderLines_6_object (bootloaderLines.lines.getD i noLine) :=
  (all_cons (by intro b b' hb hb' x hx line l; kernel_rfl)
    (all_cons (by intro b b' hb hb' x hx line l; kernel_rfl)
    (all_cons (by intro b b' hb hb' x hx line l; kernel_rfl)
    (List.forall_mem_nil _))))

theorem obeys_bootloaderLines_6 : ∀ v, [Version.F19, Version.F20].contains v = true → Command.Obeys (F19_Bootloader.cls) bootloaderLines v :=
  obeys_of obeys_bootloaderLines_6_object [0] [24, 25, 27] (obeys_bootloaderLines_6_base) (all_cons obeys_bootloaderLines_6_start (List.forall_mem_nil _)) (obeys_bootloaderLines_6_lines) (by decide +kernel)

def obeys_bootloaderLines_7_object (_ : Nat) : Ns := [(c!"driveorder", .list []), (c!"appendLine", .str c!""), (c!"location", .str c!"mbr"), (c!"md5pass", .str c!""), (c!"password", .str c!""), (c!"upgrade", .bool false), (c!"timeout", .none), (c!"default", .str c!""), (c!"isCrypted", .bool false), (c!"bootDrive", .str c!""), (c!"leavebootorder", .bool false), (c!"extlinux", .bool false), (c!"disabled", .bool false), (c!"nombr", .bool false)]

theorem obeys_bootloaderLines_7_base : Command.FirstBase (F21_Bootloader.cls) c!"bootloader" [] obeys_bootloaderLines_7_object := by
  intro b b' hb hb' line l; kernel_rfl

theorem obeys_bootloaderLines_7_start : Command.FirstStart (F21_Bootloader.cls) obeys_bootloaderLines_7_object (bootloaderLines.start.getD 0 ([], [])).2 := fun _ => .inr ⟨fun _ => rfl, by kernel_rfl⟩

theorem obeys_bootloaderLines_7_lines : ∀ i ∈ [26, 28], Command.FirstLine (F21_Bootloader.cls) c!"bootloader" [] obeys_bootloaderLines_7_object (bootloaderLines.lines.getD i noLine) :=
  (all_cons (by intro b b' hb hb' x hx line l; kernel_rfl)
    (all_cons (by intro b b' hb hb' x hx line l; kernel_rfl)
    (List.forall_mem_nil _)))

theorem obeys_bootloaderLines_7 : ∀ v, [Version.F21, Version.F22, Version.F23, Version.F24, Version.F25, Version.F26, Version.F27, Version.F28].contains v = true → Command.Obeys (F21_Bootloader.cls) bootloaderLines v :=
  obeys_of obeys_bootloaderLines_7_object [0] [26, 28] (obeys_bootloaderLines_7_base) (all_cons obeys_bootloaderLines_7_start (List.forall_mem_nil _)) (obeys_bootloaderLines_7_lines) (by decide +kernel)

def obeys_bootloaderLines_8_object (_ : Nat) : Ns := [(c!"driveorder", .list []), (c!"appendLine", .str c!""), (c!"location", .str c!"mbr"), (c!"md5pass", .str c!""), (c!"password", .str c!""), (c!"upgrade", .bool false), (c!"timeout", .none), (c!"default", .str c!""), (c!"isCrypted", .bool false), (c!"bootDrive", .str c!""), (c!"leavebootorder", .bool false), (c!"extlinux", .bool false), (c!"disabled", .bool false), (c!"nombr", .bool false)]

theorem obeys_bootloaderLines_8_base : Command.FirstBase (F29_Bootloader.cls) c!"bootloader" [] obeys_bootloaderLines_8_object := by
  intro b b' hb hb' line l; kernel_rfl

theorem obeys_bootloaderLines_8_start : Command.FirstStart (F29_Bootloader.cls) obeys_bootloaderLines_8_object (bootloaderLines.start.getD 0 ([], [])).2 := fun _ => .inr ⟨fun _ => rfl, by kernel_rfl⟩

theorem obeys_bootloaderLines_8_lines : ∀ i ∈ [], Command.FirstLine (F29_Bootloader.cls) c!"bootloader" [] obeys_bootloaderLines_8_object (bootloaderLines.lines.getD i noLine) :=
  (List.forall_mem_nil _)

theorem obeys_bootloaderLines_8 : ∀ v, [Version.F29, Version.F30, Version.F31, Version.F32, Version.F33].contains v = true → Command.Obeys (F29_Bootloader.cls) bootloaderLines v :=
  obeys_of obeys_bootloaderLines_8_object [0] [] (obeys_bootloaderLines_8_base) (all_cons obeys_bootloaderLines_8_start (List.forall_mem_nil _)) (obeys_bootloaderLines_8_lines) (by decide +kernel)

def obeys_bootloaderLines_9_object (_ : Nat) : Ns := [(c!"driveorder", .list []), (c!"appendLine", .str c!""), (c!"location", .str c!"mbr"), (c!"md5pass", .str c!""), (c!"password", .str c!""), (c!"upgrade", .bool false), (c!"timeout", .none), (c!"default", .str c!""), (c!"isCrypted", .bool false), (c!"bootDrive", .str c!""), (c!"leavebootorder", .bool false), (c!"extlinux", .bool false), (c!"disabled", .bool false), (c!"nombr", .bool false)]

theorem obeys_bootloaderLines_9_base : Command.FirstBase (F34_Bootloader.cls) c!"bootloader" [] obeys_bootloaderLines_9_object := by
  intro b b' hb hb' line l; kernel_rfl

theorem obeys_bootloaderLines_9_start : Command.FirstStart (F34_Bootloader.cls) obeys_bootloaderLines_9_object (bootloaderLines.start.getD 0 ([], [])).2 := fun _ => .inr ⟨fun _ => rfl, by kernel_rfl⟩

theorem obeys_bootloaderLines_9_lines : ∀ i ∈ [0, 1, 2, 3, 4, 7, 9, 10, 12, 13, 15, 18, 20, 22, 24, 26, 28], Command.FirstLine (F34_Bootloader.cls) c!"bootloader" [] obeys_bootloaderLines_9_object (bootloaderLines.lines.getD i noLine) :=
  (all_cons (by intro b b' hb hb' x hx line l; (cases x with | nil => exact absurd rfl hx | cons a x => kernel_rfl))
    (all_cons (by intro b b' hb hb' x hx line l; kernel_rfl)
    (all_cons (by intro b b' hb hb' x hx line l; kernel_rfl)
    (all_cons (by intro b b' hb hb' x hx line l; kernel_rfl)
    (all_cons (by intro b b' hb hb' x hx line l; kernel_rfl)
    (all_cons (by intro b b' hb hb' x hx line l; (cases x with | nil => exact absurd rfl hx | cons a x => kernel_rfl))
    (all_cons (by intro b b' hb hb' x hx line l; (cases x with | nil => exact absurd rfl hx | cons a x => kernel_rfl))
    (all_cons (by intro b b' hb hb' x hx line l; kernel_rfl)
    (all_cons (by intro b b' hb hb' x hx line l; (cases x with | nil => exact absurd rfl hx | cons a x => kernel_rfl))
    (all_cons (by intro b b' hb hb' x hx line l; kernel_rfl)
    (all_cons (by intro b b' hb hb' x hx line l; (cases x with | nil => exact absurd rfl hx | cons a x => kernel_rfl))
    (all_cons (by intro b b' hb hb' x hx line l; kernel_rfl)
    (all_cons (by intro b b' hb hb' x hx line l; kernel_rfl)
    (all_cons (by intro b b' hb hb' x hx line l; kernel_rfl)
    (all_cons (by intro b b' hb hb' x hx line l; kernel_rfl)
    (all_cons (by intro b b' hb hb' x hx line l; kernel_rfl)
    (all_cons (by intro b b' hb hb' x hx line l; kernel_rfl)
    (List.forall_mem_nil _))))))))))))))))))

theorem obeys_bootloaderLines_9 : ∀ v, [Version.F34].contains v = true → Command.Obeys (F34_Bootloader.cls) bootloaderLines v :=
  obeys_of obeys_bootloaderLines_9_object [0] [0, 1, 2, 3, 4, 7, 9, 10, 12, 13, 15, 18, 20, 22, 24, 26, 28] (obeys_bootloaderLines_9_base) (all_cons obeys_bootloaderLines_9_start (List.forall_mem_nil _)) (obeys_bootloaderLines_9_lines) (by decide +kernel)

def obeys_bootloaderLines_10_object (_ : Nat) : Ns := [(c!"driveorder", .list []), (c!"appendLine", .str c!""), (c!"forceLBA", .bool false), (c!"location", .str c!"mbr"), (c!"md5pass", .str c!""), (c!"password", .str c!""), (c!"upgrade", .bool false)]

theorem obeys_bootloaderLines_10_base : Command.FirstBase (FC4_Bootloader.cls) c!"bootloader" [] obeys_bootloaderLines_10_object := by
  intro b b' hb hb' line l; kernel_rfl

theorem obeys_bootloaderLines_10_start : Command.FirstStart (FC4_Bootloader.cls) obeys_bootloaderLines_10_object (bootloaderLines.start.getD 0 ([], [])).2 := fun _ => .inr ⟨fun _ => rfl, by kernel_rfl⟩

theorem obeys_bootloaderLines_10_lines : ∀ i ∈ [14, 16, 29, 31, 33, 35], Command.FirstLine (FC4_Bootloader.cls) c!"bootloader" [] obeys_bootloaderLines_10_object (bootloaderLines.lines.getD i noLine) :=
  (all_cons (by intro b b' hb hb' x hx line l; kernel_rfl)
    (all_cons (by intro b b' hb hb' x hx line l; (cases x with | nil => exact absurd rfl hx | cons a x => kernel_rfl))
    (all_cons (by intro b b' hb hb' x hx line l; kernel_rfl)
    (all_cons (by intro b b' hb hb' x hx line l; kernel_rfl)
    (all_cons (by intro b b' hb hb' x hx line l; kernel_rfl)
    (all_cons (by intro b b' hb hb' x hx line l; (cases x with | nil => exact absurd rfl hx | cons a x => kernel_rfl))
    (List.forall_mem_nil _)))))))

theorem obeys_bootloaderLines_10 : ∀ v, [Version.FC4, Version.FC5, Version.FC6, Version.F7].contains v = true → Command.Obeys (FC4_Bootloader.cls) bootloaderLines v :=
  obeys_of obeys_bootloaderLines_10_object [0] [14, 16, 29, 31, 33, 35] (obeys_bootloaderLines_10_base) (all_cons obeys_bootloaderLines_10_start (List.forall_mem_nil _)) (obeys_bootloaderLines_10_lines) (by decide +kernel)

def obeys_bootloaderLines_11_object (_ : Nat) : Ns := [(c!"driveorder", .list []), (c!"appendLine", .str c!""), (c!"forceLBA", .bool false), (c!"linear", .bool true), (c!"location", .str c!"mbr"), (c!"md5pass", .str c!""), (c!"password", .str c!""), (c!"upgrade", .bool false), (c!"useLilo", .bool false)]

theorem obeys_bootloaderLines_11_base : Command.FirstBase (FC3_Bootloader.cls) c!"bootloader" [] obeys_bootloaderLines_11_object := by
  intro b b' hb hb' line l; kernel_rfl

theorem obeys_bootloaderLines_11_start : Command.FirstStart (FC3_Bootloader.cls) obeys_bootloaderLines_11_object (bootloaderLines.start.getD 0 ([], [])).2 := fun _ => .inr ⟨fun _ => rfl, by kernel_rfl⟩

theorem obeys_bootloaderLines_11_lines : ∀ i ∈ [0, 1, 2, 3, 4, 6, 7, 8, 11, 12, 30, 32, 34], Command.FirstLine (FC3_Bootloader.cls) c!"bootloader" [] obeys_bootloaderLines_11_object (bootloaderLines.lines.getD i noLine) :=
  (all_cons (by intro b b' hb hb' x hx line l; (cases x with | nil => exact absurd rfl hx | cons a x => kernel_rfl))
    (all_cons (by intro b b' hb hb' x hx line l; kernel_rfl)
    (all_cons (by intro b b' hb hb' x hx line l; kernel_rfl)
    (all_cons (by intro b b' hb hb' x hx line l; kernel_rfl)
    (all_cons (by intro b b' hb hb' x hx line l; kernel_rfl)
    (all_cons (by intro b b' hb hb' x hx line l; kernel_rfl)
    (all_cons (by intro b b' hb hb' x hx line l; (cases x with | nil => exact absurd rfl hx | cons a x => kernel_rfl))
    (all_cons (by intro b b' hb hb' x hx line l; (cases x with | nil => exact absurd rfl hx | cons a x => kernel_rfl))
    (all_cons (by intro b b' hb hb' x hx line l; kernel_rfl)
    (all_cons (by intro b b' hb hb' x hx line l; (cases x with | nil => exact absurd rfl hx | cons a x => kernel_rfl))
    (all_cons (by intro b b' hb hb' x hx line l; kernel_rfl)
    (all_cons (by intro b b' hb hb' x hx line l; kernel_rfl)
    (all_cons (by intro b b' hb hb' x hx line l; kernel_rfl)
    (List.forall_mem_nil _))))))))))))))

theorem obeys_bootloaderLines_11 : ∀ v, [Version.RHEL3, Version.FC3, Version.RHEL4].contains v = true → Command.Obeys (FC3_Bootloader.cls) bootloaderLines v :=
  obeys_of obeys_bootloaderLines_11_object [0] [0, 1, 2, 3, 4, 6, 7, 8, 11, 12, 30, 32, 34] (obeys_bootloaderLines_11_base) (all_cons obeys_bootloaderLines_11_start (List.forall_mem_nil _)) (obeys_bootloaderLines_11_lines) (by decide +kernel)

def obeys_bootloaderLines_12_object (_ : Nat) : Ns := [(c!"driveorder", .list []), (c!"appendLine", .str c!""), (c!"forceLBA", .bool false), (c!"location", .str c!"mbr"), (c!"md5pass", .str c!""), (c!"password", .str c!""), (c!"upgrade", .bool false), (c!"hvArgs", .str c!"")]

theorem obeys_bootloaderLines_12_base : Command.FirstBase (RHEL5_Bootloader.cls) c!"bootloader" [] obeys_bootloaderLines_12_object := by
  intro b b' hb hb' line l; kernel_rfl

theorem obeys_bootloaderLines_12_start : Command.FirstStart (RHEL5_Bootloader.cls) obeys_bootloaderLines_12_object (bootloaderLines.start.getD 0 ([], [])).2 := fun _ => .inr ⟨fun _ => rfl, by kernel_rfl⟩

theorem obeys_bootloaderLines_12_lines : ∀ i ∈ [36], Command.FirstLine (RHEL5_Bootloader.cls) c!"bootloader" [] obeys_bootloaderLines_12_object (bootloaderLines.lines.getD i noLine) :=
  (all_cons (by intro b b' hb hb' x hx line l; (cases x with | nil => exact absurd rfl hx | cons a x => kernel_rfl))
    (List.forall_mem_nil _))

theorem obeys_bootloaderLines_12 : ∀ v, [Version.RHEL5].contains v = true → Command.Obeys (RHEL5_Bootloader.cls) bootloaderLines v :=
  obeys_of obeys_bootloaderLines_12_object [0] [36] (obeys_bootloaderLines_12_base) (all_cons obeys_bootloaderLines_12_start (List.forall_mem_nil _)) (obeys_bootloaderLines_12_lines) (by decide +kernel)

def obeys_bootloaderLines_13_object (_ : Nat) : Ns := [(c!"driveorder", .list []), (c!"appendLine", .str c!""), (c!"forceLBA", .bool false), (c!"location", .str c!"mbr"), (c!"md5pass", .str c!""), (c!"password", .str c!""), (c!"upgrade", .bool false), (c!"timeout", .none), (c!"default", .str c!""), (c!"isCrypted", .bool false)]

theorem obeys_bootloaderLines_13_base : Command.FirstBase (RHEL6_Bootloader.cls) c!"bootloader" [] obeys_bootloaderLines_13_object := by
  intro b b' hb hb' line l; kernel_rfl

theorem obeys_bootloaderLines_13_start : Command.FirstStart (RHEL6_Bootloader.cls) obeys_bootloaderLines_13_object (bootloaderLines.start.getD 0 ([], [])).2 := fun _ => .inr ⟨fun _ => rfl, by kernel_rfl⟩

theorem obeys_bootloaderLines_13_lines : ∀ i ∈ [9, 18], Command.FirstLine (RHEL6_Bootloader.cls) c!"bootloader" [] obeys_bootloaderLines_13_object (bootloaderLines.lines.getD i noLine) :=
  (all_cons (by intro b b' hb hb' x hx line l; (cases x with | nil => exact absurd rfl hx | cons a x => kernel_rfl))
    (all_cons (by intro b b' hb hb' x hx line l; kernel_rfl)
    (List.forall_mem_nil _)))

theorem obeys_bootloaderLines_13 : ∀ v, [Version.RHEL6].contains v = true → Command.Obeys (RHEL6_Bootloader.cls) bootloaderLines v :=
  obeys_of obeys_bootloaderLines_13_object [0] [9, 18] (obeys_bootloaderLines_13_base) (all_cons obeys_bootloaderLines_13_start (List.forall_mem_nil _)) (obeys_bootloaderLines_13_lines) (by decide +kernel)

def obeys_bootloaderLines_14_object (_ : Nat) : Ns := [(c!"driveorder", .list []), (c!"appendLine", .str c!""), (c!"location", .str c!"mbr"), (c!"md5pass", .str c!""), (c!"password", .str c!""), (c!"upgrade", .bool false), (c!"timeout", .none), (c!"default", .str c!""), (c!"isCrypted", .bool false), (c!"bootDrive", .str c!""), (c!"leavebootorder", .bool false), (c!"extlinux", .bool false), (c!"disabled", .bool false), (c!"nombr", .bool false)]

theorem obeys_bootloaderLines_14_base : Command.FirstBase (RHEL7_Bootloader.cls) c!"bootloader" [] obeys_bootloaderLines_14_object := by
  intro b b' hb hb' line l; kernel_rfl

theorem obeys_bootloaderLines_14_start : Command.FirstStart (RHEL7_Bootloader.cls) obeys_bootloaderLines_14_object (bootloaderLines.start.getD 0 ([], [])).2 := fun _ => .inr ⟨fun _ => rfl, by kernel_rfl⟩

theorem obeys_bootloaderLines_14_lines : ∀ i ∈ [], Command.FirstLine (RHEL7_Bootloader.cls) c!"bootloader" [] obeys_bootloaderLines_14_object (bootloaderLines.lines.getD i noLine) :=
  (List.forall_mem_nil _)

theorem obeys_bootloaderLines_14 : ∀ v, [Version.RHEL7].contains v = true → Command.Obeys (RHEL7_Bootloader.cls) bootloaderLines v :=
  obeys_of obeys_bootloaderLines_14_object [0] [] (obeys_bootloaderLines_14_base) (all_cons obeys_bootloaderLines_14_start (List.forall_mem_nil _)) (obeys_bootloaderLines_14_lines) (by decide +kernel)

def obeys_bootloaderLines_15_object (_ : Nat) : Ns := [(c!"driveorder", .list []), (c!"appendLine", .str c!""), (c!"location", .str c!"mbr"), (c!"md5pass", .str c!""), (c!"password", .str c!""), (c!"upgrade", .bool false), (c!"timeout", .none), (c!"default", .str c!""), (c!"isCrypted", .bool false), (c!"bootDrive", .str c!""), (c!"leavebootorder", .bool false), (c!"extlinux", .bool false), (c!"disabled", .bool false), (c!"nombr", .bool false)]

theorem obeys_bootloaderLines_15_base : Command.FirstBase (RHEL8_Bootloader.cls) c!"bootloader" [] obeys_bootloaderLines_15_object := by
  intro b b' hb hb' line l; kernel_rfl

theorem obeys_bootloaderLines_15_start : Command.FirstStart (RHEL8_Bootloader.cls) obeys_bootloaderLines_15_object (bootloaderLines.start.getD 0 ([], [])).2 := fun _ => .inr ⟨fun _ => rfl, by kernel_rfl⟩

theorem obeys_bootloaderLines_15_lines : ∀ i ∈ [], Command.FirstLine (RHEL8_Bootloader.cls) c!"bootloader" [] obeys_bootloaderLines_15_object (bootloaderLines.lines.getD i noLine) :=
  (List.forall_mem_nil _)

theorem obeys_bootloaderLines_15 : ∀ v, [Version.RHEL8].contains v = true → Command.Obeys (RHEL8_Bootloader.cls) bootloaderLines v :=
  obeys_of obeys_bootloaderLines_15_object [0] [] (obeys_bootloaderLines_15_base) (all_cons obeys_bootloaderLines_15_start (List.forall_mem_nil _)) (obeys_bootloaderLines_15_lines) (by decide +kernel)

theorem obeys_bootloaderLines : bootloaderLines.Obeyed := by
  unfold CommandLines.Obeyed commandMaps
  exact (all_cons (fun _ c h => by cases h; exact obeys_bootloaderLines_0 _ rfl)
    (all_cons (fun _ c h => by cases h; exact obeys_bootloaderLines_0 _ rfl)
    (all_cons (fun _ c h => by cases h; exact obeys_bootloaderLines_1 _ rfl)
    (all_cons (fun _ c h => by cases h; exact obeys_bootloaderLines_1 _ rfl)
    (all_cons (fun _ c h => by cases h; exact obeys_bootloaderLines_2 _ rfl)
    (all_cons (fun _ c h => by cases h; exact obeys_bootloaderLines_3 _ rfl)
    (all_cons (fun _ c h => by cases h; exact obeys_bootloaderLines_3 _ rfl)
    (all_cons (fun _ c h => by cases h; exact obeys_bootloaderLines_4 _ rfl)
    (all_cons (fun _ c h => by cases h; exact obeys_bootloaderLines_5 _ rfl)
    (all_cons (fun _ c h => by cases h; exact obeys_bootloaderLines_6 _ rfl)
    (all_cons (fun _ c h => by cases h; exact obeys_bootloaderLines_6 _ rfl)
    (all_cons (fun _ c h => by cases h; exact obeys_bootloaderLines_7 _ rfl)
    (all_cons (fun _ c h => by cases h; exact obeys_bootloaderLines_7 _ rfl)
    (all_cons (fun _ c h => by cases h; exact obeys_bootloaderLines_7 _ rfl)
    (all_cons (fun _ c h => by cases h; exact obeys_bootloaderLines_7 _ rfl)
    (all_cons (fun _ c h => by cases h; exact obeys_bootloaderLines_7 _ rfl)
    (all_cons (fun _ c h => by cases h; exact obeys_bootloaderLines_7 _ rfl)
    (all_cons (fun _ c h => by cases h; exact obeys_bootloaderLines_7 _ rfl)
    (all_cons (fun _ c h => by cases h; exact obeys_bootloaderLines_7 _ rfl)
    (all_cons (fun _ c h => by cases h; exact obeys_bootloaderLines_8 _ rfl)
    (all_cons (fun _ c h => by cases h; exact obeys_bootloaderLines_8 _ rfl)
    (all_cons (fun _ c h => by cases h; exact obeys_bootloaderLines_8 _ rfl)
    (all_cons (fun _ c h => by cases h; exact obeys_bootloaderLines_8 _ rfl)
    (all_cons (fun _ c h => by cases h; exact obeys_bootloaderLines_8 _ rfl)
    (all_cons (fun _ c h => by cases h; exact obeys_bootloaderLines_9 _ rfl)
    (all_cons (fun _ c h => by cases h; exact obeys_bootloaderLines_10 _ rfl)
    (all_cons (fun _ c h => by cases h; exact obeys_bootloaderLines_0 _ rfl)
    (all_cons (fun _ c h => by cases h; exact obeys_bootloaderLines_0 _ rfl)
    (all_cons (fun _ c h => by cases h; exact obeys_bootloaderLines_11 _ rfl)
    (all_cons (fun _ c h => by cases h; exact obeys_bootloaderLines_10 _ rfl)
    (all_cons (fun _ c h => by cases h; exact obeys_bootloaderLines_10 _ rfl)
    (all_cons (fun _ c h => by cases h; exact obeys_bootloaderLines_10 _ rfl)
    (all_cons (fun _ c h => by cases h; exact obeys_bootloaderLines_11 _ rfl)
    (all_cons (fun _ c h => by cases h; exact obeys_bootloaderLines_11 _ rfl)
    (all_cons (fun _ c h => by cases h; exact obeys_bootloaderLines_12 _ rfl)
    (all_cons (fun _ c h => by cases h; exact obeys_bootloaderLines_13 _ rfl)
    (all_cons (fun _ c h => by cases h; exact obeys_bootloaderLines_14 _ rfl)
    (all_cons (fun _ c h => by cases h; exact obeys_bootloaderLines_15 _ rfl) (List.forall_mem_nil _)))))))))))))))))))))))))))))))))))))))

def obeys_cmdlineLines_0_object (_ : Nat) : Ns := [(c!"displayMode", .int 0)]

theorem obeys_cmdlineLines_0_base : Command.FirstBase (FC3_DisplayMode.cls) c!"cmdline" [] obeys_cmdlineLines_0_object := by
  intro b b' hb hb' line l; kernel_rfl

theorem obeys_cmdlineLines_0_start : Command.FirstStart (FC3_DisplayMode.cls) obeys_cmdlineLines_0_object (cmdlineLines.start.getD 0 ([], [])).2 := fun _ => .inr ⟨fun _ => rfl, by kernel_rfl⟩

theorem obeys_cmdlineLines_0_lines : ∀ i ∈ [0], Command.FirstLine (FC3_DisplayMode.cls) c!"cmdline" [] obeys_cmdlineLines_0_object (cmdlineLines.lines.getD i noLine) :=
  (all_cons (by intro b b' hb hb' x hx line l; kernel_rfl)
    (List.forall_mem_nil _))

theorem obeys_cmdlineLines_0 : ∀ v, [Version.RHEL3, Version.FC3, Version.RHEL4, Version.FC4, Version.FC5, Version.FC6, Version.RHEL5, Version.F7, Version.F8, Version.F9, Version.F10, Version.F11, Version.F12, Version.F13, Version.RHEL6, Version.F14, Version.F15, Version.F16, Version.F17, Version.F18, Version.F19, Version.F20, Version.F21, Version.RHEL7, Version.F22, Version.F23, Version.F24, Version.F25].contains v = true → Command.Obeys (FC3_DisplayMode.cls) cmdlineLines v :=
  obeys_of obeys_cmdlineLines_0_object [0] [0] (obeys_cmdlineLines_0_base) (all_cons obeys_cmdlineLines_0_start (List.forall_mem_nil _)) (obeys_cmdlineLines_0_lines) (by decide +kernel)

def obeys_cmdlineLines_1_object (_ : Nat) : Ns := [(c!"displayMode", .int 0), (c!"nonInteractive", .bool false)]

theorem obeys_cmdlineLines_1_base : Command.FirstBase (F26_DisplayMode.cls) c!"cmdline" [] obeys_cmdlineLines_1_object := by
  intro b b' hb hb' line l; kernel_rfl

theorem obeys_cmdlineLines_1_start : Command.FirstStart (F26_DisplayMode.cls) obeys_cmdlineLines_1_object (cmdlineLines.start.getD 0 ([], [])).2 := fun _ => .inr ⟨fun _ => rfl, by kernel_rfl⟩

theorem obeys_cmdlineLines_1_lines : ∀ i ∈ [0], Command.FirstLine (F26_DisplayMode.cls) c!"cmdline" [] obeys_cmdlineLines_1_object (cmdlineLines.lines.getD i noLine) :=
  (all_cons (by intro b b' hb hb' x hx line l; kernel_rfl)
    (List.forall_mem_nil _))

theorem obeys_cmdlineLines_1 : ∀ v, [Version.F26, Version.F27, Version.F28, Version.RHEL8, Version.F29, Version.F30, Version.F31, Version.F32, Version.F33, Version.F34].contains v = true → Command.Obeys (F26_DisplayMode.cls) cmdlineLines v :=
  obeys_of obeys_cmdlineLines_1_object [0] [0] (obeys_cmdlineLines_1_base) (all_cons obeys_cmdlineLines_1_start (List.forall_mem_nil _)) (obeys_cmdlineLines_1_lines) (by decide +kernel)

theorem obeys_cmdlineLines : cmdlineLines.Obeyed := by
  unfold CommandLines.Obeyed commandMaps
  exact (all_cons (fun _ c h => by cases h; exact obeys_cmdlineLines_0 _ rfl)
    (all_cons (fun _ c h => by cases h; exact obeys_cmdlineLines_0 _ rfl)
    (all_cons (fun _ c h => by cases h; exact obeys_cmdlineLines_0 _ rfl)
    (all_cons (fun _ c h => by cases h; exact obeys_cmdlineLines_0 _ rfl)
    (all_cons (fun _ c h => by cases h; exact obeys_cmdlineLines_0 _ rfl)
    (all_cons (fun _ c h => by cases h; exact obeys_cmdlineLines_0 _ rfl)
    (all_cons (fun _ c h => by cases h; exact obeys_cmdlineLines_0 _ rfl)
    (all_cons (fun _ c h => by cases h; exact obeys_cmdlineLines_0 _ rfl)
    (all_cons (fun _ c h => by cases h; exact obeys_cmdlineLines_0 _ rfl)
    (all_cons (fun _ c h => by cases h; exact obeys_cmdlineLines_0 _ rfl)
    (all_cons (fun _ c h => by cases h; exact obeys_cmdlineLines_0 _ rfl)
    (all_cons (fun _ c h => by cases h; exact obeys_cmdlineLines_0 _ rfl)
    (all_cons (fun _ c h => by cases h; exact obeys_cmdlineLines_0 _ rfl)
    (all_cons (fun _ c h => by cases h; exact obeys_cmdlineLines_0 _ rfl)
    (all_cons (fun _ c h => by cases h; exact obeys_cmdlineLines_0 _ rfl)
    (all_cons (fun _ c h => by cases h; exact obeys_cmdlineLines_0 _ rfl)
    (all_cons (fun _ c h => by cases h; exact obeys_cmdlineLines_1 _ rfl)
    (all_cons (fun _ c h => by cases h; exact obeys_cmdlineLines_1 _ rfl)
    (all_cons (fun _ c h => by cases h; exact obeys_cmdlineLines_1 _ rfl)
    (all_cons (fun _ c h => by cases h; exact obeys_cmdlineLines_1 _ rfl)
    (all_cons (fun _ c h => by cases h; exact obeys_cmdlineLines_1 _ rfl)
    (all_cons (fun _ c h => by cases h; exact obeys_cmdlineLines_1 _ rfl)
    (all_cons (fun _ c h => by cases h; exact obeys_cmdlineLines_1 _ rfl)
    (all_cons (fun _ c h => by cases h; exact obeys_cmdlineLines_1 _ rfl)
    (all_cons (fun _ c h => by cases h; exact obeys_cmdlineLines_1 _ rfl)
    (all_cons (fun _ c h => by cases h; exact obeys_cmdlineLines_0 _ rfl)
    (all_cons (fun _ c h => by cases h; exact obeys_cmdlineLines_0 _ rfl)
    (all_cons (fun _ c h => by cases h; exact obeys_cmdlineLines_0 _ rfl)
    (all_cons (fun _ c h => by cases h; exact obeys_cmdlineLines_0 _ rfl)
    (all_cons (fun _ c h => by cases h; exact obeys_cmdlineLines_0 _ rfl)
    (all_cons (fun _ c h => by cases h; exact obeys_cmdlineLines_0 _ rfl)
    (all_cons (fun _ c h => by cases h; exact obeys_cmdlineLines_0 _ rfl)
    (all_cons (fun _ c h => by cases h; exact obeys_cmdlineLines_0 _ rfl)
    (all_cons (fun _ c h => by cases h; exact obeys_cmdlineLines_0 _ rfl)
    (all_cons (fun _ c h => by cases h; exact obeys_cmdlineLines_0 _ rfl)
    (all_cons (fun _ c h => by cases h; exact obeys_cmdlineLines_0 _ rfl)
    (all_cons (fun _ c h => by cases h; exact obeys_cmdlineLines_0 _ rfl)
    (all_cons (fun _ c h => by cases h; exact obeys_cmdlineLines_1 _ rfl) (List.forall_mem_nil _)))))))))))))))))))))))))))))))))))))))

def obeys_fcoeLines_0_object (l : Nat) : Ns := [(c!"lineno", .int l), (c!"nic", .str c!"n")]

theorem obeys_fcoeLines_0_base (n : Str) : Command.FirstBase (F12_Fcoe.cls F12_FcoeData.cls) n [c!"--nic=n"] obeys_fcoeLines_0_object := by
  intro b b' hb hb' line l; kernel_rfl

theorem obeys_fcoeLines_0_start : Command.FirstStart (F12_Fcoe.cls F12_FcoeData.cls) obeys_fcoeLines_0_object (fcoeLines.start.getD 0 ([], [])).2 := fun _ => .inl ⟨fun _ => rfl, (all_cons (by kernel_rfl) (List.forall_mem_nil _))⟩

theorem obeys_fcoeLines_0_lines (n : Str) : ∀ i ∈ [0, 1], Command.FirstLine (F12_Fcoe.cls F12_FcoeData.cls) n [c!"--nic=n"] obeys_fcoeLines_0_object (fcoeLines.lines.getD i noLine) :=
  (all_cons (by intro b b' hb hb' x hx line l; (cases x with | nil => exact absurd rfl hx | cons a x => kernel_rfl))
    (all_cons (by intro b b' hb hb' x hx line l; kernel_rfl)
    (List.forall_mem_nil _)))

theorem obeys_fcoeLines_0 : ∀ v, [Version.F12].contains v = true → Command.Obeys (F12_Fcoe.cls F12_FcoeData.cls) fcoeLines v :=
  obeys_of obeys_fcoeLines_0_object [0] [0, 1] (obeys_fcoeLines_0_base _) (all_cons obeys_fcoeLines_0_start (List.forall_mem_nil _)) (obeys_fcoeLines_0_lines _) (by decide +kernel)

def obeys_fcoeLines_1_object (l : Nat) : Ns := [(c!"lineno", .int l), (c!"nic", .str c!"n"), (c!"dcb", .bool false)]

theorem obeys_fcoeLines_1_base (n : Str) : Command.FirstBase (F13_Fcoe.cls F13_FcoeData.cls) n [c!"--nic=n"] obeys_fcoeLines_1_object := by
  intro b b' hb hb' line l; kernel_rfl

theorem obeys_fcoeLines_1_start : Command.FirstStart (F13_Fcoe.cls F13_FcoeData.cls) obeys_fcoeLines_1_object (fcoeLines.start.getD 0 ([], [])).2 := fun _ => .inl ⟨fun _ => rfl, (all_cons (by kernel_rfl) (List.forall_mem_nil _))⟩

theorem obeys_fcoeLines_1_lines (n : Str) : ∀ i ∈ [0, 2, 3], Command.FirstLine (F13_Fcoe.cls F13_FcoeData.cls) n [c!"--nic=n"] obeys_fcoeLines_1_object (fcoeLines.lines.getD i noLine) :=
  (all_cons (by intro b b' hb hb' x hx line l; (cases x with | nil => exact absurd rfl hx | cons a x => kernel_rfl))
    (all_cons (by intro b b' hb hb' x hx line l; kernel_rfl)
    (all_cons (by intro b b' hb hb' x hx line l; kernel_rfl)
    (List.forall_mem_nil _))))

theorem obeys_fcoeLines_1 : ∀ v, [Version.F13, Version.RHEL6, Version.F14, Version.F15, Version.F16, Version.F17, Version.F19, Version.F20, Version.F21, Version.F22, Version.F23, Version.F24, Version.F25, Version.F26, Version.F27].contains v = true → Command.Obeys (F13_Fcoe.cls F13_FcoeData.cls) fcoeLines v :=
  obeys_of obeys_fcoeLines_1_object [0] [0, 2, 3] (obeys_fcoeLines_1_base _) (all_cons obeys_fcoeLines_1_start (List.forall_mem_nil _)) (obeys_fcoeLines_1_lines _) (by decide +kernel)

def obeys_fcoeLines_2_object (l : Nat) : Ns := [(c!"lineno", .int l), (c!"nic", .str c!"n"), (c!"dcb", .bool false), (c!"autovlan", .bool false)]

theorem obeys_fcoeLines_2_base (n : Str) : Command.FirstBase (F13_Fcoe.cls RHEL7_FcoeData.cls) n [c!"--nic=n"] obeys_fcoeLines_2_object := by
  intro b b' hb hb' line l; kernel_rfl

theorem obeys_fcoeLines_2_start : Command.FirstStart (F13_Fcoe.cls RHEL7_FcoeData.cls) obeys_fcoeLines_2_object (fcoeLines.start.getD 0 ([], [])).2 := fun _ => .inl ⟨fun _ => rfl, (all_cons (by kernel_rfl) (List.forall_mem_nil _))⟩

theorem obeys_fcoeLines_2_lines (n : Str) : ∀ i ∈ [0, 2], Command.FirstLine (F13_Fcoe.cls RHEL7_FcoeData.cls) n [c!"--nic=n"] obeys_fcoeLines_2_object (fcoeLines.lines.getD i noLine) :=
  (all_cons (by intro b b' hb hb' x hx line l; (cases x with | nil => exact absurd rfl hx | cons a x => kernel_rfl))
    (all_cons (by intro b b' hb hb' x hx line l; kernel_rfl)
    (List.forall_mem_nil _)))

theorem obeys_fcoeLines_2 : ∀ v, [Version.F18].contains v = true → Command.Obeys (F13_Fcoe.cls RHEL7_FcoeData.cls) fcoeLines v :=
  obeys_of obeys_fcoeLines_2_object [0] [0, 2] (obeys_fcoeLines_2_base _) (all_cons obeys_fcoeLines_2_start (List.forall_mem_nil _)) (obeys_fcoeLines_2_lines _) (by decide +kernel)

def obeys_fcoeLines_3_object (l : Nat) : Ns := [(c!"lineno", .int l), (c!"nic", .str c!"n"), (c!"dcb", .bool false), (c!"autovlan", .bool false)]

theorem obeys_fcoeLines_3_base (n : Str) : Command.FirstBase (F28_Fcoe.cls F28_FcoeData.cls) n [c!"--nic=n"] obeys_fcoeLines_3_object := by
  intro b b' hb hb' line l; kernel_rfl

theorem obeys_fcoeLines_3_start : Command.FirstStart (F28_Fcoe.cls F28_FcoeData.cls) obeys_fcoeLines_3_object (fcoeLines.start.getD 0 ([], [])).2 := fun _ => .inl ⟨fun _ => rfl, (all_cons (by kernel_rfl) (List.forall_mem_nil _))⟩

theorem obeys_fcoeLines_3_lines (n : Str) : ∀ i ∈ [0, 2, 4], Command.FirstLine (F28_Fcoe.cls F28_FcoeData.cls) n [c!"--nic=n"] obeys_fcoeLines_3_object (fcoeLines.lines.getD i noLine) :=
  (all_cons (by intro b b' hb hb' x hx line l; (cases x with | nil => exact absurd rfl hx | cons a x => kernel_rfl))
    (all_cons (by intro b b' hb hb' x hx line l; kernel_rfl)
    (all_cons (by intro b b' hb hb' x hx line l; kernel_rfl)
    (List.forall_mem_nil _))))

theorem obeys_fcoeLines_3 : ∀ v, [Version.F28, Version.F29, Version.F30, Version.F31, Version.F32, Version.F33, Version.F34].contains v = true → Command.Obeys (F28_Fcoe.cls F28_FcoeData.cls) fcoeLines v :=
  obeys_of obeys_fcoeLines_3_object [0] [0, 2, 4] (obeys_fcoeLines_3_base _) (all_cons obeys_fcoeLines_3_start (List.forall_mem_nil _)) (obeys_fcoeLines_3_lines _) (by decide +kernel)

def obeys_fcoeLines_4_object (l : Nat) : Ns := [(c!"lineno", .int l), (c!"nic", .str c!"n"), (c!"dcb", .bool false), (c!"autovlan", .bool false)]

theorem obeys_fcoeLines_4_base (n : Str) : Command.FirstBase (RHEL7_Fcoe.cls RHEL7_FcoeData.cls) n [c!"--nic=n"] obeys_fcoeLines_4_object := by
  intro b b' hb hb' line l; kernel_rfl

theorem obeys_fcoeLines_4_start : Command.FirstStart (RHEL7_Fcoe.cls RHEL7_FcoeData.cls) obeys_fcoeLines_4_object (fcoeLines.start.getD 0 ([], [])).2 := fun _ => .inl ⟨fun _ => rfl, (all_cons (by kernel_rfl) (List.forall_mem_nil _))⟩

theorem obeys_fcoeLines_4_lines (n : Str) : ∀ i ∈ [0, 2, 4], Command.FirstLine (RHEL7_Fcoe.cls RHEL7_FcoeData.cls) n [c!"--nic=n"] obeys_fcoeLines_4_object (fcoeLines.lines.getD i noLine) :=
  (all_cons (by intro b b' hb hb' x hx line l; (cases x with | nil => exact absurd rfl hx | cons a x => kernel_rfl))
    (all_cons (by intro b b' hb hb' x hx line l; kernel_rfl)
    (all_cons (by intro b b' hb hb' x hx line l; kernel_rfl)
    (List.forall_mem_nil _))))

theorem obeys_fcoeLines_4 : ∀ v, [Version.RHEL7].contains v = true → Command.Obeys (RHEL7_Fcoe.cls RHEL7_FcoeData.cls) fcoeLines v :=
  obeys_of obeys_fcoeLines_4_object [0] [0, 2, 4] (obeys_fcoeLines_4_base _) (all_cons obeys_fcoeLines_4_start (List.forall_mem_nil _)) (obeys_fcoeLines_4_lines _) (by decide +kernel)

def obeys_fcoeLines_5_object (l : Nat) : Ns := [(c!"lineno", .int l), (c!"nic", .str c!"n"), (c!"dcb", .bool false), (c!"autovlan", .bool false)]

theorem obeys_fcoeLines_5_base (n : Str) : Command.FirstBase (RHEL8_Fcoe.cls RHEL8_FcoeData.cls) n [c!"--nic=n"] obeys_fcoeLines_5_object := by
  intro b b' hb hb' line l; kernel_rfl

theorem obeys_fcoeLines_5_start : Command.FirstStart (RHEL8_Fcoe.cls RHEL8_FcoeData.cls) obeys_fcoeLines_5_object (fcoeLines.start.getD 0 ([], [])).2 := fun _ => .inl ⟨fun _ => rfl, (all_cons (by kernel_rfl) (List.forall_mem_nil _))⟩

theorem obeys_fcoeLines_5_lines (n : Str) : ∀ i ∈ [0, 2, 4], Command.FirstLine (RHEL8_Fcoe.cls RHEL8_FcoeData.cls) n [c!"--nic=n"] obeys_fcoeLines_5_object (fcoeLines.lines.getD i noLine) :=
  (all_cons (by intro b b' hb hb' x hx line l; (cases x with | nil => exact absurd rfl hx | cons a x => kernel_rfl))
    (all_cons (by intro b b' hb hb' x hx line l; kernel_rfl)
    (all_cons (by intro b b' hb hb' x hx line l; kernel_rfl)
    (List.forall_mem_nil _))))

theorem obeys_fcoeLines_5 : ∀ v, [Version.RHEL8].contains v = true → Command.Obeys (RHEL8_Fcoe.cls RHEL8_FcoeData.cls) fcoeLines v :=
  obeys_of obeys_fcoeLines_5_object [0] [0, 2, 4] (obeys_fcoeLines_5_base _) (all_cons obeys_fcoeLines_5_start (List.forall_mem_nil _)) (obeys_fcoeLines_5_lines _) (by decide +kernel)

theorem obeys_fcoeLines : fcoeLines.Obeyed := by
  unfold CommandLines.Obeyed commandMaps
  exact (all_cons (fun hv => absurd hv (by decide))
    (all_cons (fun hv => absurd hv (by decide))
    (all_cons (fun _ c h => by cases h; exact obeys_fcoeLines_0 _ rfl)
    (all_cons (fun _ c h => by cases h; exact obeys_fcoeLines_1 _ rfl)
    (all_cons (fun _ c h => by cases h; exact obeys_fcoeLines_1 _ rfl)
    (all_cons (fun _ c h => by cases h; exact obeys_fcoeLines_1 _ rfl)
    (all_cons (fun _ c h => by cases h; exact obeys_fcoeLines_1 _ rfl)
    (all_cons (fun _ c h => by cases h; exact obeys_fcoeLines_1 _ rfl)
    (all_cons (fun _ c h => by cases h; exact obeys_fcoeLines_2 _ rfl)
    (all_cons (fun _ c h => by cases h; exact obeys_fcoeLines_1 _ rfl)
    (all_cons (fun _ c h => by cases h; exact obeys_fcoeLines_1 _ rfl)
    (all_cons (fun _ c h => by cases h; exact obeys_fcoeLines_1 _ rfl)
    (all_cons (fun _ c h => by cases h; exact obeys_fcoeLines_1 _ rfl)
    (all_cons (fun _ c h => by cases h; exact obeys_fcoeLines_1 _ rfl)
    (all_cons (fun _ c h => by cases h; exact obeys_fcoeLines_1 _ rfl)
    (all_cons (fun _ c h => by cases h; exact obeys_fcoeLines_1 _ rfl)
    (all_cons (fun _ c h => by cases h; exact obeys_fcoeLines_1 _ rfl)
    (all_cons (fun _ c h => by cases h; exact obeys_fcoeLines_1 _ rfl)
    (all_cons (fun _ c h => by cases h; exact obeys_fcoeLines_3 _ rfl)
    (all_cons (fun _ c h => by cases h; exact obeys_fcoeLines_3 _ rfl)
    (all_cons (fun _ c h => by cases h; exact obeys_fcoeLines_3 _ rfl)
    (all_cons (fun _ c h => by cases h; exact obeys_fcoeLines_3 _ rfl)
    (all_cons (fun _ c h => by cases h; exact obeys_fcoeLines_3 _ rfl)
    (all_cons (fun _ c h => by cases h; exact obeys_fcoeLines_3 _ rfl)
    (all_cons (fun _ c h => by cases h; exact obeys_fcoeLines_3 _ rfl)
    (all_cons (fun hv => absurd hv (by decide))
    (all_cons (fun hv => absurd hv (by decide))
    (all_cons (fun hv => absurd hv (by decide))
    (all_cons (fun hv => absurd hv (by decide))
    (all_cons (fun hv => absurd hv (by decide))
    (all_cons (fun hv => absurd hv (by decide))
    (all_cons (fun hv => absurd hv (by decide))
    (all_cons (fun hv => absurd hv (by decide))
    (all_cons (fun hv => absurd hv (by decide))
    (all_cons (fun hv => absurd hv (by decide))
    (all_cons (fun _ c h => by cases h; exact obeys_fcoeLines_1 _ rfl)
    (all_cons (fun _ c h => by cases h; exact obeys_fcoeLines_4 _ rfl)
    (all_cons (fun _ c h => by cases h; exact obeys_fcoeLines_5 _ rfl) (List.forall_mem_nil _)))))))))))))))))))))))))))))))))))))))

def obeys_ignorediskLines_0_object (_ : Nat) : Ns := [(c!"ignoredisk", .list [c!"a"]), (c!"onlyuse", .list [])]

theorem obeys_ignorediskLines_0_base (n : Str) : Command.FirstBase (F8_IgnoreDisk.cls) n [c!"--drives=a"] obeys_ignorediskLines_0_object := by
  intro b b' hb hb' line l; kernel_rfl

theorem obeys_ignorediskLines_0_start : Command.FirstStart (F8_IgnoreDisk.cls) obeys_ignorediskLines_0_object (ignorediskLines.start.getD 0 ([], [])).2 := fun _ => .inr ⟨fun _ => rfl, by kernel_rfl⟩

theorem obeys_ignorediskLines_0_lines (n : Str) : ∀ i ∈ [0, 1], Command.FirstLine (F8_IgnoreDisk.cls) n [c!"--drives=a"] obeys_ignorediskLines_0_object (ignorediskLines.lines.getD i noLine) :=
  (all_cons (by intro b b' hb hb' x hx line l; kernel_rfl)
    (all_cons (by intro b b' hb hb' x hx line l; kernel_rfl)
    (List.forall_mem_nil _)))

theorem obeys_ignorediskLines_0 : ∀ v, [Version.RHEL4, Version.RHEL5, Version.F8, Version.F9, Version.F10, Version.F11, Version.F12, Version.F13].contains v = true → Command.Obeys (F8_IgnoreDisk.cls) ignorediskLines v :=
  obeys_of obeys_ignorediskLines_0_object [0] [0, 1] (obeys_ignorediskLines_0_base _) (all_cons obeys_ignorediskLines_0_start (List.forall_mem_nil _)) (obeys_ignorediskLines_0_lines _) (by decide +kernel)

def obeys_ignorediskLines_1_object (_ : Nat) : Ns := [(c!"ignoredisk", .list [c!"a"]), (c!"onlyuse", .list []), (c!"interactive", .bool false)]

theorem obeys_ignorediskLines_1_base (n : Str) : Command.FirstBase (F14_IgnoreDisk.cls) n [c!"--drives=a"] obeys_ignorediskLines_1_object := by
  intro b b' hb hb' line l; kernel_rfl

theorem obeys_ignorediskLines_1_start : Command.FirstStart (F14_IgnoreDisk.cls) obeys_ignorediskLines_1_object (ignorediskLines.start.getD 0 ([], [])).2 := fun _ => .inr ⟨fun _ => rfl, by kernel_rfl⟩

theorem obeys_ignorediskLines_1_lines (n : Str) : ∀ i ∈ [0, 1, 2], Command.FirstLine (F14_IgnoreDisk.cls) n [c!"--drives=a"] obeys_ignorediskLines_1_object (ignorediskLines.lines.getD i noLine) :=
  (all_cons (by intro b b' hb hb' x hx line l; kernel_rfl)
    (all_cons (by intro b b' hb hb' x hx line l; kernel_rfl)
    (all_cons (by intro b b' hb hb' x hx line l; kernel_rfl)
    (List.forall_mem_nil _))))

theorem obeys_ignorediskLines_1 : ∀ v, [Version.F14, Version.F15, Version.F16, Version.F17, Version.F18, Version.F19, Version.F20, Version.F21, Version.RHEL7, Version.F22, Version.F23, Version.F24, Version.F25, Version.F26, Version.F27, Version.F28].contains v = true → Command.Obeys (F14_IgnoreDisk.cls) ignorediskLines v :=
  obeys_of obeys_ignorediskLines_1_object [0] [0, 1, 2] (obeys_ignorediskLines_1_base _) (all_cons obeys_ignorediskLines_1_start (List.forall_mem_nil _)) (obeys_ignorediskLines_1_lines _) (by decide +kernel)

def obeys_ignorediskLines_2_object (_ : Nat) : Ns := [(c!"ignoredisk", .list [c!"a"]), (c!"onlyuse", .list []), (c!"interactive", .bool false)]

theorem obeys_ignorediskLines_2_base (n : Str) : Command.FirstBase (F29_IgnoreDisk.cls) n [c!"--drives=a"] obeys_ignorediskLines_2_object := by
  intro b b' hb hb' line l; kernel_rfl

theorem obeys_ignorediskLines_2_start : Command.FirstStart (F29_IgnoreDisk.cls) obeys_ignorediskLines_2_object (ignorediskLines.start.getD 0 ([], [])).2 := fun _ => .inr ⟨fun _ => rfl, by kernel_rfl⟩

theorem obeys_ignorediskLines_2_lines (n : Str) : ∀ i ∈ [0, 1, 3], Command.FirstLine (F29_IgnoreDisk.cls) n [c!"--drives=a"] obeys_ignorediskLines_2_object (ignorediskLines.lines.getD i noLine) :=
  (all_cons (by intro b b' hb hb' x hx line l; kernel_rfl)
    (all_cons (by intro b b' hb hb' x hx line l; kernel_rfl)
    (all_cons (by intro b b' hb hb' x hx line l; kernel_rfl)
    (List.forall_mem_nil _))))

theorem obeys_ignorediskLines_2 : ∀ v, [Version.RHEL8, Version.F29, Version.F30, Version.F31, Version.F32, Version.F33].contains v = true → Command.Obeys (F29_IgnoreDisk.cls) ignorediskLines v :=
  obeys_of obeys_ignorediskLines_2_object [0] [0, 1, 3] (obeys_ignorediskLines_2_base _) (all_cons obeys_ignorediskLines_2_start (List.forall_mem_nil _)) (obeys_ignorediskLines_2_lines _) (by decide +kernel)

def obeys_ignorediskLines_3_object (_ : Nat) : Ns := [(c!"ignoredisk", .list [c!"a"]), (c!"onlyuse", .list []), (c!"interactive", .bool false)]

theorem obeys_ignorediskLines_3_base (n : Str) : Command.FirstBase (F34_IgnoreDisk.cls) n [c!"--drives=a"] obeys_ignorediskLines_3_object := by
  intro b b' hb hb' line l; kernel_rfl

theorem obeys_ignorediskLines_3_start : Command.FirstStart (F34_IgnoreDisk.cls) obeys_ignorediskLines_3_object (ignorediskLines.start.getD 0 ([], [])).2 := fun _ => .inr ⟨fun _ => rfl, by kernel_rfl⟩

theorem obeys_ignorediskLines_3_lines (n : Str) : ∀ i ∈ [0, 1, 2], Command.FirstLine (F34_IgnoreDisk.cls) n [c!"--drives=a"] obeys_ignorediskLines_3_object (ignorediskLines.lines.getD i noLine) :=
  (all_cons (by intro b b' hb hb' x hx line l; kernel_rfl)
    (all_cons (by intro b b' hb hb' x hx line l; kernel_rfl)
    (all_cons (by intro b b' hb hb' x hx line l; kernel_rfl)
    (List.forall_mem_nil _))))

theorem obeys_ignorediskLines_3 : ∀ v, [Version.F34].contains v = true → Command.Obeys (F34_IgnoreDisk.cls) ignorediskLines v :=
  obeys_of obeys_ignorediskLines_3_object [0] [0, 1, 2] (obeys_ignorediskLines_3_base _) (all_cons obeys_ignorediskLines_3_start (List.forall_mem_nil _)) (obeys_ignorediskLines_3_lines _) (by decide +kernel)

def obeys_ignorediskLines_4_object (_ : Nat) : Ns := [(c!"ignoredisk", .list [c!"a"])]

theorem obeys_ignorediskLines_4_base (n : Str) : Command.FirstBase (FC3_IgnoreDisk.cls) n [c!"--drives=a"] obeys_ignorediskLines_4_object := by
  intro b b' hb hb' line l; kernel_rfl

theorem obeys_ignorediskLines_4_start : Command.FirstStart (FC3_IgnoreDisk.cls) obeys_ignorediskLines_4_object (ignorediskLines.start.getD 0 ([], [])).2 := fun _ => .inr ⟨fun _ => rfl, by kernel_rfl⟩

theorem obeys_ignorediskLines_4_lines (n : Str) : ∀ i ∈ [0, 1], Command.FirstLine (FC3_IgnoreDisk.cls) n [c!"--drives=a"] obeys_ignorediskLines_4_object (ignorediskLines.lines.getD i noLine) :=
  (all_cons (by intro b b' hb hb' x hx line l; kernel_rfl)
    (all_cons (by intro b b' hb hb' x hx line l; kernel_rfl)
    (List.forall_mem_nil _)))

theorem obeys_ignorediskLines_4 : ∀ v, [Version.RHEL3, Version.FC3, Version.FC4, Version.FC5, Version.FC6, Version.F7].contains v = true → Command.Obeys (FC3_IgnoreDisk.cls) ignorediskLines v :=
  obeys_of obeys_ignorediskLines_4_object [0] [0, 1] (obeys_ignorediskLines_4_base _) (all_cons obeys_ignorediskLines_4_start (List.forall_mem_nil _)) (obeys_ignorediskLines_4_lines _) (by decide +kernel)

def obeys_ignorediskLines_5_object (_ : Nat) : Ns := [(c!"ignoredisk", .list [c!"a"]), (c!"onlyuse", .list []), (c!"interactive", .bool false)]

theorem obeys_ignorediskLines_5_base (n : Str) : Command.FirstBase (RHEL6_IgnoreDisk.cls) n [c!"--drives=a"] obeys_ignorediskLines_5_object := by
  intro b b' hb hb' line l; kernel_rfl

theorem obeys_ignorediskLines_5_start : Command.FirstStart (RHEL6_IgnoreDisk.cls) obeys_ignorediskLines_5_object (ignorediskLines.start.getD 0 ([], [])).2 := fun _ => .inr ⟨fun _ => rfl, by kernel_rfl⟩

theorem obeys_ignorediskLines_5_lines (n : Str) : ∀ i ∈ [0, 1], Command.FirstLine (RHEL6_IgnoreDisk.cls) n [c!"--drives=a"] obeys_ignorediskLines_5_object (ignorediskLines.lines.getD i noLine) :=
  (all_cons (by intro b b' hb hb' x hx line l; kernel_rfl)
    (all_cons (by intro b b' hb hb' x hx line l; kernel_rfl)
    (List.forall_mem_nil _)))

theorem obeys_ignorediskLines_5 : ∀ v, [Version.RHEL6].contains v = true → Command.Obeys (RHEL6_IgnoreDisk.cls) ignorediskLines v :=
  obeys_of obeys_ignorediskLines_5_object [0] [0, 1] (obeys_ignorediskLines_5_base _) (all_cons obeys_ignorediskLines_5_start (List.forall_mem_nil _)) (obeys_ignorediskLines_5_lines _) (by decide +kernel)

theorem obeys_ignorediskLines : ignorediskLines.Obeyed := by
  unfold CommandLines.Obeyed commandMaps
  exact (all_cons (fun _ c h => by cases h; exact obeys_ignorediskLines_0 _ rfl)
    (all_cons (fun _ c h => by cases h; exact obeys_ignorediskLines_0 _ rfl)
    (all_cons (fun _ c h => by cases h; exact obeys_ignorediskLines_0 _ rfl)
    (all_cons (fun _ c h => by cases h; exact obeys_ignorediskLines_0 _ rfl)
    (all_cons (fun _ c h => by cases h; exact obeys_ignorediskLines_1 _ rfl)
    (all_cons (fun _ c h => by cases h; exact obeys_ignorediskLines_1 _ rfl)
    (all_cons (fun _ c h => by cases h; exact obeys_ignorediskLines_1 _ rfl)
    (all_cons (fun _ c h => by cases h; exact obeys_ignorediskLines_1 _ rfl)
    (all_cons (fun _ c h => by cases h; exact obeys_ignorediskLines_1 _ rfl)
    (all_cons (fun _ c h => by cases h; exact obeys_ignorediskLines_1 _ rfl)
    (all_cons (fun _ c h => by cases h; exact obeys_ignorediskLines_1 _ rfl)
    (all_cons (fun _ c h => by cases h; exact obeys_ignorediskLines_1 _ rfl)
    (all_cons (fun _ c h => by cases h; exact obeys_ignorediskLines_1 _ rfl)
    (all_cons (fun _ c h => by cases h; exact obeys_ignorediskLines_1 _ rfl)
    (all_cons (fun _ c h => by cases h; exact obeys_ignorediskLines_1 _ rfl)
    (all_cons (fun _ c h => by cases h; exact obeys_ignorediskLines_1 _ rfl)
    (all_cons (fun _ c h => by cases h; exact obeys_ignorediskLines_1 _ rfl)
    (all_cons (fun _ c h => by cases h; exact obeys_ignorediskLines_1 _ rfl)
    (all_cons (fun _ c h => by cases h; exact obeys_ignorediskLines_1 _ rfl)
    (all_cons (fun _ c h => by cases h; exact obeys_ignorediskLines_2 _ rfl)
    (all_cons (fun _ c h => by cases h; exact obeys_ignorediskLines_2 _ rfl)
    (all_cons (fun _ c h => by cases h; exact obeys_ignorediskLines_2 _ rfl)
    (all_cons (fun _ c h => by cases h; exact obeys_ignorediskLines_2 _ rfl)
    (all_cons (fun _ c h => by cases h; exact obeys_ignorediskLines_2 _ rfl)
    (all_cons (fun _ c h => by cases h; exact obeys_ignorediskLines_3 _ rfl)
    (all_cons (fun _ c h => by cases h; exact obeys_ignorediskLines_4 _ rfl)
    (all_cons (fun _ c h => by cases h; exact obeys_ignorediskLines_0 _ rfl)
    (all_cons (fun _ c h => by cases h; exact obeys_ignorediskLines_0 _ rfl)
    (all_cons (fun _ c h => by cases h; exact obeys_ignorediskLines_4 _ rfl)
    (all_cons (fun _ c h => by cases h; exact obeys_ignorediskLines_4 _ rfl)
    (all_cons (fun _ c h => by cases h; exact obeys_ignorediskLines_4 _ rfl)
    (all_cons (fun _ c h => by cases h; exact obeys_ignorediskLines_4 _ rfl)
    (all_cons (fun _ c h => by cases h; exact obeys_ignorediskLines_4 _ rfl)
    (all_cons (fun _ c h => by cases h; exact obeys_ignorediskLines_0 _ rfl)
    (all_cons (fun _ c h => by cases h; exact obeys_ignorediskLines_0 _ rfl)
    (all_cons (fun _ c h => by cases h; exact obeys_ignorediskLines_5 _ rfl)
    (all_cons (fun _ c h => by cases h; exact obeys_ignorediskLines_1 _ rfl)
    (all_cons (fun _ c h => by cases h; exact obeys_ignorediskLines_2 _ rfl) (List.forall_mem_nil _)))))))))))))))))))))))))))))))))))))))

def obeys_ignorediskLines2_0_object (_ : Nat) : Ns := [(c!"ignoredisk", .list []), (c!"onlyuse", .list [c!"a"])]

theorem obeys_ignorediskLines2_0_base (n : Str) : Command.FirstBase (F8_IgnoreDisk.cls) n [c!"--only-use=a"] obeys_ignorediskLines2_0_object := by
  intro b b' hb hb' line l; kernel_rfl

theorem obeys_ignorediskLines2_0_start : Command.FirstStart (F8_IgnoreDisk.cls) obeys_ignorediskLines2_0_object (ignorediskLines2.start.getD 0 ([], [])).2 := fun _ => .inr ⟨fun _ => rfl, by kernel_rfl⟩

theorem obeys_ignorediskLines2_0_lines (n : Str) : ∀ i ∈ [0, 1], Command.FirstLine (F8_IgnoreDisk.cls) n [c!"--only-use=a"] obeys_ignorediskLines2_0_object (ignorediskLines2.lines.getD i noLine) :=
  (all_cons (by intro b b' hb hb' x hx line l; kernel_rfl)
    (all_cons (by intro b b' hb hb' x hx line l; kernel_rfl)
    (List.forall_mem_nil _)))

theorem obeys_ignorediskLines2_0 : ∀ v, [Version.RHEL4, Version.RHEL5, Version.F8, Version.F9, Version.F10, Version.F11, Version.F12, Version.F13].contains v = true → Command.Obeys (F8_IgnoreDisk.cls) ignorediskLines2 v :=
  obeys_of obeys_ignorediskLines2_0_object [0] [0, 1] (obeys_ignorediskLines2_0_base _) (all_cons obeys_ignorediskLines2_0_start (List.forall_mem_nil _)) (obeys_ignorediskLines2_0_lines _) (by decide +kernel)

def obeys_ignorediskLines2_1_object (_ : Nat) : Ns := [(c!"ignoredisk", .list []), (c!"onlyuse", .list [c!"a"]), (c!"interactive", .bool false)]

theorem obeys_ignorediskLines2_1_base (n : Str) : Command.FirstBase (F14_IgnoreDisk.cls) n [c!"--only-use=a"] obeys_ignorediskLines2_1_object := by
  intro b b' hb hb' line l; kernel_rfl

theorem obeys_ignorediskLines2_1_start : Command.FirstStart (F14_IgnoreDisk.cls) obeys_ignorediskLines2_1_object (ignorediskLines2.start.getD 0 ([], [])).2 := fun _ => .inr ⟨fun _ => rfl, by kernel_rfl⟩

theorem obeys_ignorediskLines2_1_lines (n : Str) : ∀ i ∈ [0, 1], Command.FirstLine (F14_IgnoreDisk.cls) n [c!"--only-use=a"] obeys_ignorediskLines2_1_object (ignorediskLines2.lines.getD i noLine) :=
  (all_cons (by intro b b' hb hb' x hx line l; kernel_rfl)
    (all_cons (by intro b b' hb hb' x hx line l; kernel_rfl)
    (List.forall_mem_nil _)))

theorem obeys_ignorediskLines2_1 : ∀ v, [Version.F14, Version.F15, Version.F16, Version.F17, Version.F18, Version.F19, Version.F20, Version.F21, Version.RHEL7, Version.F22, Version.F23, Version.F24, Version.F25, Version.F26, Version.F27, Version.F28].contains v = true → Command.Obeys (F14_IgnoreDisk.cls) ignorediskLines2 v :=
  obeys_of obeys_ignorediskLines2_1_object [0] [0, 1] (obeys_ignorediskLines2_1_base _) (all_cons obeys_ignorediskLines2_1_start (List.forall_mem_nil _)) (obeys_ignorediskLines2_1_lines _) (by decide +kernel)

def obeys_ignorediskLines2_2_object (_ : Nat) : Ns := [(c!"ignoredisk", .list []), (c!"onlyuse", .list [c!"a"]), (c!"interactive", .bool false)]

theorem obeys_ignorediskLines2_2_base (n : Str) : Command.FirstBase (F29_IgnoreDisk.cls) n [c!"--only-use=a"] obeys_ignorediskLines2_2_object := by
  intro b b' hb hb' line l; kernel_rfl

theorem obeys_ignorediskLines2_2_start : Command.FirstStart (F29_IgnoreDisk.cls) obeys_ignorediskLines2_2_object (ignorediskLines2.start.getD 0 ([], [])).2 := fun _ => .inr ⟨fun _ => rfl, by kernel_rfl⟩

theorem obeys_ignorediskLines2_2_lines (n : Str) : ∀ i ∈ [0, 1], Command.FirstLine (F29_IgnoreDisk.cls) n [c!"--only-use=a"] obeys_ignorediskLines2_2_object (ignorediskLines2.lines.getD i noLine) :=
  (all_cons (by intro b b' hb hb' x hx line l; kernel_rfl)
    (all_cons (by intro b b' hb hb' x hx line l; kernel_rfl)
    (List.forall_mem_nil _)))

theorem obeys_ignorediskLines2_2 : ∀ v, [Version.RHEL8, Version.F29, Version.F30, Version.F31, Version.F32, Version.F33].contains v = true → Command.Obeys (F29_IgnoreDisk.cls) ignorediskLines2 v :=
  obeys_of obeys_ignorediskLines2_2_object [0] [0, 1] (obeys_ignorediskLines2_2_base _) (all_cons obeys_ignorediskLines2_2_start (List.forall_mem_nil _)) (obeys_ignorediskLines2_2_lines _) (by decide +kernel)

def obeys_ignorediskLines2_3_object (_ : Nat) : Ns := [(c!"ignoredisk", .list []), (c!"onlyuse", .list [c!"a"]), (c!"interactive", .bool false)]

theorem obeys_ignorediskLines2_3_base (n : Str) : Command.FirstBase (F34_IgnoreDisk.cls) n [c!"--only-use=a"] obeys_ignorediskLines2_3_object := by
  intro b b' hb hb' line l; kernel_rfl

theorem obeys_ignorediskLines2_3_start : Command.FirstStart (F34_IgnoreDisk.cls) obeys_ignorediskLines2_3_object (ignorediskLines2.start.getD 0 ([], [])).2 := fun _ => .inr ⟨fun _ => rfl, by kernel_rfl⟩

theorem obeys_ignorediskLines2_3_lines (n : Str) : ∀ i ∈ [0, 1], Command.FirstLine (F34_IgnoreDisk.cls) n [c!"--only-use=a"] obeys_ignorediskLines2_3_object (ignorediskLines2.lines.getD i noLine) :=
  (all_cons (by intro b b' hb hb' x hx line l; kernel_rfl)
    (all_cons (by intro b b' hb hb' x hx line l; kernel_rfl)
    (List.forall_mem_nil _)))

theorem obeys_ignorediskLines2_3 : ∀ v, [Version.F34].contains v = true → Command.Obeys (F34_IgnoreDisk.cls) ignorediskLines2 v :=
  obeys_of obeys_ignorediskLines2_3_object [0] [0, 1] (obeys_ignorediskLines2_3_base _) (all_cons obeys_ignorediskLines2_3_start (List.forall_mem_nil _)) (obeys_ignorediskLines2_3_lines _) (by decide +kernel)

def obeys_ignorediskLines2_4_object (_ : Nat) : Ns := [(c!"ignoredisk", .list []), (c!"onlyuse", .list [c!"a"]), (c!"interactive", .bool false)]

theorem obeys_ignorediskLines2_4_base (n : Str) : Command.FirstBase (RHEL6_IgnoreDisk.cls) n [c!"--only-use=a"] obeys_ignorediskLines2_4_object := by
  intro b b' hb hb' line l; kernel_rfl

theorem obeys_ignorediskLines2_4_start : Command.FirstStart (RHEL6_IgnoreDisk.cls) obeys_ignorediskLines2_4_object (ignorediskLines2.start.getD 0 ([], [])).2 := fun _ => .inr ⟨fun _ => rfl, by kernel_rfl⟩

theorem obeys_ignorediskLines2_4_lines (n : Str) : ∀ i ∈ [0, 1], Command.FirstLine (RHEL6_IgnoreDisk.cls) n [c!"--only-use=a"] obeys_ignorediskLines2_4_object (ignorediskLines2.lines.getD i noLine) :=
  (all_cons (by intro b b' hb hb' x hx line l; kernel_rfl)
    (all_cons (by intro b b' hb hb' x hx line l; kernel_rfl)
    (List.forall_mem_nil _)))

theorem obeys_ignorediskLines2_4 : ∀ v, [Version.RHEL6].contains v = true → Command.Obeys (RHEL6_IgnoreDisk.cls) ignorediskLines2 v :=
  obeys_of obeys_ignorediskLines2_4_object [0] [0, 1] (obeys_ignorediskLines2_4_base _) (all_cons obeys_ignorediskLines2_4_start (List.forall_mem_nil _)) (obeys_ignorediskLines2_4_lines _) (by decide +kernel)

theorem obeys_ignorediskLines2 : ignorediskLines2.Obeyed := by
  unfold CommandLines.Obeyed commandMaps
  exact (all_cons (fun _ c h => by cases h; exact obeys_ignorediskLines2_0 _ rfl)
    (all_cons (fun _ c h => by cases h; exact obeys_ignorediskLines2_0 _ rfl)
    (all_cons (fun _ c h => by cases h; exact obeys_ignorediskLines2_0 _ rfl)
    (all_cons (fun _ c h => by cases h; exact obeys_ignorediskLines2_0 _ rfl)
    (all_cons (fun _ c h => by cases h; exact obeys_ignorediskLines2_1 _ rfl)
    (all_cons (fun _ c h => by cases h; exact obeys_ignorediskLines2_1 _ rfl)
    (all_cons (fun _ c h => by cases h; exact obeys_ignorediskLines2_1 _ rfl)
    (all_cons (fun _ c h => by cases h; exact obeys_ignorediskLines2_1 _ rfl)
    (all_cons (fun _ c h => by cases h; exact obeys_ignorediskLines2_1 _ rfl)
    (all_cons (fun _ c h => by cases h; exact obeys_ignorediskLines2_1 _ rfl)
    (all_cons (fun _ c h => by cases h; exact obeys_ignorediskLines2_1 _ rfl)
    (all_cons (fun _ c h => by cases h; exact obeys_ignorediskLines2_1 _ rfl)
    (all_cons (fun _ c h => by cases h; exact obeys_ignorediskLines2_1 _ rfl)
    (all_cons (fun _ c h => by cases h; exact obeys_ignorediskLines2_1 _ rfl)
    (all_cons (fun _ c h => by cases h; exact obeys_ignorediskLines2_1 _ rfl)
    (all_cons (fun _ c h => by cases h; exact obeys_ignorediskLines2_1 _ rfl)
    (all_cons (fun _ c h => by cases h; exact obeys_ignorediskLines2_1 _ rfl)
    (all_cons (fun _ c h => by cases h; exact obeys_ignorediskLines2_1 _ rfl)
    (all_cons (fun _ c h => by cases h; exact obeys_ignorediskLines2_1 _ rfl)
    (all_cons (fun _ c h => by cases h; exact obeys_ignorediskLines2_2 _ rfl)
    (all_cons (fun _ c h => by cases h; exact obeys_ignorediskLines2_2 _ rfl)
    (all_cons (fun _ c h => by cases h; exact obeys_ignorediskLines2_2 _ rfl)
    (all_cons (fun _ c h => by cases h; exact obeys_ignorediskLines2_2 _ rfl)
    (all_cons (fun _ c h => by cases h; exact obeys_ignorediskLines2_2 _ rfl)
    (all_cons (fun _ c h => by cases h; exact obeys_ignorediskLines2_3 _ rfl)
    (all_cons (fun hv => absurd hv (by decide))
    (all_cons (fun _ c h => by cases h; exact obeys_ignorediskLines2_0 _ rfl)
    (all_cons (fun _ c h => by cases h; exact obeys_ignorediskLines2_0 _ rfl)
    (all_cons (fun hv => absurd hv (by decide))
    (all_cons (fun hv => absurd hv (by decide))
    (all_cons (fun hv => absurd hv (by decide))
    (all_cons (fun hv => absurd hv (by decide))
    (all_cons (fun hv => absurd hv (by decide))
    (all_cons (fun _ c h => by cases h; exact obeys_ignorediskLines2_0 _ rfl)
    (all_cons (fun _ c h => by cases h; exact obeys_ignorediskLines2_0 _ rfl)
    (all_cons (fun _ c h => by cases h; exact obeys_ignorediskLines2_4 _ rfl)
    (all_cons (fun _ c h => by cases h; exact obeys_ignorediskLines2_1 _ rfl)
    (all_cons (fun _ c h => by cases h; exact obeys_ignorediskLines2_2 _ rfl) (List.forall_mem_nil _)))))))))))))))))))))))))))))))))))))))

def obeys_ignorediskLines3_0_object (_ : Nat) : Ns := [(c!"ignoredisk", .list []), (c!"onlyuse", .list []), (c!"interactive", .bool true)]

theorem obeys_ignorediskLines3_0_base (n : Str) : Command.FirstBase (F14_IgnoreDisk.cls) n [c!"--interactive"] obeys_ignorediskLines3_0_object := by
  intro b b' hb hb' line l; kernel_rfl

theorem obeys_ignorediskLines3_0_start : Command.FirstStart (F14_IgnoreDisk.cls) obeys_ignorediskLines3_0_object (ignorediskLines3.start.getD 0 ([], [])).2 := fun _ => .inr ⟨fun _ => rfl, by kernel_rfl⟩

theorem obeys_ignorediskLines3_0_lines (n : Str) : ∀ i ∈ [0], Command.FirstLine (F14_IgnoreDisk.cls) n [c!"--interactive"] obeys_ignorediskLines3_0_object (ignorediskLines3.lines.getD i noLine) :=
  (all_cons (by intro b b' hb hb' x hx line l; kernel_rfl)
    (List.forall_mem_nil _))

theorem obeys_ignorediskLines3_0 : ∀ v, [Version.F14, Version.F15, Version.F16, Version.F17, Version.F18, Version.F19, Version.F20, Version.F21, Version.RHEL7, Version.F22, Version.F23, Version.F24, Version.F25, Version.F26, Version.F27, Version.F28].contains v = true → Command.Obeys (F14_IgnoreDisk.cls) ignorediskLines3 v :=
  obeys_of obeys_ignorediskLines3_0_object [0] [0] (obeys_ignorediskLines3_0_base _) (all_cons obeys_ignorediskLines3_0_start (List.forall_mem_nil _)) (obeys_ignorediskLines3_0_lines _) (by decide +kernel)

def obeys_ignorediskLines3_1_object (_ : Nat) : Ns := [(c!"ignoredisk", .list []), (c!"onlyuse", .list []), (c!"interactive", .bool true)]

theorem obeys_ignorediskLines3_1_base (n : Str) : Command.FirstBase (RHEL6_IgnoreDisk.cls) n [c!"--interactive"] obeys_ignorediskLines3_1_object := by
  intro b b' hb hb' line l; kernel_rfl

theorem obeys_ignorediskLines3_1_start : Command.FirstStart (RHEL6_IgnoreDisk.cls) obeys_ignorediskLines3_1_object (ignorediskLines3.start.getD 0 ([], [])).2 := fun _ => .inr ⟨fun _ => rfl, by kernel_rfl⟩

theorem obeys_ignorediskLines3_1_lines (n : Str) : ∀ i ∈ [0], Command.FirstLine (RHEL6_IgnoreDisk.cls) n [c!"--interactive"] obeys_ignorediskLines3_1_object (ignorediskLines3.lines.getD i noLine) :=
  (all_cons (by intro b b' hb hb' x hx line l; kernel_rfl)
    (List.forall_mem_nil _))

theorem obeys_ignorediskLines3_1 : ∀ v, [Version.RHEL6].contains v = true → Command.Obeys (RHEL6_IgnoreDisk.cls) ignorediskLines3 v :=
  obeys_of obeys_ignorediskLines3_1_object [0] [0] (obeys_ignorediskLines3_1_base _) (all_cons obeys_ignorediskLines3_1_start (List.forall_mem_nil _)) (obeys_ignorediskLines3_1_lines _) (by decide +kernel)

theorem obeys_ignorediskLines3 : ignorediskLines3.Obeyed := by
  unfold CommandLines.Obeyed commandMaps
  exact (all_cons (fun hv => absurd hv (by decide))
    (all_cons (fun hv => absurd hv (by decide))
    (all_cons (fun hv => absurd hv (by decide))
    (all_cons (fun hv => absurd hv (by decide))
    (all_cons (fun _ c h => by cases h; exact obeys_ignorediskLines3_0 _ rfl)
    (all_cons (fun _ c h => by cases h; exact obeys_ignorediskLines3_0 _ rfl)
    (all_cons (fun _ c h => by cases h; exact obeys_ignorediskLines3_0 _ rfl)
    (all_cons (fun _ c h => by cases h; exact obeys_ignorediskLines3_0 _ rfl)
    (all_cons (fun _ c h => by cases h; exact obeys_ignorediskLines3_0 _ rfl)
    (all_cons (fun _ c h => by cases h; exact obeys_ignorediskLines3_0 _ rfl)
    (all_cons (fun _ c h => by cases h; exact obeys_ignorediskLines3_0 _ rfl)
    (all_cons (fun _ c h => by cases h; exact obeys_ignorediskLines3_0 _ rfl)
    (all_cons (fun _ c h => by cases h; exact obeys_ignorediskLines3_0 _ rfl)
    (all_cons (fun _ c h => by cases h; exact obeys_ignorediskLines3_0 _ rfl)
    (all_cons (fun _ c h => by cases h; exact obeys_ignorediskLines3_0 _ rfl)
    (all_cons (fun _ c h => by cases h; exact obeys_ignorediskLines3_0 _ rfl)
    (all_cons (fun _ c h => by cases h; exact obeys_ignorediskLines3_0 _ rfl)
    (all_cons (fun _ c h => by cases h; exact obeys_ignorediskLines3_0 _ rfl)
    (all_cons (fun _ c h => by cases h; exact obeys_ignorediskLines3_0 _ rfl)
    (all_cons (fun hv => absurd hv (by decide))
    (all_cons (fun hv => absurd hv (by decide))
    (all_cons (fun hv => absurd hv (by decide))
    (all_cons (fun hv => absurd hv (by decide))
    (all_cons (fun hv => absurd hv (by decide))
    (all_cons (fun hv => absurd hv (by decide))
    (all_cons (fun hv => absurd hv (by decide))
    (all_cons (fun hv => absurd hv (by decide))
    (all_cons (fun hv => absurd hv (by decide))
    (all_cons (fun hv => absurd hv (by decide))
    (all_cons (fun hv => absurd hv (by decide))
    (all_cons (fun hv => absurd hv (by decide))
    (all_cons (fun hv => absurd hv (by decide))
    (all_cons (fun hv => absurd hv (by decide))
    (all_cons (fun hv => absurd hv (by decide))
    (all_cons (fun hv => absurd hv (by decide))
    (all_cons (fun _ c h => by cases h; exact obeys_ignorediskLines3_1 _ rfl)
    (all_cons (fun _ c h => by cases h; exact obeys_ignorediskLines3_0 _ rfl)
    (all_cons (fun hv => absurd hv (by decide)) (List.forall_mem_nil _)))))))))))))))))))))))))))))))))))))))

def obeys_iscsiLines_0_object (l : Nat) : Ns := [(c!"lineno", .int l), (c!"ipaddr", .str c!"i"), (c!"port", .int 3260), (c!"target", .str c!""), (c!"user", .none), (c!"password", .none), (c!"user_in", .none), (c!"password_in", .none)]

theorem obeys_iscsiLines_0_base (n : Str) : Command.FirstBase (F10_Iscsi.cls F10_IscsiData.cls) n [c!"--ipaddr=i"] obeys_iscsiLines_0_object := by
  intro b b' hb hb' line l; kernel_rfl

theorem obeys_iscsiLines_0_start : Command.FirstStart (F10_Iscsi.cls F10_IscsiData.cls) obeys_iscsiLines_0_object (iscsiLines.start.getD 0 ([], [])).2 := fun _ => .inl ⟨fun _ => rfl, (all_cons (by kernel_rfl) (all_cons (by kernel_rfl) (List.forall_mem_nil _)))⟩

theorem obeys_iscsiLines_0_lines (n : Str) : ∀ i ∈ [0, 1, 2, 3, 4, 5, 7, 9], Command.FirstLine (F10_Iscsi.cls F10_IscsiData.cls) n [c!"--ipaddr=i"] obeys_iscsiLines_0_object (iscsiLines.lines.getD i noLine) :=
  (all_cons (by intro b b' hb hb' x hx line l; (cases x with | nil => exact absurd rfl hx | cons a x => kernel_rfl))
    (all_cons (by intro b b' hb hb' x hx line l; (cases x with | nil => exact absurd rfl hx | cons a x => kernel_rfl))
    (all_cons (by intro b b' hb hb' x hx line l; kernel_rfl)
    (all_cons (by intro b b' hb hb' x hx line l; (cases x with | nil => exact absurd rfl hx | cons a x => kernel_rfl))
    (all_cons (by intro b b' hb hb' x hx line l; (cases x with | nil => exact absurd rfl hx | cons a x => kernel_rfl))
    (all_cons (by intro b b' hb hb' x hx line l; (cases x with | nil => exact absurd rfl hx | cons a x => kernel_rfl))
    (all_cons (by intro b b' hb hb' x hx line l; (cases x with | nil => exact absurd rfl hx | cons a x => kernel_rfl))
    (all_cons (by intro b b' hb hb' x hx line l; (cases x with | nil => exact absurd rfl hx | cons a x => kernel_rfl))
    (List.forall_mem_nil _)))))))))

theorem obeys_iscsiLines_0 : ∀ v, [Version.F10, Version.F11, Version.F12, Version.F13, Version.F14, Version.F15, Version.F16].contains v = true → Command.Obeys (F10_Iscsi.cls F10_IscsiData.cls) iscsiLines v :=
  obeys_of obeys_iscsiLines_0_object [0] [0, 1, 2, 3, 4, 5, 7, 9] (obeys_iscsiLines_0_base _) (all_cons obeys_iscsiLines_0_start (List.forall_mem_nil _)) (obeys_iscsiLines_0_lines _) (by decide +kernel)

def obeys_iscsiLines_1_object (l : Nat) : Ns := [(c!"lineno", .int l), (c!"ipaddr", .str c!"i"), (c!"port", .int 3260), (c!"target", .str c!""), (c!"user", .none), (c!"password", .none), (c!"user_in", .none), (c!"password_in", .none), (c!"iface", .none)]

theorem obeys_iscsiLines_1_base (n : Str) : Command.FirstBase (F17_Iscsi.cls F17_IscsiData.cls) n [c!"--ipaddr=i"] obeys_iscsiLines_1_object := by
  intro b b' hb hb' line l; kernel_rfl

theorem obeys_iscsiLines_1_start : Command.FirstStart (F17_Iscsi.cls F17_IscsiData.cls) obeys_iscsiLines_1_object (iscsiLines.start.getD 0 ([], [])).2 := fun _ => .inl ⟨fun _ => rfl, (all_cons (by kernel_rfl) (all_cons (by kernel_rfl) (List.forall_mem_nil _)))⟩

theorem obeys_iscsiLines_1_lines (n : Str) : ∀ i ∈ [0, 1, 2, 3, 4, 5, 7, 10], Command.FirstLine (F17_Iscsi.cls F17_IscsiData.cls) n [c!"--ipaddr=i"] obeys_iscsiLines_1_object (iscsiLines.lines.getD i noLine) :=
  (all_cons (by intro b b' hb hb' x hx line l; (cases x with | nil => exact absurd rfl hx | cons a x => kernel_rfl))
    (all_cons (by intro b b' hb hb' x hx line l; (cases x with | nil => exact absurd rfl hx | cons a x => kernel_rfl))
    (all_cons (by intro b b' hb hb' x hx line l; kernel_rfl)
    (all_cons (by intro b b' hb hb' x hx line l; (cases x with | nil => exact absurd rfl hx | cons a x => kernel_rfl))
    (all_cons (by intro b b' hb hb' x hx line l; (cases x with | nil => exact absurd rfl hx | cons a x => kernel_rfl))
    (all_cons (by intro b b' hb hb' x hx line l; (cases x with | nil => exact absurd rfl hx | cons a x => kernel_rfl))
    (all_cons (by intro b b' hb hb' x hx line l; (cases x with | nil => exact absurd rfl hx | cons a x => kernel_rfl))
    (all_cons (by intro b b' hb hb' x hx line l; (cases x with | nil => exact absurd rfl hx | cons a x => kernel_rfl))
    (List.forall_mem_nil _)))))))))

theorem obeys_iscsiLines_1 : ∀ v, [Version.F17, Version.F18, Version.F19, Version.F20, Version.F21, Version.RHEL7, Version.F22, Version.F23, Version.F24, Version.F25, Version.F26, Version.F27, Version.F28, Version.RHEL8, Version.F29, Version.F30, Version.F31, Version.F32, Version.F33, Version.F34].contains v = true → Command.Obeys (F17_Iscsi.cls F17_IscsiData.cls) iscsiLines v :=
  obeys_of obeys_iscsiLines_1_object [0] [0, 1, 2, 3, 4, 5, 7, 10] (obeys_iscsiLines_1_base _) (all_cons obeys_iscsiLines_1_start (List.forall_mem_nil _)) (obeys_iscsiLines_1_lines _) (by decide +kernel)

def obeys_iscsiLines_2_object (l : Nat) : Ns := [(c!"lineno", .int l), (c!"ipaddr", .str c!"i"), (c!"port", .int 3260), (c!"target", .str c!""), (c!"user", .none), (c!"password", .none)]

theorem obeys_iscsiLines_2_base (n : Str) : Command.FirstBase (FC6_Iscsi.cls FC6_IscsiData.cls) n [c!"--ipaddr=i"] obeys_iscsiLines_2_object := by
  intro b b' hb hb' line l; kernel_rfl

theorem obeys_iscsiLines_2_start : Command.FirstStart (FC6_Iscsi.cls FC6_IscsiData.cls) obeys_iscsiLines_2_object (iscsiLines.start.getD 0 ([], [])).2 := fun _ => .inl ⟨fun _ => rfl, (all_cons (by kernel_rfl) (all_cons (by kernel_rfl) (List.forall_mem_nil _)))⟩

theorem obeys_iscsiLines_2_lines (n : Str) : ∀ i ∈ [0, 1, 2, 3, 4, 6, 8], Command.FirstLine (FC6_Iscsi.cls FC6_IscsiData.cls) n [c!"--ipaddr=i"] obeys_iscsiLines_2_object (iscsiLines.lines.getD i noLine) :=
  (all_cons (by intro b b' hb hb' x hx line l; (cases x with | nil => exact absurd rfl hx | cons a x => kernel_rfl))
    (all_cons (by intro b b' hb hb' x hx line l; (cases x with | nil => exact absurd rfl hx | cons a x => kernel_rfl))
    (all_cons (by intro b b' hb hb' x hx line l; kernel_rfl)
    (all_cons (by intro b b' hb hb' x hx line l; (cases x with | nil => exact absurd rfl hx | cons a x => kernel_rfl))
    (all_cons (by intro b b' hb hb' x hx line l; (cases x with | nil => exact absurd rfl hx | cons a x => kernel_rfl))
    (all_cons (by intro b b' hb hb' x hx line l; (cases x with | nil => exact absurd rfl hx | cons a x => kernel_rfl))
    (all_cons (by intro b b' hb hb' x hx line l; (cases x with | nil => exact absurd rfl hx | cons a x => kernel_rfl))
    (List.forall_mem_nil _))))))))

theorem obeys_iscsiLines_2 : ∀ v, [Version.FC6, Version.RHEL5, Version.F7, Version.F8, Version.F9].contains v = true → Command.Obeys (FC6_Iscsi.cls FC6_IscsiData.cls) iscsiLines v :=
  obeys_of obeys_iscsiLines_2_object [0] [0, 1, 2, 3, 4, 6, 8] (obeys_iscsiLines_2_base _) (all_cons obeys_iscsiLines_2_start (List.forall_mem_nil _)) (obeys_iscsiLines_2_lines _) (by decide +kernel)

def obeys_iscsiLines_3_object (l : Nat) : Ns := [(c!"lineno", .int l), (c!"ipaddr", .str c!"i"), (c!"port", .int 3260), (c!"target", .str c!""), (c!"user", .none), (c!"password", .none), (c!"user_in", .none), (c!"password_in", .none), (c!"iface", .none)]

theorem obeys_iscsiLines_3_base (n : Str) : Command.FirstBase (RHEL6_Iscsi.cls RHEL6_IscsiData.cls) n [c!"--ipaddr=i"] obeys_iscsiLines_3_object := by
  intro b b' hb hb' line l; kernel_rfl

theorem obeys_iscsiLines_3_start : Command.FirstStart (RHEL6_Iscsi.cls RHEL6_IscsiData.cls) obeys_iscsiLines_3_object (iscsiLines.start.getD 0 ([], [])).2 := fun _ => .inl ⟨fun _ => rfl, (all_cons (by kernel_rfl) (all_cons (by kernel_rfl) (List.forall_mem_nil _)))⟩

theorem obeys_iscsiLines_3_lines (n : Str) : ∀ i ∈ [0, 1, 2, 3, 4, 5, 7, 10], Command.FirstLine (RHEL6_Iscsi.cls RHEL6_IscsiData.cls) n [c!"--ipaddr=i"] obeys_iscsiLines_3_object (iscsiLines.lines.getD i noLine) :=
  (all_cons (by intro b b' hb hb' x hx line l; (cases x with | nil => exact absurd rfl hx | cons a x => kernel_rfl))
    (all_cons (by intro b b' hb hb' x hx line l; (cases x with | nil => exact absurd rfl hx | cons a x => kernel_rfl))
    (all_cons (by intro b b' hb hb' x hx line l; kernel_rfl)
    (all_cons (by intro b b' hb hb' x hx line l; (cases x with | nil => exact absurd rfl hx | cons a x => kernel_rfl))
    (all_cons (by intro b b' hb hb' x hx line l; (cases x with | nil => exact absurd rfl hx | cons a x => kernel_rfl))
    (all_cons (by intro b b' hb hb' x hx line l; (cases x with | nil => exact absurd rfl hx | cons a x => kernel_rfl))
    (all_cons (by intro b b' hb hb' x hx line l; (cases x with | nil => exact absurd rfl hx | cons a x => kernel_rfl))
    (all_cons (by intro b b' hb hb' x hx line l; (cases x with | nil => exact absurd rfl hx | cons a x => kernel_rfl))
    (List.forall_mem_nil _)))))))))

theorem obeys_iscsiLines_3 : ∀ v, [Version.RHEL6].contains v = true → Command.Obeys (RHEL6_Iscsi.cls RHEL6_IscsiData.cls) iscsiLines v :=
  obeys_of obeys_iscsiLines_3_object [0] [0, 1, 2, 3, 4, 5, 7, 10] (obeys_iscsiLines_3_base _) (all_cons obeys_iscsiLines_3_start (List.forall_mem_nil _)) (obeys_iscsiLines_3_lines _) (by decide +kernel)

theorem obeys_iscsiLines : iscsiLines.Obeyed := by
  unfold CommandLines.Obeyed commandMaps
  exact (all_cons (fun _ c h => by cases h; exact obeys_iscsiLines_0 _ rfl)
    (all_cons (fun _ c h => by cases h; exact obeys_iscsiLines_0 _ rfl)
    (all_cons (fun _ c h => by cases h; exact obeys_iscsiLines_0 _ rfl)
    (all_cons (fun _ c h => by cases h; exact obeys_iscsiLines_0 _ rfl)
    (all_cons (fun _ c h => by cases h; exact obeys_iscsiLines_0 _ rfl)
    (all_cons (fun _ c h => by cases h; exact obeys_iscsiLines_0 _ rfl)
    (all_cons (fun _ c h => by cases h; exact obeys_iscsiLines_0 _ rfl)
    (all_cons (fun _ c h => by cases h; exact obeys_iscsiLines_1 _ rfl)
    (all_cons (fun _ c h => by cases h; exact obeys_iscsiLines_1 _ rfl)
    (all_cons (fun _ c h => by cases h; exact obeys_iscsiLines_1 _ rfl)
    (all_cons (fun _ c h => by cases h; exact obeys_iscsiLines_1 _ rfl)
    (all_cons (fun _ c h => by cases h; exact obeys_iscsiLines_1 _ rfl)
    (all_cons (fun _ c h => by cases h; exact obeys_iscsiLines_1 _ rfl)
    (all_cons (fun _ c h => by cases h; exact obeys_iscsiLines_1 _ rfl)
    (all_cons (fun _ c h => by cases h; exact obeys_iscsiLines_1 _ rfl)
    (all_cons (fun _ c h => by cases h; exact obeys_iscsiLines_1 _ rfl)
    (all_cons (fun _ c h => by cases h; exact obeys_iscsiLines_1 _ rfl)
    (all_cons (fun _ c h => by cases h; exact obeys_iscsiLines_1 _ rfl)
    (all_cons (fun _ c h => by cases h; exact obeys_iscsiLines_1 _ rfl)
    (all_cons (fun _ c h => by cases h; exact obeys_iscsiLines_1 _ rfl)
    (all_cons (fun _ c h => by cases h; exact obeys_iscsiLines_1 _ rfl)
    (all_cons (fun _ c h => by cases h; exact obeys_iscsiLines_1 _ rfl)
    (all_cons (fun _ c h => by cases h; exact obeys_iscsiLines_1 _ rfl)
    (all_cons (fun _ c h => by cases h; exact obeys_iscsiLines_1 _ rfl)
    (all_cons (fun _ c h => by cases h; exact obeys_iscsiLines_1 _ rfl)
    (all_cons (fun _ c h => by cases h; exact obeys_iscsiLines_2 _ rfl)
    (all_cons (fun _ c h => by cases h; exact obeys_iscsiLines_2 _ rfl)
    (all_cons (fun _ c h => by cases h; exact obeys_iscsiLines_2 _ rfl)
    (all_cons (fun hv => absurd hv (by decide))
    (all_cons (fun hv => absurd hv (by decide))
    (all_cons (fun hv => absurd hv (by decide))
    (all_cons (fun _ c h => by cases h; exact obeys_iscsiLines_2 _ rfl)
    (all_cons (fun hv => absurd hv (by decide))
    (all_cons (fun hv => absurd hv (by decide))
    (all_cons (fun _ c h => by cases h; exact obeys_iscsiLines_2 _ rfl)
    (all_cons (fun _ c h => by cases h; exact obeys_iscsiLines_3 _ rfl)
    (all_cons (fun _ c h => by cases h; exact obeys_iscsiLines_1 _ rfl)
    (all_cons (fun _ c h => by cases h; exact obeys_iscsiLines_1 _ rfl) (List.forall_mem_nil _)))))))))))))))))))))))))))))))))))))))

def obeys_liloLines_0_object (_ : Nat) : Ns := [(c!"driveorder", .list []), (c!"appendLine", .str c!""), (c!"forceLBA", .bool false), (c!"linear", .bool true), (c!"location", .str c!"mbr"), (c!"md5pass", .str c!""), (c!"password", .str c!""), (c!"upgrade", .bool false), (c!"useLilo", .bool true)]

theorem obeys_liloLines_0_base : Command.FirstBase (FC3_Lilo.cls) c!"lilo" [] obeys_liloLines_0_object := by
  intro b b' hb hb' line l; kernel_rfl

theorem obeys_liloLines_0_start : Command.FirstStart (FC3_Lilo.cls) obeys_liloLines_0_object (liloLines.start.getD 0 ([], [])).2 := fun _ => .inr ⟨fun _ => rfl, by kernel_rfl⟩

theorem obeys_liloLines_0_lines : ∀ i ∈ [0, 1, 2, 3, 4, 5, 6, 7, 8, 9, 10, 11, 12], Command.FirstLine (FC3_Lilo.cls) c!"lilo" [] obeys_liloLines_0_object (liloLines.lines.getD i noLine) :=
  (all_cons (by intro b b' hb hb' x hx line l; (cases x with | nil => exact absurd rfl hx | cons a x => kernel_rfl))
    (all_cons (by intro b b' hb hb' x hx line l; kernel_rfl)
    (all_cons (by intro b b' hb hb' x hx line l; kernel_rfl)
    (all_cons (by intro b b' hb hb' x hx line l; kernel_rfl)
    (all_cons (by intro b b' hb hb' x hx line l; kernel_rfl)
    (all_cons (by intro b b' hb hb' x hx line l; kernel_rfl)
    (all_cons (by intro b b' hb hb' x hx line l; kernel_rfl)
    (all_cons (by intro b b' hb hb' x hx line l; kernel_rfl)
    (all_cons (by intro b b' hb hb' x hx line l; (cases x with | nil => exact absurd rfl hx | cons a x => kernel_rfl))
    (all_cons (by intro b b' hb hb' x hx line l; (cases x with | nil => exact absurd rfl hx | cons a x => kernel_rfl))
    (all_cons (by intro b b' hb hb' x hx line l; kernel_rfl)
    (all_cons (by intro b b' hb hb' x hx line l; kernel_rfl)
    (all_cons (by intro b b' hb hb' x hx line l; (cases x with | nil => exact absurd rfl hx | cons a x => kernel_rfl))
    (List.forall_mem_nil _))))))))))))))

theorem obeys_liloLines_0 : ∀ v, [Version.RHEL3, Version.FC3, Version.RHEL4].contains v = true → Command.Obeys (FC3_Lilo.cls) liloLines v :=
  obeys_of obeys_liloLines_0_object [0] [0, 1, 2, 3, 4, 5, 6, 7, 8, 9, 10, 11, 12] (obeys_liloLines_0_base) (all_cons obeys_liloLines_0_start (List.forall_mem_nil _)) (obeys_liloLines_0_lines) (by decide +kernel)

theorem obeys_liloLines : liloLines.Obeyed := by
  unfold CommandLines.Obeyed commandMaps
  exact (all_cons (fun hv => absurd hv (by decide))
    (all_cons (fun hv => absurd hv (by decide))
    (all_cons (fun hv => absurd hv (by decide))
    (all_cons (fun hv => absurd hv (by decide))
    (all_cons (fun hv => absurd hv (by decide))
    (all_cons (fun hv => absurd hv (by decide))
    (all_cons (fun hv => absurd hv (by decide))
    (all_cons (fun hv => absurd hv (by decide))
    (all_cons (fun hv => absurd hv (by decide))
    (all_cons (fun hv => absurd hv (by decide))
    (all_cons (fun hv => absurd hv (by decide))
    (all_cons (fun hv => absurd hv (by decide))
    (all_cons (fun hv => absurd hv (by decide))
    (all_cons (fun hv => absurd hv (by decide))
    (all_cons (fun hv => absurd hv (by decide))
    (all_cons (fun hv => absurd hv (by decide))
    (all_cons (fun hv => absurd hv (by decide))
    (all_cons (fun hv => absurd hv (by decide))
    (all_cons (fun hv => absurd hv (by decide))
    (all_cons (fun hv => absurd hv (by decide))
    (all_cons (fun hv => absurd hv (by decide))
    (all_cons (fun hv => absurd hv (by decide))
    (all_cons (fun hv => absurd hv (by decide))
    (all_cons (fun hv => absurd hv (by decide))
    (all_cons (fun hv => absurd hv (by decide))
    (all_cons (fun hv => absurd hv (by decide))
    (all_cons (fun hv => absurd hv (by decide))
    (all_cons (fun hv => absurd hv (by decide))
    (all_cons (fun _ c h => by cases h; exact obeys_liloLines_0 _ rfl)
    (all_cons (fun hv => absurd hv (by decide))
    (all_cons (fun hv => absurd hv (by decide))
    (all_cons (fun hv => absurd hv (by decide))
    (all_cons (fun _ c h => by cases h; exact obeys_liloLines_0 _ rfl)
    (all_cons (fun _ c h => by cases h; exact obeys_liloLines_0 _ rfl)
    (all_cons (fun hv => absurd hv (by decide))
    (all_cons (fun hv => absurd hv (by decide))
    (all_cons (fun hv => absurd hv (by decide))
    (all_cons (fun hv => absurd hv (by decide)) (List.forall_mem_nil _)))))))))))))))))))))))))))))))))))))))

def obeys_monitorLines_0_object (_ : Nat) : Ns := [(c!"hsync", .str c!""), (c!"monitor", .str c!""), (c!"vsync", .str c!""), (c!"probe", .bool true)]

theorem obeys_monitorLines_0_base (n : Str) : Command.FirstBase (FC6_Monitor.cls) n [] obeys_monitorLines_0_object := by
  intro b b' hb hb' line l; kernel_rfl

theorem obeys_monitorLines_0_start : Command.FirstStart (FC6_Monitor.cls) obeys_monitorLines_0_object (monitorLines.start.getD 0 ([], [])).2 := fun _ => .inr ⟨fun _ => rfl, by kernel_rfl⟩

theorem obeys_monitorLines_0_lines (n : Str) : ∀ i ∈ [0, 1, 2, 3], Command.FirstLine (FC6_Monitor.cls) n [] obeys_monitorLines_0_object (monitorLines.lines.getD i noLine) :=
  (all_cons (by intro b b' hb hb' x hx line l; (cases x with | nil => exact absurd rfl hx | cons a x => kernel_rfl))
    (all_cons (by intro b b' hb hb' x hx line l; (cases x with | nil => exact absurd rfl hx | cons a x => kernel_rfl))
    (all_cons (by intro b b' hb hb' x hx line l; (cases x with | nil => exact absurd rfl hx | cons a x => kernel_rfl))
    (all_cons (by intro b b' hb hb' x hx line l; kernel_rfl)
    (List.forall_mem_nil _)))))

theorem obeys_monitorLines_0 : ∀ v, [Version.FC6, Version.RHEL5, Version.F7, Version.F8, Version.F9].contains v = true → Command.Obeys (FC6_Monitor.cls) monitorLines v :=
  obeys_of obeys_monitorLines_0_object [0] [0, 1, 2, 3] (obeys_monitorLines_0_base _) (all_cons obeys_monitorLines_0_start (List.forall_mem_nil _)) (obeys_monitorLines_0_lines _) (by decide +kernel)

def obeys_monitorLines_1_object (_ : Nat) : Ns := [(c!"hsync", .str c!""), (c!"monitor", .str c!""), (c!"vsync", .str c!"")]

theorem obeys_monitorLines_1_base (n : Str) : Command.FirstBase (FC3_Monitor.cls) n [] obeys_monitorLines_1_object := by
  intro b b' hb hb' line l; kernel_rfl

theorem obeys_monitorLines_1_start : Command.FirstStart (FC3_Monitor.cls) obeys_monitorLines_1_object (monitorLines.start.getD 0 ([], [])).2 := fun _ => .inr ⟨fun _ => rfl, by kernel_rfl⟩

theorem obeys_monitorLines_1_lines (n : Str) : ∀ i ∈ [0, 1, 2, 4], Command.FirstLine (FC3_Monitor.cls) n [] obeys_monitorLines_1_object (monitorLines.lines.getD i noLine) :=
  (all_cons (by intro b b' hb hb' x hx line l; (cases x with | nil => exact absurd rfl hx | cons a x => kernel_rfl))
    (all_cons (by intro b b' hb hb' x hx line l; (cases x with | nil => exact absurd rfl hx | cons a x => kernel_rfl))
    (all_cons (by intro b b' hb hb' x hx line l; (cases x with | nil => exact absurd rfl hx | cons a x => kernel_rfl))
    (all_cons (by intro b b' hb hb' x hx line l; kernel_rfl)
    (List.forall_mem_nil _)))))

theorem obeys_monitorLines_1 : ∀ v, [Version.RHEL3, Version.FC3, Version.RHEL4, Version.FC4, Version.FC5].contains v = true → Command.Obeys (FC3_Monitor.cls) monitorLines v :=
  obeys_of obeys_monitorLines_1_object [0] [0, 1, 2, 4] (obeys_monitorLines_1_base _) (all_cons obeys_monitorLines_1_start (List.forall_mem_nil _)) (obeys_monitorLines_1_lines _) (by decide +kernel)

theorem obeys_monitorLines : monitorLines.Obeyed := by
  unfold CommandLines.Obeyed commandMaps
  exact (all_cons (fun hv => absurd hv (by decide))
    (all_cons (fun hv => absurd hv (by decide))
    (all_cons (fun hv => absurd hv (by decide))
    (all_cons (fun hv => absurd hv (by decide))
    (all_cons (fun hv => absurd hv (by decide))
    (all_cons (fun hv => absurd hv (by decide))
    (all_cons (fun hv => absurd hv (by decide))
    (all_cons (fun hv => absurd hv (by decide))
    (all_cons (fun hv => absurd hv (by decide))
    (all_cons (fun hv => absurd hv (by decide))
    (all_cons (fun hv => absurd hv (by decide))
    (all_cons (fun hv => absurd hv (by decide))
    (all_cons (fun hv => absurd hv (by decide))
    (all_cons (fun hv => absurd hv (by decide))
    (all_cons (fun hv => absurd hv (by decide))
    (all_cons (fun hv => absurd hv (by decide))
    (all_cons (fun hv => absurd hv (by decide))
    (all_cons (fun hv => absurd hv (by decide))
    (all_cons (fun hv => absurd hv (by decide))
    (all_cons (fun hv => absurd hv (by decide))
    (all_cons (fun hv => absurd hv (by decide))
    (all_cons (fun hv => absurd hv (by decide))
    (all_cons (fun hv => absurd hv (by decide))
    (all_cons (fun hv => absurd hv (by decide))
    (all_cons (fun hv => absurd hv (by decide))
    (all_cons (fun _ c h => by cases h; exact obeys_monitorLines_0 _ rfl)
    (all_cons (fun _ c h => by cases h; exact obeys_monitorLines_0 _ rfl)
    (all_cons (fun _ c h => by cases h; exact obeys_monitorLines_0 _ rfl)
    (all_cons (fun _ c h => by cases h; exact obeys_monitorLines_1 _ rfl)
    (all_cons (fun _ c h => by cases h; exact obeys_monitorLines_1 _ rfl)
    (all_cons (fun _ c h => by cases h; exact obeys_monitorLines_1 _ rfl)
    (all_cons (fun _ c h => by cases h; exact obeys_monitorLines_0 _ rfl)
    (all_cons (fun _ c h => by cases h; exact obeys_monitorLines_1 _ rfl)
    (all_cons (fun _ c h => by cases h; exact obeys_monitorLines_1 _ rfl)
    (all_cons (fun _ c h => by cases h; exact obeys_monitorLines_0 _ rfl)
    (all_cons (fun hv => absurd hv (by decide))
    (all_cons (fun hv => absurd hv (by decide))
    (all_cons (fun hv => absurd hv (by decide)) (List.forall_mem_nil _)))))))))))))))))))))))))))))))))))))))

def obeys_mouseLines_0_object (_ : Nat) : Ns := [(c!"device", .str c!""), (c!"emulthree", .bool false), (c!"mouse", .str c!"generic")]

theorem obeys_mouseLines_0_base (n : Str) : Command.FirstBase (RHEL3_Mouse.cls) n [c!"generic"] obeys_mouseLines_0_object := by
  intro b b' hb hb' line l; kernel_rfl

theorem obeys_mouseLines_0_start : Command.FirstStart (RHEL3_Mouse.cls) obeys_mouseLines_0_object (mouseLines.start.getD 0 ([], [])).2 := fun _ => .inr ⟨fun _ => rfl, by kernel_rfl⟩

theorem obeys_mouseLines_0_lines (n : Str) : ∀ i ∈ [0, 1], Command.FirstLine (RHEL3_Mouse.cls) n [c!"generic"] obeys_mouseLines_0_object (mouseLines.lines.getD i noLine) :=
  (all_cons (by intro b b' hb hb' x hx line l; (cases x with | nil => exact absurd rfl hx | cons a x => kernel_rfl))
    (all_cons (by intro b b' hb hb' x hx line l; kernel_rfl)
    (List.forall_mem_nil _)))

theorem obeys_mouseLines_0 : ∀ v, [Version.RHEL3].contains v = true → Command.Obeys (RHEL3_Mouse.cls) mouseLines v :=
  obeys_of obeys_mouseLines_0_object [0] [0, 1] (obeys_mouseLines_0_base _) (all_cons obeys_mouseLines_0_start (List.forall_mem_nil _)) (obeys_mouseLines_0_lines _) (by decide +kernel)

theorem obeys_mouseLines : mouseLines.Obeyed := by
  unfold CommandLines.Obeyed commandMaps
  exact (all_cons (fun hv => absurd hv (by decide))
    (all_cons (fun hv => absurd hv (by decide))
    (all_cons (fun hv => absurd hv (by decide))
    (all_cons (fun hv => absurd hv (by decide))
    (all_cons (fun hv => absurd hv (by decide))
    (all_cons (fun hv => absurd hv (by decide))
    (all_cons (fun hv => absurd hv (by decide))
    (all_cons (fun hv => absurd hv (by decide))
    (all_cons (fun hv => absurd hv (by decide))
    (all_cons (fun hv => absurd hv (by decide))
    (all_cons (fun hv => absurd hv (by decide))
    (all_cons (fun hv => absurd hv (by decide))
    (all_cons (fun hv => absurd hv (by decide))
    (all_cons (fun hv => absurd hv (by decide))
    (all_cons (fun hv => absurd hv (by decide))
    (all_cons (fun hv => absurd hv (by decide))
    (all_cons (fun hv => absurd hv (by decide))
    (all_cons (fun hv => absurd hv (by decide))
    (all_cons (fun hv => absurd hv (by decide))
    (all_cons (fun hv => absurd hv (by decide))
    (all_cons (fun hv => absurd hv (by decide))
    (all_cons (fun hv => absurd hv (by decide))
    (all_cons (fun hv => absurd hv (by decide))
    (all_cons (fun hv => absurd hv (by decide))
    (all_cons (fun hv => absurd hv (by decide))
    (all_cons (fun hv => absurd hv (by decide))
    (all_cons (fun hv => absurd hv (by decide))
    (all_cons (fun hv => absurd hv (by decide))
    (all_cons (fun hv => absurd hv (by decide))
    (all_cons (fun hv => absurd hv (by decide))
    (all_cons (fun hv => absurd hv (by decide))
    (all_cons (fun hv => absurd hv (by decide))
    (all_cons (fun _ c h => by cases h; exact obeys_mouseLines_0 _ rfl)
    (all_cons (fun hv => absurd hv (by decide))
    (all_cons (fun hv => absurd hv (by decide))
    (all_cons (fun hv => absurd hv (by decide))
    (all_cons (fun hv => absurd hv (by decide))
    (all_cons (fun hv => absurd hv (by decide)) (List.forall_mem_nil _)))))))))))))))))))))))))))))))))))))))

def obeys_rebootLines_0_object (_ : Nat) : Ns := [(c!"action", .int 1), (c!"eject", .bool false)]

theorem obeys_rebootLines_0_base : Command.FirstBase (FC6_Reboot.cls) c!"reboot" [] obeys_rebootLines_0_object := by
  intro b b' hb hb' line l; kernel_rfl

theorem obeys_rebootLines_0_start : Command.FirstStart (FC6_Reboot.cls) obeys_rebootLines_0_object (rebootLines.start.getD 0 ([], [])).2 := fun _ => .inr ⟨fun _ => rfl, by kernel_rfl⟩

theorem obeys_rebootLines_0_lines : ∀ i ∈ [0, 2], Command.FirstLine (FC6_Reboot.cls) c!"reboot" [] obeys_rebootLines_0_object (rebootLines.lines.getD i noLine) :=
  (all_cons (by intro b b' hb hb' x hx line l; kernel_rfl)
    (all_cons (by intro b b' hb hb' x hx line l; kernel_rfl)
    (List.forall_mem_nil _)))

theorem obeys_rebootLines_0 : ∀ v, [Version.FC6, Version.RHEL5, Version.F7, Version.F8, Version.F9, Version.F10, Version.F11, Version.F12, Version.F13, Version.RHEL6, Version.F14, Version.F15, Version.F16, Version.F17].contains v = true → Command.Obeys (FC6_Reboot.cls) rebootLines v :=
  obeys_of obeys_rebootLines_0_object [0] [0, 2] (obeys_rebootLines_0_base) (all_cons obeys_rebootLines_0_start (List.forall_mem_nil _)) (obeys_rebootLines_0_lines) (by decide +kernel)

def obeys_rebootLines_1_object (_ : Nat) : Ns := [(c!"action", .int 1), (c!"eject", .bool false)]

theorem obeys_rebootLines_1_base : Command.FirstBase (F18_Reboot.cls) c!"reboot" [] obeys_rebootLines_1_object := by
  intro b b' hb hb' line l; kernel_rfl

theorem obeys_rebootLines_1_start : Command.FirstStart (F18_Reboot.cls) obeys_rebootLines_1_object (rebootLines.start.getD 0 ([], [])).2 := fun _ => .inr ⟨fun _ => rfl, by kernel_rfl⟩

theorem obeys_rebootLines_1_lines : ∀ i ∈ [0, 2], Command.FirstLine (F18_Reboot.cls) c!"reboot" [] obeys_rebootLines_1_object (rebootLines.lines.getD i noLine) :=
  (all_cons (by intro b b' hb hb' x hx line l; kernel_rfl)
    (all_cons (by intro b b' hb hb' x hx line l; kernel_rfl)
    (List.forall_mem_nil _)))

theorem obeys_rebootLines_1 : ∀ v, [Version.F18, Version.F19, Version.F20, Version.F21, Version.RHEL7, Version.F22].contains v = true → Command.Obeys (F18_Reboot.cls) rebootLines v :=
  obeys_of obeys_rebootLines_1_object [0] [0, 2] (obeys_rebootLines_1_base) (all_cons obeys_rebootLines_1_start (List.forall_mem_nil _)) (obeys_rebootLines_1_lines) (by decide +kernel)

def obeys_rebootLines_2_object (_ : Nat) : Ns := [(c!"action", .int 1), (c!"eject", .bool false), (c!"kexec", .bool false)]

theorem obeys_rebootLines_2_base : Command.FirstBase (F23_Reboot.cls) c!"reboot" [] obeys_rebootLines_2_object := by
  intro b b' hb hb' line l; kernel_rfl

theorem obeys_rebootLines_2_start : Command.FirstStart (F23_Reboot.cls) obeys_rebootLines_2_object (rebootLines.start.getD 0 ([], [])).2 := fun _ => .inr ⟨fun _ => rfl, by kernel_rfl⟩

theorem obeys_rebootLines_2_lines : ∀ i ∈ [0, 3], Command.FirstLine (F23_Reboot.cls) c!"reboot" [] obeys_rebootLines_2_object (rebootLines.lines.getD i noLine) :=
  (all_cons (by intro b b' hb hb' x hx line l; kernel_rfl)
    (all_cons (by intro b b' hb hb' x hx line l; kernel_rfl)
    (List.forall_mem_nil _)))

theorem obeys_rebootLines_2 : ∀ v, [Version.F23, Version.F24, Version.F25, Version.F26, Version.F27, Version.F28, Version.RHEL8, Version.F29, Version.F30, Version.F31, Version.F32, Version.F33, Version.F34].contains v = true → Command.Obeys (F23_Reboot.cls) rebootLines v :=
  obeys_of obeys_rebootLines_2_object [0] [0, 3] (obeys_rebootLines_2_base) (all_cons obeys_rebootLines_2_start (List.forall_mem_nil _)) (obeys_rebootLines_2_lines) (by decide +kernel)

def obeys_rebootLines_3_object (_ : Nat) : Ns := [(c!"action", .int 1)]

theorem obeys_rebootLines_3_base : Command.FirstBase (FC3_Reboot.cls) c!"reboot" [] obeys_rebootLines_3_object := by
  intro b b' hb hb' line l; kernel_rfl

theorem obeys_rebootLines_3_start : Command.FirstStart (FC3_Reboot.cls) obeys_rebootLines_3_object (rebootLines.start.getD 0 ([], [])).2 := fun _ => .inr ⟨fun _ => rfl, by kernel_rfl⟩

theorem obeys_rebootLines_3_lines : ∀ i ∈ [1, 4], Command.FirstLine (FC3_Reboot.cls) c!"reboot" [] obeys_rebootLines_3_object (rebootLines.lines.getD i noLine) :=
  (all_cons (by intro b b' hb hb' x hx line l; kernel_rfl)
    (all_cons (by intro b b' hb hb' x hx line l; kernel_rfl)
    (List.forall_mem_nil _)))

theorem obeys_rebootLines_3 : ∀ v, [Version.RHEL3, Version.FC3, Version.RHEL4, Version.FC4, Version.FC5].contains v = true → Command.Obeys (FC3_Reboot.cls) rebootLines v :=
  obeys_of obeys_rebootLines_3_object [0] [1, 4] (obeys_rebootLines_3_base) (all_cons obeys_rebootLines_3_start (List.forall_mem_nil _)) (obeys_rebootLines_3_lines) (by decide +kernel)

theorem obeys_rebootLines : rebootLines.Obeyed := by
  unfold CommandLines.Obeyed commandMaps
  exact (all_cons (fun _ c h => by cases h; exact obeys_rebootLines_0 _ rfl)
    (all_cons (fun _ c h => by cases h; exact obeys_rebootLines_0 _ rfl)
    (all_cons (fun _ c h => by cases h; exact obeys_rebootLines_0 _ rfl)
    (all_cons (fun _ c h => by cases h; exact obeys_rebootLines_0 _ rfl)
    (all_cons (fun _ c h => by cases h; exact obeys_rebootLines_0 _ rfl)
    (all_cons (fun _ c h => by cases h; exact obeys_rebootLines_0 _ rfl)
    (all_cons (fun _ c h => by cases h; exact obeys_rebootLines_0 _ rfl)
    (all_cons (fun _ c h => by cases h; exact obeys_rebootLines_0 _ rfl)
    (all_cons (fun _ c h => by cases h; exact obeys_rebootLines_1 _ rfl)
    (all_cons (fun _ c h => by cases h; exact obeys_rebootLines_1 _ rfl)
    (all_cons (fun _ c h => by cases h; exact obeys_rebootLines_1 _ rfl)
    (all_cons (fun _ c h => by cases h; exact obeys_rebootLines_1 _ rfl)
    (all_cons (fun _ c h => by cases h; exact obeys_rebootLines_1 _ rfl)
    (all_cons (fun _ c h => by cases h; exact obeys_rebootLines_2 _ rfl)
    (all_cons (fun _ c h => by cases h; exact obeys_rebootLines_2 _ rfl)
    (all_cons (fun _ c h => by cases h; exact obeys_rebootLines_2 _ rfl)
    (all_cons (fun _ c h => by cases h; exact obeys_rebootLines_2 _ rfl)
    (all_cons (fun _ c h => by cases h; exact obeys_rebootLines_2 _ rfl)
    (all_cons (fun _ c h => by cases h; exact obeys_rebootLines_2 _ rfl)
    (all_cons (fun _ c h => by cases h; exact obeys_rebootLines_2 _ rfl)
    (all_cons (fun _ c h => by cases h; exact obeys_rebootLines_2 _ rfl)
    (all_cons (fun _ c h => by cases h; exact obeys_rebootLines_2 _ rfl)
    (all_cons (fun _ c h => by cases h; exact obeys_rebootLines_2 _ rfl)
    (all_cons (fun _ c h => by cases h; exact obeys_rebootLines_2 _ rfl)
    (all_cons (fun _ c h => by cases h; exact obeys_rebootLines_2 _ rfl)
    (all_cons (fun _ c h => by cases h; exact obeys_rebootLines_0 _ rfl)
    (all_cons (fun _ c h => by cases h; exact obeys_rebootLines_0 _ rfl)
    (all_cons (fun _ c h => by cases h; exact obeys_rebootLines_0 _ rfl)
    (all_cons (fun _ c h => by cases h; exact obeys_rebootLines_3 _ rfl)
    (all_cons (fun _ c h => by cases h; exact obeys_rebootLines_3 _ rfl)
    (all_cons (fun _ c h => by cases h; exact obeys_rebootLines_3 _ rfl)
    (all_cons (fun _ c h => by cases h; exact obeys_rebootLines_0 _ rfl)
    (all_cons (fun _ c h => by cases h; exact obeys_rebootLines_3 _ rfl)
    (all_cons (fun _ c h => by cases h; exact obeys_rebootLines_3 _ rfl)
    (all_cons (fun _ c h => by cases h; exact obeys_rebootLines_0 _ rfl)
    (all_cons (fun _ c h => by cases h; exact obeys_rebootLines_0 _ rfl)
    (all_cons (fun _ c h => by cases h; exact obeys_rebootLines_1 _ rfl)
    (all_cons (fun _ c h => by cases h; exact obeys_rebootLines_2 _ rfl) (List.forall_mem_nil _)))))))))))))))))))))))))))))))))))))))

def obeys_reqpartLines_0_object (_ : Nat) : Ns := [(c!"reqpart", .bool true), (c!"addBoot", .bool false)]

theorem obeys_reqpartLines_0_base (n : Str) : Command.FirstBase (F23_ReqPart.cls) n [] obeys_reqpartLines_0_object := by
  intro b b' hb hb' line l; rcases hb with rfl | rfl <;> rcases hb' with rfl | rfl <;> kernel_rfl

theorem obeys_reqpartLines_0_start : Command.FirstStart (F23_ReqPart.cls) obeys_reqpartLines_0_object (reqpartLines.start.getD 0 ([], [])).2 := fun _ => .inr ⟨fun _ => rfl, by kernel_rfl⟩

theorem obeys_reqpartLines_0_lines (n : Str) : ∀ i ∈ [0], Command.FirstLine (F23_ReqPart.cls) n [] obeys_reqpartLines_0_object (reqpartLines.lines.getD i noLine) :=
  (all_cons (by intro b b' hb hb' x hx line l; rcases hb with rfl | rfl <;> rcases hb' with rfl | rfl <;> kernel_rfl)
    (List.forall_mem_nil _))

theorem obeys_reqpartLines_0 : ∀ v, [Version.F23, Version.F24, Version.F25, Version.F26, Version.F27, Version.F28, Version.RHEL8, Version.F29, Version.F30, Version.F31, Version.F32, Version.F33, Version.F34].contains v = true → Command.Obeys (F23_ReqPart.cls) reqpartLines v :=
  obeys_of obeys_reqpartLines_0_object [0] [0] (obeys_reqpartLines_0_base _) (all_cons obeys_reqpartLines_0_start (List.forall_mem_nil _)) (obeys_reqpartLines_0_lines _) (by decide +kernel)

def obeys_reqpartLines_1_object (_ : Nat) : Ns := [(c!"reqpart", .bool true), (c!"addBoot", .bool false)]

theorem obeys_reqpartLines_1_base (n : Str) : Command.FirstBase (RHEL7_ReqPart.cls) n [] obeys_reqpartLines_1_object := by
  intro b b' hb hb' line l; rcases hb with rfl | rfl <;> rcases hb' with rfl | rfl <;> kernel_rfl

theorem obeys_reqpartLines_1_start : Command.FirstStart (RHEL7_ReqPart.cls) obeys_reqpartLines_1_object (reqpartLines.start.getD 0 ([], [])).2 := fun _ => .inr ⟨fun _ => rfl, by kernel_rfl⟩

theorem obeys_reqpartLines_1_lines (n : Str) : ∀ i ∈ [0], Command.FirstLine (RHEL7_ReqPart.cls) n [] obeys_reqpartLines_1_object (reqpartLines.lines.getD i noLine) :=
  (all_cons (by intro b b' hb hb' x hx line l; rcases hb with rfl | rfl <;> rcases hb' with rfl | rfl <;> kernel_rfl)
    (List.forall_mem_nil _))

theorem obeys_reqpartLines_1 : ∀ v, [Version.RHEL7].contains v = true → Command.Obeys (RHEL7_ReqPart.cls) reqpartLines v :=
  obeys_of obeys_reqpartLines_1_object [0] [0] (obeys_reqpartLines_1_base _) (all_cons obeys_reqpartLines_1_start (List.forall_mem_nil _)) (obeys_reqpartLines_1_lines _) (by decide +kernel)

theorem obeys_reqpartLines : reqpartLines.Obeyed := by
  unfold CommandLines.Obeyed commandMaps
  exact (all_cons (fun hv => absurd hv (by decide))
    (all_cons (fun hv => absurd hv (by decide))
    (all_cons (fun hv => absurd hv (by decide))
    (all_cons (fun hv => absurd hv (by decide))
    (all_cons (fun hv => absurd hv (by decide))
    (all_cons (fun hv => absurd hv (by decide))
    (all_cons (fun hv => absurd hv (by decide))
    (all_cons (fun hv => absurd hv (by decide))
    (all_cons (fun hv => absurd hv (by decide))
    (all_cons (fun hv => absurd hv (by decide))
    (all_cons (fun hv => absurd hv (by decide))
    (all_cons (fun hv => absurd hv (by decide))
    (all_cons (fun hv => absurd hv (by decide))
    (all_cons (fun _ c h => by cases h; exact obeys_reqpartLines_0 _ rfl)
    (all_cons (fun _ c h => by cases h; exact obeys_reqpartLines_0 _ rfl)
    (all_cons (fun _ c h => by cases h; exact obeys_reqpartLines_0 _ rfl)
    (all_cons (fun _ c h => by cases h; exact obeys_reqpartLines_0 _ rfl)
    (all_cons (fun _ c h => by cases h; exact obeys_reqpartLines_0 _ rfl)
    (all_cons (fun _ c h => by cases h; exact obeys_reqpartLines_0 _ rfl)
    (all_cons (fun _ c h => by cases h; exact obeys_reqpartLines_0 _ rfl)
    (all_cons (fun _ c h => by cases h; exact obeys_reqpartLines_0 _ rfl)
    (all_cons (fun _ c h => by cases h; exact obeys_reqpartLines_0 _ rfl)
    (all_cons (fun _ c h => by cases h; exact obeys_reqpartLines_0 _ rfl)
    (all_cons (fun _ c h => by cases h; exact obeys_reqpartLines_0 _ rfl)
    (all_cons (fun _ c h => by cases h; exact obeys_reqpartLines_0 _ rfl)
    (all_cons (fun hv => absurd hv (by decide))
    (all_cons (fun hv => absurd hv (by decide))
    (all_cons (fun hv => absurd hv (by decide))
    (all_cons (fun hv => absurd hv (by decide))
    (all_cons (fun hv => absurd hv (by decide))
    (all_cons (fun hv => absurd hv (by decide))
    (all_cons (fun hv => absurd hv (by decide))
    (all_cons (fun hv => absurd hv (by decide))
    (all_cons (fun hv => absurd hv (by decide))
    (all_cons (fun hv => absurd hv (by decide))
    (all_cons (fun hv => absurd hv (by decide))
    (all_cons (fun _ c h => by cases h; exact obeys_reqpartLines_1 _ rfl)
    (all_cons (fun _ c h => by cases h; exact obeys_reqpartLines_0 _ rfl) (List.forall_mem_nil _)))))))))))))))))))))))))))))))))))))))

def obeys_sshkeyLines_0_object (l : Nat) : Ns := [(c!"lineno", .int l), (c!"username", .str c!"u"), (c!"key", .str c!"k"), (c!"sshkey", .list [c!"k"])]

theorem obeys_sshkeyLines_0_base (n : Str) : Command.FirstBase (F22_SshKey.cls F22_SshKeyData.cls) n [c!"--username=u", c!"k"] obeys_sshkeyLines_0_object := by
  intro b b' hb hb' line l; kernel_rfl

theorem obeys_sshkeyLines_0_start : Command.FirstStart (F22_SshKey.cls F22_SshKeyData.cls) obeys_sshkeyLines_0_object (sshkeyLines.start.getD 0 ([], [])).2 := fun _ => .inl ⟨fun _ => rfl, (all_cons (by kernel_rfl) (all_cons (by kernel_rfl) (all_cons (by kernel_rfl) (List.forall_mem_nil _))))⟩

theorem obeys_sshkeyLines_0_lines (n : Str) : ∀ i ∈ [0], Command.FirstLine (F22_SshKey.cls F22_SshKeyData.cls) n [c!"--username=u", c!"k"] obeys_sshkeyLines_0_object (sshkeyLines.lines.getD i noLine) :=
  (all_cons (by intro b b' hb hb' x hx line l; (cases x with | nil => exact absurd rfl hx | cons a x => kernel_rfl))
    (List.forall_mem_nil _))

theorem obeys_sshkeyLines_0 : ∀ v, [Version.F22, Version.F23, Version.F24, Version.F25, Version.F26, Version.F27, Version.F28, Version.RHEL8, Version.F29, Version.F30, Version.F31, Version.F32, Version.F33, Version.F34].contains v = true → Command.Obeys (F22_SshKey.cls F22_SshKeyData.cls) sshkeyLines v :=
  obeys_of obeys_sshkeyLines_0_object [0] [0] (obeys_sshkeyLines_0_base _) (all_cons obeys_sshkeyLines_0_start (List.forall_mem_nil _)) (obeys_sshkeyLines_0_lines _) (by decide +kernel)

theorem obeys_sshkeyLines : sshkeyLines.Obeyed := by
  unfold CommandLines.Obeyed commandMaps
  exact (all_cons (fun hv => absurd hv (by decide))
    (all_cons (fun hv => absurd hv (by decide))
    (all_cons (fun hv => absurd hv (by decide))
    (all_cons (fun hv => absurd hv (by decide))
    (all_cons (fun hv => absurd hv (by decide))
    (all_cons (fun hv => absurd hv (by decide))
    (all_cons (fun hv => absurd hv (by decide))
    (all_cons (fun hv => absurd hv (by decide))
    (all_cons (fun hv => absurd hv (by decide))
    (all_cons (fun hv => absurd hv (by decide))
    (all_cons (fun hv => absurd hv (by decide))
    (all_cons (fun hv => absurd hv (by decide))
    (all_cons (fun _ c h => by cases h; exact obeys_sshkeyLines_0 _ rfl)
    (all_cons (fun _ c h => by cases h; exact obeys_sshkeyLines_0 _ rfl)
    (all_cons (fun _ c h => by cases h; exact obeys_sshkeyLines_0 _ rfl)
    (all_cons (fun _ c h => by cases h; exact obeys_sshkeyLines_0 _ rfl)
    (all_cons (fun _ c h => by cases h; exact obeys_sshkeyLines_0 _ rfl)
    (all_cons (fun _ c h => by cases h; exact obeys_sshkeyLines_0 _ rfl)
    (all_cons (fun _ c h => by cases h; exact obeys_sshkeyLines_0 _ rfl)
    (all_cons (fun _ c h => by cases h; exact obeys_sshkeyLines_0 _ rfl)
    (all_cons (fun _ c h => by cases h; exact obeys_sshkeyLines_0 _ rfl)
    (all_cons (fun _ c h => by cases h; exact obeys_sshkeyLines_0 _ rfl)
    (all_cons (fun _ c h => by cases h; exact obeys_sshkeyLines_0 _ rfl)
    (all_cons (fun _ c h => by cases h; exact obeys_sshkeyLines_0 _ rfl)
    (all_cons (fun _ c h => by cases h; exact obeys_sshkeyLines_0 _ rfl)
    (all_cons (fun hv => absurd hv (by decide))
    (all_cons (fun hv => absurd hv (by decide))
    (all_cons (fun hv => absurd hv (by decide))
    (all_cons (fun hv => absurd hv (by decide))
    (all_cons (fun hv => absurd hv (by decide))
    (all_cons (fun hv => absurd hv (by decide))
    (all_cons (fun hv => absurd hv (by decide))
    (all_cons (fun hv => absurd hv (by decide))
    (all_cons (fun hv => absurd hv (by decide))
    (all_cons (fun hv => absurd hv (by decide))
    (all_cons (fun hv => absurd hv (by decide))
    (all_cons (fun hv => absurd hv (by decide))
    (all_cons (fun _ c h => by cases h; exact obeys_sshkeyLines_0 _ rfl) (List.forall_mem_nil _)))))))))))))))))))))))))))))))))))))))

end Ks.Cmd
