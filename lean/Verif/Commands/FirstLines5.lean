import Verif.Commands.LineLogic
import Verif.Commands.LineTable
/-!
# The classes of the command maps do what the table of first lines says

Written by `scripts/gen_lines.py`.
-/
namespace Ks.Cmd

set_option linter.unusedVariables false

def obeys_clearpartLines_0_object (_ : Nat) : Ns := [(c!"drives", .list []), (c!"initAll", .bool false), (c!"type", .none)]

theorem obeys_clearpartLines_0_base (n : Str) : Command.FirstBase (FC3_ClearPart.cls) n [] obeys_clearpartLines_0_object := by
  intro b b' hb hb' line l; kernel_rfl

theorem obeys_clearpartLines_0_start : Command.FirstStart (FC3_ClearPart.cls) obeys_clearpartLines_0_object (clearpartLines.start.getD 0 ([], [])).2 := fun _ => .inr ⟨fun _ => rfl, by kernel_rfl⟩

theorem obeys_clearpartLines_0_lines (n : Str) : ∀ i ∈ [0, 1, 2, 3, 4, 5], Command.FirstLine (FC3_ClearPart.cls) n [] obeys_clearpartLines_0_object (clearpartLines.lines.getD i noLine) :=
  (all_cons (by intro b b' hb hb' x hx line l; kernel_rfl)
    (all_cons (by intro b b' hb hb' x hx line l; (cases x with | nil => exact absurd rfl hx | cons a x => kernel_rfl))
    (all_cons (by intro b b' hb hb' x hx line l; kernel_rfl)
    (all_cons (by intro b b' hb hb' x hx line l; kernel_rfl)
    (all_cons (by intro b b' hb hb' x hx line l; kernel_rfl)
    (all_cons (by intro b b' hb hb' x hx line l; kernel_rfl)
    (List.forall_mem_nil _)))))))

theorem obeys_clearpartLines_0 : ∀ v, [Version.RHEL3, Version.FC3, Version.RHEL4, Version.FC4, Version.FC5, Version.FC6, Version.RHEL5, Version.F7, Version.F8, Version.F9, Version.F10, Version.F11, Version.F12, Version.F13, Version.RHEL6, Version.F14, Version.F15, Version.F16].contains v = true → Command.Obeys (FC3_ClearPart.cls) clearpartLines v :=
  obeys_of obeys_clearpartLines_0_object [0] [0, 1, 2, 3, 4, 5] (obeys_clearpartLines_0_base _) (all_cons obeys_clearpartLines_0_start (List.forall_mem_nil _)) (obeys_clearpartLines_0_lines _) (by decide +kernel)

def obeys_clearpartLines_1_object (_ : Nat) : Ns := [(c!"drives", .list []), (c!"initAll", .bool false), (c!"type", .none), (c!"devices", .list [])]

theorem obeys_clearpartLines_1_base (n : Str) : Command.FirstBase (F17_ClearPart.cls) n [] obeys_clearpartLines_1_object := by
  intro b b' hb hb' line l; kernel_rfl

theorem obeys_clearpartLines_1_start : Command.FirstStart (F17_ClearPart.cls) obeys_clearpartLines_1_object (clearpartLines.start.getD 0 ([], [])).2 := fun _ => .inr ⟨fun _ => rfl, by kernel_rfl⟩

theorem obeys_clearpartLines_1_lines (n : Str) : ∀ i ∈ [0, 1, 2, 3, 4, 6, 7], Command.FirstLine (F17_ClearPart.cls) n [] obeys_clearpartLines_1_object (clearpartLines.lines.getD i noLine) :=
  (all_cons (by intro b b' hb hb' x hx line l; kernel_rfl)
    (all_cons (by intro b b' hb hb' x hx line l; (cases x with | nil => exact absurd rfl hx | cons a x => kernel_rfl))
    (all_cons (by intro b b' hb hb' x hx line l; kernel_rfl)
    (all_cons (by intro b b' hb hb' x hx line l; kernel_rfl)
    (all_cons (by intro b b' hb hb' x hx line l; kernel_rfl)
    (all_cons (by intro b b' hb hb' x hx line l; kernel_rfl)
    (all_cons (by intro b b' hb hb' x hx line l; (cases x with | nil => exact absurd rfl hx | cons a x => kernel_rfl))
    (List.forall_mem_nil _))))))))

theorem obeys_clearpartLines_1 : ∀ v, [Version.F17, Version.F18, Version.F19, Version.F20].contains v = true → Command.Obeys (F17_ClearPart.cls) clearpartLines v :=
  obeys_of obeys_clearpartLines_1_object [0] [0, 1, 2, 3, 4, 6, 7] (obeys_clearpartLines_1_base _) (all_cons obeys_clearpartLines_1_start (List.forall_mem_nil _)) (obeys_clearpartLines_1_lines _) (by decide +kernel)

def obeys_clearpartLines_2_object (_ : Nat) : Ns := [(c!"drives", .list []), (c!"initAll", .bool false), (c!"type", .none), (c!"devices", .list []), (c!"disklabel", .str c!"")]

theorem obeys_clearpartLines_2_base (n : Str) : Command.FirstBase (F21_ClearPart.cls) n [] obeys_clearpartLines_2_object := by
  intro b b' hb hb' line l; kernel_rfl

theorem obeys_clearpartLines_2_start : Command.FirstStart (F21_ClearPart.cls) obeys_clearpartLines_2_object (clearpartLines.start.getD 0 ([], [])).2 := fun _ => .inr ⟨fun _ => rfl, by kernel_rfl⟩

theorem obeys_clearpartLines_2_lines (n : Str) : ∀ i ∈ [0, 1, 2, 3, 4, 6, 8, 9], Command.FirstLine (F21_ClearPart.cls) n [] obeys_clearpartLines_2_object (clearpartLines.lines.getD i noLine) :=
  (all_cons (by intro b b' hb hb' x hx line l; kernel_rfl)
    (all_cons (by intro b b' hb hb' x hx line l; (cases x with | nil => exact absurd rfl hx | cons a x => kernel_rfl))
    (all_cons (by intro b b' hb hb' x hx line l; kernel_rfl)
    (all_cons (by intro b b' hb hb' x hx line l; kernel_rfl)
    (all_cons (by intro b b' hb hb' x hx line l; kernel_rfl)
    (all_cons (by intro b b' hb hb' x hx line l; kernel_rfl)
    (all_cons (by intro b b' hb hb' x hx line l; (cases x with | nil => exact absurd rfl hx | cons a x => kernel_rfl))
    (all_cons (by intro b b' hb hb' x hx line l; kernel_rfl)
    (List.forall_mem_nil _)))))))))

theorem obeys_clearpartLines_2 : ∀ v, [Version.F21, Version.F22, Version.F23, Version.F24, Version.F25, Version.F26, Version.F27].contains v = true → Command.Obeys (F21_ClearPart.cls) clearpartLines v :=
  obeys_of obeys_clearpartLines_2_object [0] [0, 1, 2, 3, 4, 6, 8, 9] (obeys_clearpartLines_2_base _) (all_cons obeys_clearpartLines_2_start (List.forall_mem_nil _)) (obeys_clearpartLines_2_lines _) (by decide +kernel)

def obeys_clearpartLines_3_object (_ : Nat) : Ns := [(c!"drives", .list []), (c!"initAll", .bool false), (c!"type", .none), (c!"devices", .list []), (c!"disklabel", .str c!""), (c!"cdl", .bool false)]

theorem obeys_clearpartLines_3_base (n : Str) : Command.FirstBase (F28_ClearPart.cls) n [] obeys_clearpartLines_3_object := by
  intro b b' hb hb' line l; kernel_rfl

theorem obeys_clearpartLines_3_start : Command.FirstStart (F28_ClearPart.cls) obeys_clearpartLines_3_object (clearpartLines.start.getD 0 ([], [])).2 := fun _ => .inr ⟨fun _ => rfl, by kernel_rfl⟩

theorem obeys_clearpartLines_3_lines (n : Str) : ∀ i ∈ [0, 1, 2, 3, 4, 6, 8, 10], Command.FirstLine (F28_ClearPart.cls) n [] obeys_clearpartLines_3_object (clearpartLines.lines.getD i noLine) :=
  (all_cons (by intro b b' hb hb' x hx line l; kernel_rfl)
    (all_cons (by intro b b' hb hb' x hx line l; (cases x with | nil => exact absurd rfl hx | cons a x => kernel_rfl))
    (all_cons (by intro b b' hb hb' x hx line l; kernel_rfl)
    (all_cons (by intro b b' hb hb' x hx line l; kernel_rfl)
    (all_cons (by intro b b' hb hb' x hx line l; kernel_rfl)
    (all_cons (by intro b b' hb hb' x hx line l; kernel_rfl)
    (all_cons (by intro b b' hb hb' x hx line l; (cases x with | nil => exact absurd rfl hx | cons a x => kernel_rfl))
    (all_cons (by intro b b' hb hb' x hx line l; kernel_rfl)
    (List.forall_mem_nil _)))))))))

theorem obeys_clearpartLines_3 : ∀ v, [Version.F28, Version.RHEL8, Version.F29, Version.F30, Version.F31, Version.F32, Version.F33, Version.F34].contains v = true → Command.Obeys (F28_ClearPart.cls) clearpartLines v :=
  obeys_of obeys_clearpartLines_3_object [0] [0, 1, 2, 3, 4, 6, 8, 10] (obeys_clearpartLines_3_base _) (all_cons obeys_clearpartLines_3_start (List.forall_mem_nil _)) (obeys_clearpartLines_3_lines _) (by decide +kernel)

def obeys_clearpartLines_4_object (_ : Nat) : Ns := [(c!"drives", .list []), (c!"initAll", .bool false), (c!"type", .none), (c!"devices", .list []), (c!"disklabel", .str c!""), (c!"cdl", .bool false)]

theorem obeys_clearpartLines_4_base (n : Str) : Command.FirstBase (RHEL7_ClearPart.cls) n [] obeys_clearpartLines_4_object := by
  intro b b' hb hb' line l; kernel_rfl

theorem obeys_clearpartLines_4_start : Command.FirstStart (RHEL7_ClearPart.cls) obeys_clearpartLines_4_object (clearpartLines.start.getD 0 ([], [])).2 := fun _ => .inr ⟨fun _ => rfl, by kernel_rfl⟩

theorem obeys_clearpartLines_4_lines (n : Str) : ∀ i ∈ [0, 1, 2, 3, 4, 6, 8, 10], Command.FirstLine (RHEL7_ClearPart.cls) n [] obeys_clearpartLines_4_object (clearpartLines.lines.getD i noLine) :=
  (all_cons (by intro b b' hb hb' x hx line l; kernel_rfl)
    (all_cons (by intro b b' hb hb' x hx line l; (cases x with | nil => exact absurd rfl hx | cons a x => kernel_rfl))
    (all_cons (by intro b b' hb hb' x hx line l; kernel_rfl)
    (all_cons (by intro b b' hb hb' x hx line l; kernel_rfl)
    (all_cons (by intro b b' hb hb' x hx line l; kernel_rfl)
    (all_cons (by intro b b' hb hb' x hx line l; kernel_rfl)
    (all_cons (by intro b b' hb hb' x hx line l; (cases x with | nil => exact absurd rfl hx | cons a x => kernel_rfl))
    (all_cons (by intro b b' hb hb' x hx line l; kernel_rfl)
    (List.forall_mem_nil _)))))))))

theorem obeys_clearpartLines_4 : ∀ v, [Version.RHEL7].contains v = true → Command.Obeys (RHEL7_ClearPart.cls) clearpartLines v :=
  obeys_of obeys_clearpartLines_4_object [0] [0, 1, 2, 3, 4, 6, 8, 10] (obeys_clearpartLines_4_base _) (all_cons obeys_clearpartLines_4_start (List.forall_mem_nil _)) (obeys_clearpartLines_4_lines _) (by decide +kernel)

theorem obeys_clearpartLines : clearpartLines.Obeyed := by
  unfold CommandLines.Obeyed commandMaps
  exact (all_cons (fun _ c h => by cases h; exact obeys_clearpartLines_0 _ rfl)
    (all_cons (fun _ c h => by cases h; exact obeys_clearpartLines_0 _ rfl)
    (all_cons (fun _ c h => by cases h; exact obeys_clearpartLines_0 _ rfl)
    (all_cons (fun _ c h => by cases h; exact obeys_clearpartLines_0 _ rfl)
    (all_cons (fun _ c h => by cases h; exact obeys_clearpartLines_0 _ rfl)
    (all_cons (fun _ c h => by cases h; exact obeys_clearpartLines_0 _ rfl)
    (all_cons (fun _ c h => by cases h; exact obeys_clearpartLines_0 _ rfl)
    (all_cons (fun _ c h => by cases h; exact obeys_clearpartLines_1 _ rfl)
    (all_cons (fun _ c h => by cases h; exact obeys_clearpartLines_1 _ rfl)
    (all_cons (fun _ c h => by cases h; exact obeys_clearpartLines_1 _ rfl)
    (all_cons (fun _ c h => by cases h; exact obeys_clearpartLines_1 _ rfl)
    (all_cons (fun _ c h => by cases h; exact obeys_clearpartLines_2 _ rfl)
    (all_cons (fun _ c h => by cases h; exact obeys_clearpartLines_2 _ rfl)
    (all_cons (fun _ c h => by cases h; exact obeys_clearpartLines_2 _ rfl)
    (all_cons (fun _ c h => by cases h; exact obeys_clearpartLines_2 _ rfl)
    (all_cons (fun _ c h => by cases h; exact obeys_clearpartLines_2 _ rfl)
    (all_cons (fun _ c h => by cases h; exact obeys_clearpartLines_2 _ rfl)
    (all_cons (fun _ c h => by cases h; exact obeys_clearpartLines_2 _ rfl)
    (all_cons (fun _ c h => by cases h; exact obeys_clearpartLines_3 _ rfl)
    (all_cons (fun _ c h => by cases h; exact obeys_clearpartLines_3 _ rfl)
    (all_cons (fun _ c h => by cases h; exact obeys_clearpartLines_3 _ rfl)
    (all_cons (fun _ c h => by cases h; exact obeys_clearpartLines_3 _ rfl)
    (all_cons (fun _ c h => by cases h; exact obeys_clearpartLines_3 _ rfl)
    (all_cons (fun _ c h => by cases h; exact obeys_clearpartLines_3 _ rfl)
    (all_cons (fun _ c h => by cases h; exact obeys_clearpartLines_3 _ rfl)
    (all_cons (fun _ c h => by cases h; exact obeys_clearpartLines_0 _ rfl)
    (all_cons (fun _ c h => by cases h; exact obeys_clearpartLines_0 _ rfl)
    (all_cons (fun _ c h => by cases h; exact obeys_clearpartLines_0 _ rfl)
    (all_cons (fun _ c h => by cases h; exact obeys_clearpartLines_0 _ rfl)
    (all_cons (fun _ c h => by cases h; exact obeys_clearpartLines_0 _ rfl)
    (all_cons (fun _ c h => by cases h; exact obeys_clearpartLines_0 _ rfl)
    (all_cons (fun _ c h => by cases h; exact obeys_clearpartLines_0 _ rfl)
    (all_cons (fun _ c h => by cases h; exact obeys_clearpartLines_0 _ rfl)
    (all_cons (fun _ c h => by cases h; exact obeys_clearpartLines_0 _ rfl)
    (all_cons (fun _ c h => by cases h; exact obeys_clearpartLines_0 _ rfl)
    (all_cons (fun _ c h => by cases h; exact obeys_clearpartLines_0 _ rfl)
    (all_cons (fun _ c h => by cases h; exact obeys_clearpartLines_4 _ rfl)
    (all_cons (fun _ c h => by cases h; exact obeys_clearpartLines_3 _ rfl) (List.forall_mem_nil _)))))))))))))))))))))))))))))))))))))))

def obeys_clearpartLines2_0_object (_ : Nat) : Ns := [(c!"drives", .list []), (c!"initAll", .bool false), (c!"type", .int 1)]

theorem obeys_clearpartLines2_0_base (n : Str) : Command.FirstBase (FC3_ClearPart.cls) n [c!"--all"] obeys_clearpartLines2_0_object := by
  intro b b' hb hb' line l; kernel_rfl

theorem obeys_clearpartLines2_0_start : Command.FirstStart (FC3_ClearPart.cls) obeys_clearpartLines2_0_object (clearpartLines2.start.getD 0 ([], [])).2 := fun _ => .inr ⟨fun _ => rfl, by kernel_rfl⟩

theorem obeys_clearpartLines2_0_lines (n : Str) : ∀ i ∈ [0, 1, 2], Command.FirstLine (FC3_ClearPart.cls) n [c!"--all"] obeys_clearpartLines2_0_object (clearpartLines2.lines.getD i noLine) :=
  (all_cons (by intro b b' hb hb' x hx line l; kernel_rfl)
    (all_cons (by intro b b' hb hb' x hx line l; (cases x with | nil => exact absurd rfl hx | cons a x => kernel_rfl))
    (all_cons (by intro b b' hb hb' x hx line l; kernel_rfl)
    (List.forall_mem_nil _))))

theorem obeys_clearpartLines2_0 : ∀ v, [Version.RHEL3, Version.FC3, Version.RHEL4, Version.FC4, Version.FC5, Version.FC6, Version.RHEL5, Version.F7, Version.F8, Version.F9, Version.F10, Version.F11, Version.F12, Version.F13, Version.RHEL6, Version.F14, Version.F15, Version.F16].contains v = true → Command.Obeys (FC3_ClearPart.cls) clearpartLines2 v :=
  obeys_of obeys_clearpartLines2_0_object [0] [0, 1, 2] (obeys_clearpartLines2_0_base _) (all_cons obeys_clearpartLines2_0_start (List.forall_mem_nil _)) (obeys_clearpartLines2_0_lines _) (by decide +kernel)

def obeys_clearpartLines2_1_object (_ : Nat) : Ns := [(c!"drives", .list []), (c!"initAll", .bool false), (c!"type", .int 1), (c!"devices", .list [])]

theorem obeys_clearpartLines2_1_base (n : Str) : Command.FirstBase (F17_ClearPart.cls) n [c!"--all"] obeys_clearpartLines2_1_object := by
  intro b b' hb hb' line l; kernel_rfl

theorem obeys_clearpartLines2_1_start : Command.FirstStart (F17_ClearPart.cls) obeys_clearpartLines2_1_object (clearpartLines2.start.getD 0 ([], [])).2 := fun _ => .inr ⟨fun _ => rfl, by kernel_rfl⟩

theorem obeys_clearpartLines2_1_lines (n : Str) : ∀ i ∈ [0, 1, 2], Command.FirstLine (F17_ClearPart.cls) n [c!"--all"] obeys_clearpartLines2_1_object (clearpartLines2.lines.getD i noLine) :=
  (all_cons (by intro b b' hb hb' x hx line l; kernel_rfl)
    (all_cons (by intro b b' hb hb' x hx line l; (cases x with | nil => exact absurd rfl hx | cons a x => kernel_rfl))
    (all_cons (by intro b b' hb hb' x hx line l; kernel_rfl)
    (List.forall_mem_nil _))))

theorem obeys_clearpartLines2_1 : ∀ v, [Version.F17, Version.F18, Version.F19, Version.F20].contains v = true → Command.Obeys (F17_ClearPart.cls) clearpartLines2 v :=
  obeys_of obeys_clearpartLines2_1_object [0] [0, 1, 2] (obeys_clearpartLines2_1_base _) (all_cons obeys_clearpartLines2_1_start (List.forall_mem_nil _)) (obeys_clearpartLines2_1_lines _) (by decide +kernel)

def obeys_clearpartLines2_2_object (_ : Nat) : Ns := [(c!"drives", .list []), (c!"initAll", .bool false), (c!"type", .int 1), (c!"devices", .list []), (c!"disklabel", .str c!"")]

theorem obeys_clearpartLines2_2_base (n : Str) : Command.FirstBase (F21_ClearPart.cls) n [c!"--all"] obeys_clearpartLines2_2_object := by
  intro b b' hb hb' line l; kernel_rfl

theorem obeys_clearpartLines2_2_start : Command.FirstStart (F21_ClearPart.cls) obeys_clearpartLines2_2_object (clearpartLines2.start.getD 0 ([], [])).2 := fun _ => .inr ⟨fun _ => rfl, by kernel_rfl⟩

theorem obeys_clearpartLines2_2_lines (n : Str) : ∀ i ∈ [0, 1, 2], Command.FirstLine (F21_ClearPart.cls) n [c!"--all"] obeys_clearpartLines2_2_object (clearpartLines2.lines.getD i noLine) :=
  (all_cons (by intro b b' hb hb' x hx line l; kernel_rfl)
    (all_cons (by intro b b' hb hb' x hx line l; (cases x with | nil => exact absurd rfl hx | cons a x => kernel_rfl))
    (all_cons (by intro b b' hb hb' x hx line l; kernel_rfl)
    (List.forall_mem_nil _))))

theorem obeys_clearpartLines2_2 : ∀ v, [Version.F21, Version.F22, Version.F23, Version.F24, Version.F25, Version.F26, Version.F27].contains v = true → Command.Obeys (F21_ClearPart.cls) clearpartLines2 v :=
  obeys_of obeys_clearpartLines2_2_object [0] [0, 1, 2] (obeys_clearpartLines2_2_base _) (all_cons obeys_clearpartLines2_2_start (List.forall_mem_nil _)) (obeys_clearpartLines2_2_lines _) (by decide +kernel)

def obeys_clearpartLines2_3_object (_ : Nat) : Ns := [(c!"drives", .list []), (c!"initAll", .bool false), (c!"type", .int 1), (c!"devices", .list []), (c!"disklabel", .str c!""), (c!"cdl", .bool false)]

theorem obeys_clearpartLines2_3_base (n : Str) : Command.FirstBase (F28_ClearPart.cls) n [c!"--all"] obeys_clearpartLines2_3_object := by
  intro b b' hb hb' line l; kernel_rfl

theorem obeys_clearpartLines2_3_start : Command.FirstStart (F28_ClearPart.cls) obeys_clearpartLines2_3_object (clearpartLines2.start.getD 0 ([], [])).2 := fun _ => .inr ⟨fun _ => rfl, by kernel_rfl⟩

theorem obeys_clearpartLines2_3_lines (n : Str) : ∀ i ∈ [0, 1, 2], Command.FirstLine (F28_ClearPart.cls) n [c!"--all"] obeys_clearpartLines2_3_object (clearpartLines2.lines.getD i noLine) :=
  (all_cons (by intro b b' hb hb' x hx line l; kernel_rfl)
    (all_cons (by intro b b' hb hb' x hx line l; (cases x with | nil => exact absurd rfl hx | cons a x => kernel_rfl))
    (all_cons (by intro b b' hb hb' x hx line l; kernel_rfl)
    (List.forall_mem_nil _))))

theorem obeys_clearpartLines2_3 : ∀ v, [Version.F28, Version.RHEL8, Version.F29, Version.F30, Version.F31, Version.F32, Version.F33, Version.F34].contains v = true → Command.Obeys (F28_ClearPart.cls) clearpartLines2 v :=
  obeys_of obeys_clearpartLines2_3_object [0] [0, 1, 2] (obeys_clearpartLines2_3_base _) (all_cons obeys_clearpartLines2_3_start (List.forall_mem_nil _)) (obeys_clearpartLines2_3_lines _) (by decide +kernel)

def obeys_clearpartLines2_4_object (_ : Nat) : Ns := [(c!"drives", .list []), (c!"initAll", .bool false), (c!"type", .int 1), (c!"devices", .list []), (c!"disklabel", .str c!""), (c!"cdl", .bool false)]

theorem obeys_clearpartLines2_4_base (n : Str) : Command.FirstBase (RHEL7_ClearPart.cls) n [c!"--all"] obeys_clearpartLines2_4_object := by
  intro b b' hb hb' line l; kernel_rfl

theorem obeys_clearpartLines2_4_start : Command.FirstStart (RHEL7_ClearPart.cls) obeys_clearpartLines2_4_object (clearpartLines2.start.getD 0 ([], [])).2 := fun _ => .inr ⟨fun _ => rfl, by kernel_rfl⟩

theorem obeys_clearpartLines2_4_lines (n : Str) : ∀ i ∈ [0, 1, 2], Command.FirstLine (RHEL7_ClearPart.cls) n [c!"--all"] obeys_clearpartLines2_4_object (clearpartLines2.lines.getD i noLine) :=
  (all_cons (by intro b b' hb hb' x hx line l; kernel_rfl)
    (all_cons (by intro b b' hb hb' x hx line l; (cases x with | nil => exact absurd rfl hx | cons a x => kernel_rfl))
    (all_cons (by intro b b' hb hb' x hx line l; kernel_rfl)
    (List.forall_mem_nil _))))

theorem obeys_clearpartLines2_4 : ∀ v, [Version.RHEL7].contains v = true → Command.Obeys (RHEL7_ClearPart.cls) clearpartLines2 v :=
  obeys_of obeys_clearpartLines2_4_object [0] [0, 1, 2] (obeys_clearpartLines2_4_base _) (all_cons obeys_clearpartLines2_4_start (List.forall_mem_nil _)) (obeys_clearpartLines2_4_lines _) (by decide +kernel)

theorem obeys_clearpartLines2 : clearpartLines2.Obeyed := by
  unfold CommandLines.Obeyed commandMaps
  exact (all_cons (fun _ c h => by cases h; exact obeys_clearpartLines2_0 _ rfl)
    (all_cons (fun _ c h => by cases h; exact obeys_clearpartLines2_0 _ rfl)
    (all_cons (fun _ c h => by cases h; exact obeys_clearpartLines2_0 _ rfl)
    (all_cons (fun _ c h => by cases h; exact obeys_clearpartLines2_0 _ rfl)
    (all_cons (fun _ c h => by cases h; exact obeys_clearpartLines2_0 _ rfl)
    (all_cons (fun _ c h => by cases h; exact obeys_clearpartLines2_0 _ rfl)
    (all_cons (fun _ c h => by cases h; exact obeys_clearpartLines2_0 _ rfl)
    (all_cons (fun _ c h => by cases h; exact obeys_clearpartLines2_1 _ rfl)
    (all_cons (fun _ c h => by cases h; exact obeys_clearpartLines2_1 _ rfl)
    (all_cons (fun _ c h => by cases h; exact obeys_clearpartLines2_1 _ rfl)
    (all_cons (fun _ c h => by cases h; exact obeys_clearpartLines2_1 _ rfl)
    (all_cons (fun _ c h => by cases h; exact obeys_clearpartLines2_2 _ rfl)
    (all_cons (fun _ c h => by cases h; exact obeys_clearpartLines2_2 _ rfl)
    (all_cons (fun _ c h => by cases h; exact obeys_clearpartLines2_2 _ rfl)
    (all_cons (fun _ c h => by cases h; exact obeys_clearpartLines2_2 _ rfl)
    (all_cons (fun _ c h => by cases h; exact obeys_clearpartLines2_2 _ rfl)
    (all_cons (fun _ c h => by cases h; exact obeys_clearpartLines2_2 _ rfl)
    (all_cons (fun _ c h => by cases h; exact obeys_clearpartLines2_2 _ rfl)
    (all_cons (fun _ c h => by cases h; exact obeys_clearpartLines2_3 _ rfl)
    (all_cons (fun _ c h => by cases h; exact obeys_clearpartLines2_3 _ rfl)
    (all_cons (fun _ c h => by cases h; exact obeys_clearpartLines2_3 _ rfl)
    (all_cons (fun _ c h => by cases h; exact obeys_clearpartLines2_3 _ rfl)
    (all_cons (fun _ c h => by cases h; exact obeys_clearpartLines2_3 _ rfl)
    (all_cons (fun _ c h => by cases h; exact obeys_clearpartLines2_3 _ rfl)
    (all_cons (fun _ c h => by cases h; exact obeys_clearpartLines2_3 _ rfl)
    (all_cons (fun _ c h => by cases h; exact obeys_clearpartLines2_0 _ rfl)
    (all_cons (fun _ c h => by cases h; exact obeys_clearpartLines2_0 _ rfl)
    (all_cons (fun _ c h => by cases h; exact obeys_clearpartLines2_0 _ rfl)
    (all_cons (fun _ c h => by cases h; exact obeys_clearpartLines2_0 _ rfl)
    (all_cons (fun _ c h => by cases h; exact obeys_clearpartLines2_0 _ rfl)
    (all_cons (fun _ c h => by cases h; exact obeys_clearpartLines2_0 _ rfl)
    (all_cons (fun _ c h => by cases h; exact obeys_clearpartLines2_0 _ rfl)
    (all_cons (fun _ c h => by cases h; exact obeys_clearpartLines2_0 _ rfl)
    (all_cons (fun _ c h => by cases h; exact obeys_clearpartLines2_0 _ rfl)
    (all_cons (fun _ c h => by cases h; exact obeys_clearpartLines2_0 _ rfl)
    (all_cons (fun _ c h => by cases h; exact obeys_clearpartLines2_0 _ rfl)
    (all_cons (fun _ c h => by cases h; exact obeys_clearpartLines2_4 _ rfl)
    (all_cons (fun _ c h => by cases h; exact obeys_clearpartLines2_3 _ rfl) (List.forall_mem_nil _)))))))))))))))))))))))))))))))))))))))

def obeys_graphicalLines_0_object (_ : Nat) : Ns := [(c!"displayMode", .int 1)]

theorem obeys_graphicalLines_0_base : Command.FirstBase (FC3_DisplayMode.cls) c!"graphical" [] obeys_graphicalLines_0_object := by
  intro b b' hb hb' line l; kernel_rfl

theorem obeys_graphicalLines_0_start : Command.FirstStart (FC3_DisplayMode.cls) obeys_graphicalLines_0_object (graphicalLines.start.getD 0 ([], [])).2 := fun _ => .inr ⟨fun _ => rfl, by kernel_rfl⟩

theorem obeys_graphicalLines_0_lines : ∀ i ∈ [0], Command.FirstLine (FC3_DisplayMode.cls) c!"graphical" [] obeys_graphicalLines_0_object (graphicalLines.lines.getD i noLine) :=
  (all_cons (by intro b b' hb hb' x hx line l; kernel_rfl)
    (List.forall_mem_nil _))

theorem obeys_graphicalLines_0 : ∀ v, [Version.RHEL3, Version.FC3, Version.RHEL4, Version.FC4, Version.FC5, Version.FC6, Version.RHEL5, Version.F7, Version.F8, Version.F9, Version.F10, Version.F11, Version.F12, Version.F13, Version.RHEL6, Version.F14, Version.F15, Version.F16, Version.F17, Version.F18, Version.F19, Version.F20, Version.F21, Version.RHEL7, Version.F22, Version.F23, Version.F24, Version.F25].contains v = true → Command.Obeys (FC3_DisplayMode.cls) graphicalLines v :=
  obeys_of obeys_graphicalLines_0_object [0] [0] (obeys_graphicalLines_0_base) (all_cons obeys_graphicalLines_0_start (List.forall_mem_nil _)) (obeys_graphicalLines_0_lines) (by decide +kernel)

def obeys_graphicalLines_1_object (_ : Nat) : Ns := [(c!"displayMode", .int 1), (c!"nonInteractive", .bool false)]

theorem obeys_graphicalLines_1_base : Command.FirstBase (F26_DisplayMode.cls) c!"graphical" [] obeys_graphicalLines_1_object := by
  intro b b' hb hb' line l; kernel_rfl

theorem obeys_graphicalLines_1_start : Command.FirstStart (F26_DisplayMode.cls) obeys_graphicalLines_1_object (graphicalLines.start.getD 0 ([], [])).2 := fun _ => .inr ⟨fun _ => rfl, by kernel_rfl⟩

theorem obeys_graphicalLines_1_lines : ∀ i ∈ [1], Command.FirstLine (F26_DisplayMode.cls) c!"graphical" [] obeys_graphicalLines_1_object (graphicalLines.lines.getD i noLine) :=
  (all_cons (by intro b b' hb hb' x hx line l; kernel_rfl)
    (List.forall_mem_nil _))

theorem obeys_graphicalLines_1 : ∀ v, [Version.F26, Version.F27, Version.F28, Version.RHEL8, Version.F29, Version.F30, Version.F31, Version.F32, Version.F33, Version.F34].contains v = true → Command.Obeys (F26_DisplayMode.cls) graphicalLines v :=
  obeys_of obeys_graphicalLines_1_object [0] [1] (obeys_graphicalLines_1_base) (all_cons obeys_graphicalLines_1_start (List.forall_mem_nil _)) (obeys_graphicalLines_1_lines) (by decide +kernel)

theorem obeys_graphicalLines : graphicalLines.Obeyed := by
  unfold CommandLines.Obeyed commandMaps
  exact (all_cons (fun _ c h => by cases h; exact obeys_graphicalLines_0 _ rfl)
    (all_cons (fun _ c h => by cases h; exact obeys_graphicalLines_0 _ rfl)
    (all_cons (fun _ c h => by cases h; exact obeys_graphicalLines_0 _ rfl)
    (all_cons (fun _ c h => by cases h; exact obeys_graphicalLines_0 _ rfl)
    (all_cons (fun _ c h => by cases h; exact obeys_graphicalLines_0 _ rfl)
    (all_cons (fun _ c h => by cases h; exact obeys_graphicalLines_0 _ rfl)
    (all_cons (fun _ c h => by cases h; exact obeys_graphicalLines_0 _ rfl)
    (all_cons (fun _ c h => by cases h; exact obeys_graphicalLines_0 _ rfl)
    (all_cons (fun _ c h => by cases h; exact obeys_graphicalLines_0 _ rfl)
    (all_cons (fun _ c h => by cases h; exact obeys_graphicalLines_0 _ rfl)
    (all_cons (fun _ c h => by cases h; exact obeys_graphicalLines_0 _ rfl)
    (all_cons (fun _ c h => by cases h; exact obeys_graphicalLines_0 _ rfl)
    (all_cons (fun _ c h => by cases h; exact obeys_graphicalLines_0 _ rfl)
    (all_cons (fun _ c h => by cases h; exact obeys_graphicalLines_0 _ rfl)
    (all_cons (fun _ c h => by cases h; exact obeys_graphicalLines_0 _ rfl)
    (all_cons (fun _ c h => by cases h; exact obeys_graphicalLines_0 _ rfl)
    (all_cons (fun _ c h => by cases h; exact obeys_graphicalLines_1 _ rfl)
    (all_cons (fun _ c h => by cases h; exact obeys_graphicalLines_1 _ rfl)
    (all_cons (fun _ c h => by cases h; exact obeys_graphicalLines_1 _ rfl)
    (all_cons (fun _ c h => by cases h; exact obeys_graphicalLines_1 _ rfl)
    (all_cons (fun _ c h => by cases h; exact obeys_graphicalLines_1 _ rfl)
    (all_cons (fun _ c h => by cases h; exact obeys_graphicalLines_1 _ rfl)
    (all_cons (fun _ c h => by cases h; exact obeys_graphicalLines_1 _ rfl)
    (all_cons (fun _ c h => by cases h; exact obeys_graphicalLines_1 _ rfl)
    (all_cons (fun _ c h => by cases h; exact obeys_graphicalLines_1 _ rfl)
    (all_cons (fun _ c h => by cases h; exact obeys_graphicalLines_0 _ rfl)
    (all_cons (fun _ c h => by cases h; exact obeys_graphicalLines_0 _ rfl)
    (all_cons (fun _ c h => by cases h; exact obeys_graphicalLines_0 _ rfl)
    (all_cons (fun _ c h => by cases h; exact obeys_graphicalLines_0 _ rfl)
    (all_cons (fun _ c h => by cases h; exact obeys_graphicalLines_0 _ rfl)
    (all_cons (fun _ c h => by cases h; exact obeys_graphicalLines_0 _ rfl)
    (all_cons (fun _ c h => by cases h; exact obeys_graphicalLines_0 _ rfl)
    (all_cons (fun _ c h => by cases h; exact obeys_graphicalLines_0 _ rfl)
    (all_cons (fun _ c h => by cases h; exact obeys_graphicalLines_0 _ rfl)
    (all_cons (fun _ c h => by cases h; exact obeys_graphicalLines_0 _ rfl)
    (all_cons (fun _ c h => by cases h; exact obeys_graphicalLines_0 _ rfl)
    (all_cons (fun _ c h => by cases h; exact obeys_graphicalLines_0 _ rfl)
    (all_cons (fun _ c h => by cases h; exact obeys_graphicalLines_1 _ rfl) (List.forall_mem_nil _)))))))))))))))))))))))))))))))))))))))

def obeys_iscsinameLines_0_object (_ : Nat) : Ns := [(c!"iscsiname", .str c!"I")]

theorem obeys_iscsinameLines_0_base (n : Str) : Command.FirstBase (FC6_IscsiName.cls) n [c!"I"] obeys_iscsinameLines_0_object := by
  intro b b' hb hb' line l; kernel_rfl

theorem obeys_iscsinameLines_0_start : Command.FirstStart (FC6_IscsiName.cls) obeys_iscsinameLines_0_object (iscsinameLines.start.getD 0 ([], [])).2 := fun _ => .inr ⟨fun _ => rfl, by kernel_rfl⟩

theorem obeys_iscsinameLines_0_lines (n : Str) : ∀ i ∈ [], Command.FirstLine (FC6_IscsiName.cls) n [c!"I"] obeys_iscsinameLines_0_object (iscsinameLines.lines.getD i noLine) :=
  (List.forall_mem_nil _)

theorem obeys_iscsinameLines_0 : ∀ v, [Version.FC6, Version.RHEL5, Version.F7, Version.F8, Version.F9, Version.F10, Version.F11, Version.F12, Version.F13, Version.RHEL6, Version.F14, Version.F15, Version.F16, Version.F17, Version.F18, Version.F19, Version.F20, Version.F21, Version.RHEL7, Version.F22, Version.F23, Version.F24, Version.F25, Version.F26, Version.F27, Version.F28, Version.RHEL8, Version.F29, Version.F30, Version.F31, Version.F32, Version.F33, Version.F34].contains v = true → Command.Obeys (FC6_IscsiName.cls) iscsinameLines v :=
  obeys_of obeys_iscsinameLines_0_object [0] [] (obeys_iscsinameLines_0_base _) (all_cons obeys_iscsinameLines_0_start (List.forall_mem_nil _)) (obeys_iscsinameLines_0_lines _) (by decide +kernel)

theorem obeys_iscsinameLines : iscsinameLines.Obeyed := by
  unfold CommandLines.Obeyed commandMaps
  exact (all_cons (fun _ c h => by cases h; exact obeys_iscsinameLines_0 _ rfl)
    (all_cons (fun _ c h => by cases h; exact obeys_iscsinameLines_0 _ rfl)
    (all_cons (fun _ c h => by cases h; exact obeys_iscsinameLines_0 _ rfl)
    (all_cons (fun _ c h => by cases h; exact obeys_iscsinameLines_0 _ rfl)
    (all_cons (fun _ c h => by cases h; exact obeys_iscsinameLines_0 _ rfl)
    (all_cons (fun _ c h => by cases h; exact obeys_iscsinameLines_0 _ rfl)
    (all_cons (fun _ c h => by cases h; exact obeys_iscsinameLines_0 _ rfl)
    (all_cons (fun _ c h => by cases h; exact obeys_iscsinameLines_0 _ rfl)
    (all_cons (fun _ c h => by cases h; exact obeys_iscsinameLines_0 _ rfl)
    (all_cons (fun _ c h => by cases h; exact obeys_iscsinameLines_0 _ rfl)
    (all_cons (fun _ c h => by cases h; exact obeys_iscsinameLines_0 _ rfl)
    (all_cons (fun _ c h => by cases h; exact obeys_iscsinameLines_0 _ rfl)
    (all_cons (fun _ c h => by cases h; exact obeys_iscsinameLines_0 _ rfl)
    (all_cons (fun _ c h => by cases h; exact obeys_iscsinameLines_0 _ rfl)
    (all_cons (fun _ c h => by cases h; exact obeys_iscsinameLines_0 _ rfl)
    (all_cons (fun _ c h => by cases h; exact obeys_iscsinameLines_0 _ rfl)
    (all_cons (fun _ c h => by cases h; exact obeys_iscsinameLines_0 _ rfl)
    (all_cons (fun _ c h => by cases h; exact obeys_iscsinameLines_0 _ rfl)
    (all_cons (fun _ c h => by cases h; exact obeys_iscsinameLines_0 _ rfl)
    (all_cons (fun _ c h => by cases h; exact obeys_iscsinameLines_0 _ rfl)
    (all_cons (fun _ c h => by cases h; exact obeys_iscsinameLines_0 _ rfl)
    (all_cons (fun _ c h => by cases h; exact obeys_iscsinameLines_0 _ rfl)
    (all_cons (fun _ c h => by cases h; exact obeys_iscsinameLines_0 _ rfl)
    (all_cons (fun _ c h => by cases h; exact obeys_iscsinameLines_0 _ rfl)
    (all_cons (fun _ c h => by cases h; exact obeys_iscsinameLines_0 _ rfl)
    (all_cons (fun _ c h => by cases h; exact obeys_iscsinameLines_0 _ rfl)
    (all_cons (fun _ c h => by cases h; exact obeys_iscsinameLines_0 _ rfl)
    (all_cons (fun _ c h => by cases h; exact obeys_iscsinameLines_0 _ rfl)
    (all_cons (fun hv => absurd hv (by decide))
    (all_cons (fun hv => absurd hv (by decide))
    (all_cons (fun hv => absurd hv (by decide))
    (all_cons (fun _ c h => by cases h; exact obeys_iscsinameLines_0 _ rfl)
    (all_cons (fun hv => absurd hv (by decide))
    (all_cons (fun hv => absurd hv (by decide))
    (all_cons (fun _ c h => by cases h; exact obeys_iscsinameLines_0 _ rfl)
    (all_cons (fun _ c h => by cases h; exact obeys_iscsinameLines_0 _ rfl)
    (all_cons (fun _ c h => by cases h; exact obeys_iscsinameLines_0 _ rfl)
    (all_cons (fun _ c h => by cases h; exact obeys_iscsinameLines_0 _ rfl) (List.forall_mem_nil _)))))))))))))))))))))))))))))))))))))))

def obeys_keyboardLines_0_object (_ : Nat) : Ns := [(c!"keyboard", .str c!"K")]

theorem obeys_keyboardLines_0_base (n : Str) : Command.FirstBase (FC3_Keyboard.cls) n [c!"K"] obeys_keyboardLines_0_object := by
  intro b b' hb hb' line l; kernel_rfl

theorem obeys_keyboardLines_0_start : Command.FirstStart (FC3_Keyboard.cls) obeys_keyboardLines_0_object (keyboardLines.start.getD 0 ([], [])).2 := fun _ => .inr ⟨fun _ => rfl, by kernel_rfl⟩

theorem obeys_keyboardLines_0_lines (n : Str) : ∀ i ∈ [0, 2, 4], Command.FirstLine (FC3_Keyboard.cls) n [c!"K"] obeys_keyboardLines_0_object (keyboardLines.lines.getD i noLine) :=
  (all_cons (by intro b b' hb hb' x hx line l; (cases x with | nil => exact absurd rfl hx | cons a x => kernel_rfl))
    (all_cons (by intro b b' hb hb' x hx line l; (cases x with | nil => exact absurd rfl hx | cons a x => kernel_rfl))
    (all_cons (by intro b b' hb hb' x hx line l; (cases x with | nil => exact absurd rfl hx | cons a x => kernel_rfl))
    (List.forall_mem_nil _))))

theorem obeys_keyboardLines_0 : ∀ v, [Version.RHEL3, Version.FC3, Version.RHEL4, Version.FC4, Version.FC5, Version.FC6, Version.RHEL5, Version.F7, Version.F8, Version.F9, Version.F10, Version.F11, Version.F12, Version.F13, Version.RHEL6, Version.F14, Version.F15, Version.F16, Version.F17].contains v = true → Command.Obeys (FC3_Keyboard.cls) keyboardLines v :=
  obeys_of obeys_keyboardLines_0_object [0] [0, 2, 4] (obeys_keyboardLines_0_base _) (all_cons obeys_keyboardLines_0_start (List.forall_mem_nil _)) (obeys_keyboardLines_0_lines _) (by decide +kernel)

def obeys_keyboardLines_1_object (_ : Nat) : Ns := [(c!"_keyboard", .str c!"K"), (c!"vc_keymap", .str c!""), (c!"x_layouts", .list []), (c!"switch_options", .list []), (c!"kbd", .list [c!"K"])]

theorem obeys_keyboardLines_1_base (n : Str) : Command.FirstBase (F18_Keyboard.cls) n [c!"K"] obeys_keyboardLines_1_object := by
  intro b b' hb hb' line l; kernel_rfl

theorem obeys_keyboardLines_1_start : Command.FirstStart (F18_Keyboard.cls) obeys_keyboardLines_1_object (keyboardLines.start.getD 1 ([], [])).2 := fun _ => .inr ⟨fun _ => rfl, by kernel_rfl⟩

theorem obeys_keyboardLines_1_lines (n : Str) : ∀ i ∈ [1, 3, 5], Command.FirstLine (F18_Keyboard.cls) n [c!"K"] obeys_keyboardLines_1_object (keyboardLines.lines.getD i noLine) :=
  (all_cons (by intro b b' hb hb' x hx line l; (cases x with | nil => exact absurd rfl hx | cons a x => kernel_rfl))
    (all_cons (by intro b b' hb hb' x hx line l; (cases x with | nil => exact absurd rfl hx | cons a x => kernel_rfl))
    (all_cons (by intro b b' hb hb' x hx line l; (cases x with | nil => exact absurd rfl hx | cons a x => kernel_rfl))
    (List.forall_mem_nil _))))

theorem obeys_keyboardLines_1 : ∀ v, [Version.F18, Version.F19, Version.F20, Version.F21, Version.RHEL7, Version.F22, Version.F23, Version.F24, Version.F25, Version.F26, Version.F27, Version.F28, Version.RHEL8, Version.F29, Version.F30, Version.F31, Version.F32, Version.F33, Version.F34].contains v = true → Command.Obeys (F18_Keyboard.cls) keyboardLines v :=
  obeys_of obeys_keyboardLines_1_object [1] [1, 3, 5] (obeys_keyboardLines_1_base _) (all_cons obeys_keyboardLines_1_start (List.forall_mem_nil _)) (obeys_keyboardLines_1_lines _) (by decide +kernel)

theorem obeys_keyboardLines : keyboardLines.Obeyed := by
  unfold CommandLines.Obeyed commandMaps
  exact (all_cons (fun _ c h => by cases h; exact obeys_keyboardLines_0 _ rfl)
    (all_cons (fun _ c h => by cases h; exact obeys_keyboardLines_0 _ rfl)
    (all_cons (fun _ c h => by cases h; exact obeys_keyboardLines_0 _ rfl)
    (all_cons (fun _ c h => by cases h; exact obeys_keyboardLines_0 _ rfl)
    (all_cons (fun _ c h => by cases h; exact obeys_keyboardLines_0 _ rfl)
    (all_cons (fun _ c h => by cases h; exact obeys_keyboardLines_0 _ rfl)
    (all_cons (fun _ c h => by cases h; exact obeys_keyboardLines_0 _ rfl)
    (all_cons (fun _ c h => by cases h; exact obeys_keyboardLines_0 _ rfl)
    (all_cons (fun _ c h => by cases h; exact obeys_keyboardLines_1 _ rfl)
    (all_cons (fun _ c h => by cases h; exact obeys_keyboardLines_1 _ rfl)
    (all_cons (fun _ c h => by cases h; exact obeys_keyboardLines_1 _ rfl)
    (all_cons (fun _ c h => by cases h; exact obeys_keyboardLines_1 _ rfl)
    (all_cons (fun _ c h => by cases h; exact obeys_keyboardLines_1 _ rfl)
    (all_cons (fun _ c h => by cases h; exact obeys_keyboardLines_1 _ rfl)
    (all_cons (fun _ c h => by cases h; exact obeys_keyboardLines_1 _ rfl)
    (all_cons (fun _ c h => by cases h; exact obeys_keyboardLines_1 _ rfl)
    (all_cons (fun _ c h => by cases h; exact obeys_keyboardLines_1 _ rfl)
    (all_cons (fun _ c h => by cases h; exact obeys_keyboardLines_1 _ rfl)
    (all_cons (fun _ c h => by cases h; exact obeys_keyboardLines_1 _ rfl)
    (all_cons (fun _ c h => by cases h; exact obeys_keyboardLines_1 _ rfl)
    (all_cons (fun _ c h => by cases h; exact obeys_keyboardLines_1 _ rfl)
    (all_cons (fun _ c h => by cases h; exact obeys_keyboardLines_1 _ rfl)
    (all_cons (fun _ c h => by cases h; exact obeys_keyboardLines_1 _ rfl)
    (all_cons (fun _ c h => by cases h; exact obeys_keyboardLines_1 _ rfl)
    (all_cons (fun _ c h => by cases h; exact obeys_keyboardLines_1 _ rfl)
    (all_cons (fun _ c h => by cases h; exact obeys_keyboardLines_0 _ rfl)
    (all_cons (fun _ c h => by cases h; exact obeys_keyboardLines_0 _ rfl)
    (all_cons (fun _ c h => by cases h; exact obeys_keyboardLines_0 _ rfl)
    (all_cons (fun _ c h => by cases h; exact obeys_keyboardLines_0 _ rfl)
    (all_cons (fun _ c h => by cases h; exact obeys_keyboardLines_0 _ rfl)
    (all_cons (fun _ c h => by cases h; exact obeys_keyboardLines_0 _ rfl)
    (all_cons (fun _ c h => by cases h; exact obeys_keyboardLines_0 _ rfl)
    (all_cons (fun _ c h => by cases h; exact obeys_keyboardLines_0 _ rfl)
    (all_cons (fun _ c h => by cases h; exact obeys_keyboardLines_0 _ rfl)
    (all_cons (fun _ c h => by cases h; exact obeys_keyboardLines_0 _ rfl)
    (all_cons (fun _ c h => by cases h; exact obeys_keyboardLines_0 _ rfl)
    (all_cons (fun _ c h => by cases h; exact obeys_keyboardLines_1 _ rfl)
    (all_cons (fun _ c h => by cases h; exact obeys_keyboardLines_1 _ rfl) (List.forall_mem_nil _)))))))))))))))))))))))))))))))))))))))

def obeys_keyboardLines2_0_object (_ : Nat) : Ns := [(c!"_keyboard", .str c!""), (c!"vc_keymap", .str c!"v"), (c!"x_layouts", .list []), (c!"switch_options", .list []), (c!"kbd", .list [])]

theorem obeys_keyboardLines2_0_base (n : Str) : Command.FirstBase (F18_Keyboard.cls) n [c!"--vckeymap=v"] obeys_keyboardLines2_0_object := by
  intro b b' hb hb' line l; kernel_rfl

theorem obeys_keyboardLines2_0_start : Command.FirstStart (F18_Keyboard.cls) obeys_keyboardLines2_0_object (keyboardLines2.start.getD 0 ([], [])).2 := fun _ => .inr ⟨fun _ => rfl, by kernel_rfl⟩

theorem obeys_keyboardLines2_0_lines (n : Str) : ∀ i ∈ [0, 1], Command.FirstLine (F18_Keyboard.cls) n [c!"--vckeymap=v"] obeys_keyboardLines2_0_object (keyboardLines2.lines.getD i noLine) :=
  (all_cons (by intro b b' hb hb' x hx line l; (cases x with | nil => exact absurd rfl hx | cons a x => kernel_rfl))
    (all_cons (by intro b b' hb hb' x hx line l; (cases x with | nil => exact absurd rfl hx | cons a x => kernel_rfl))
    (List.forall_mem_nil _)))

theorem obeys_keyboardLines2_0 : ∀ v, [Version.F18, Version.F19, Version.F20, Version.F21, Version.RHEL7, Version.F22, Version.F23, Version.F24, Version.F25, Version.F26, Version.F27, Version.F28, Version.RHEL8, Version.F29, Version.F30, Version.F31, Version.F32, Version.F33, Version.F34].contains v = true → Command.Obeys (F18_Keyboard.cls) keyboardLines2 v :=
  obeys_of obeys_keyboardLines2_0_object [0] [0, 1] (obeys_keyboardLines2_0_base _) (all_cons obeys_keyboardLines2_0_start (List.forall_mem_nil _)) (obeys_keyboardLines2_0_lines _) (by decide +kernel)

theorem obeys_keyboardLines2 : keyboardLines2.Obeyed := by
  unfold CommandLines.Obeyed commandMaps
  exact (all_cons (fun hv => absurd hv (by decide))
    (all_cons (fun hv => absurd hv (by decide))
    (all_cons (fun hv => absurd hv (by decide))
    (all_cons (fun hv => absurd hv (by decide))
    (all_cons (fun hv => absurd hv (by decide))
    (all_cons (fun hv => absurd hv (by decide))
    (all_cons (fun hv => absurd hv (by decide))
    (all_cons (fun hv => absurd hv (by decide))
    (all_cons (fun _ c h => by cases h; exact obeys_keyboardLines2_0 _ rfl)
    (all_cons (fun _ c h => by cases h; exact obeys_keyboardLines2_0 _ rfl)
    (all_cons (fun _ c h => by cases h; exact obeys_keyboardLines2_0 _ rfl)
    (all_cons (fun _ c h => by cases h; exact obeys_keyboardLines2_0 _ rfl)
    (all_cons (fun _ c h => by cases h; exact obeys_keyboardLines2_0 _ rfl)
    (all_cons (fun _ c h => by cases h; exact obeys_keyboardLines2_0 _ rfl)
    (all_cons (fun _ c h => by cases h; exact obeys_keyboardLines2_0 _ rfl)
    (all_cons (fun _ c h => by cases h; exact obeys_keyboardLines2_0 _ rfl)
    (all_cons (fun _ c h => by cases h; exact obeys_keyboardLines2_0 _ rfl)
    (all_cons (fun _ c h => by cases h; exact obeys_keyboardLines2_0 _ rfl)
    (all_cons (fun _ c h => by cases h; exact obeys_keyboardLines2_0 _ rfl)
    (all_cons (fun _ c h => by cases h; exact obeys_keyboardLines2_0 _ rfl)
    (all_cons (fun _ c h => by cases h; exact obeys_keyboardLines2_0 _ rfl)
    (all_cons (fun _ c h => by cases h; exact obeys_keyboardLines2_0 _ rfl)
    (all_cons (fun _ c h => by cases h; exact obeys_keyboardLines2_0 _ rfl)
    (all_cons (fun _ c h => by cases h; exact obeys_keyboardLines2_0 _ rfl)
    (all_cons (fun _ c h => by cases h; exact obeys_keyboardLines2_0 _ rfl)
    (all_cons (fun hv => absurd hv (by decide))
    (all_cons (fun hv => absurd hv (by decide))
    (all_cons (fun hv => absurd hv (by decide))
    (all_cons (fun hv => absurd hv (by decide))
    (all_cons (fun hv => absurd hv (by decide))
    (all_cons (fun hv => absurd hv (by decide))
    (all_cons (fun hv => absurd hv (by decide))
    (all_cons (fun hv => absurd hv (by decide))
    (all_cons (fun hv => absurd hv (by decide))
    (all_cons (fun hv => absurd hv (by decide))
    (all_cons (fun hv => absurd hv (by decide))
    (all_cons (fun _ c h => by cases h; exact obeys_keyboardLines2_0 _ rfl)
    (all_cons (fun _ c h => by cases h; exact obeys_keyboardLines2_0 _ rfl) (List.forall_mem_nil _)))))))))))))))))))))))))))))))))))))))

def obeys_nfsLines_0_object (_ : Nat) : Ns := [(c!"server", .str c!"s"), (c!"dir", .str c!"d"), (c!"opts", .none)]

theorem obeys_nfsLines_0_base (n : Str) : Command.FirstBase (FC6_NFS.cls) n [c!"--server=s", c!"--dir=d"] obeys_nfsLines_0_object := by
  intro b b' hb hb' line l; kernel_rfl

theorem obeys_nfsLines_0_start : Command.FirstStart (FC6_NFS.cls) obeys_nfsLines_0_object (nfsLines.start.getD 0 ([], [])).2 := fun _ => .inr ⟨fun _ => rfl, by kernel_rfl⟩

theorem obeys_nfsLines_0_lines (n : Str) : ∀ i ∈ [0, 1, 2], Command.FirstLine (FC6_NFS.cls) n [c!"--server=s", c!"--dir=d"] obeys_nfsLines_0_object (nfsLines.lines.getD i noLine) :=
  (all_cons (by intro b b' hb hb' x hx line l; (cases x with | nil => exact absurd rfl hx | cons a x => kernel_rfl))
    (all_cons (by intro b b' hb hb' x hx line l; (cases x with | nil => exact absurd rfl hx | cons a x => kernel_rfl))
    (all_cons (by intro b b' hb hb' x hx line l; (cases x with | nil => exact absurd rfl hx | cons a x => kernel_rfl))
    (List.forall_mem_nil _))))

theorem obeys_nfsLines_0 : ∀ v, [Version.FC6, Version.RHEL5, Version.F7, Version.F8, Version.F9, Version.F10, Version.F11, Version.F12, Version.F13, Version.RHEL6, Version.F14, Version.F15, Version.F16, Version.F17, Version.F18, Version.F19, Version.F20, Version.F21, Version.RHEL7, Version.F22, Version.F23, Version.F24, Version.F25, Version.F26, Version.F27, Version.F28, Version.RHEL8, Version.F29, Version.F30, Version.F31, Version.F32, Version.F33, Version.F34].contains v = true → Command.Obeys (FC6_NFS.cls) nfsLines v :=
  obeys_of obeys_nfsLines_0_object [0] [0, 1, 2] (obeys_nfsLines_0_base _) (all_cons obeys_nfsLines_0_start (List.forall_mem_nil _)) (obeys_nfsLines_0_lines _) (by decide +kernel)

def obeys_nfsLines_1_object (_ : Nat) : Ns := [(c!"server", .str c!"s"), (c!"dir", .str c!"d")]

theorem obeys_nfsLines_1_base (n : Str) : Command.FirstBase (FC3_NFS.cls) n [c!"--server=s", c!"--dir=d"] obeys_nfsLines_1_object := by
  intro b b' hb hb' line l; kernel_rfl

theorem obeys_nfsLines_1_start : Command.FirstStart (FC3_NFS.cls) obeys_nfsLines_1_object (nfsLines.start.getD 0 ([], [])).2 := fun _ => .inr ⟨fun _ => rfl, by kernel_rfl⟩

theorem obeys_nfsLines_1_lines (n : Str) : ∀ i ∈ [0, 1, 3], Command.FirstLine (FC3_NFS.cls) n [c!"--server=s", c!"--dir=d"] obeys_nfsLines_1_object (nfsLines.lines.getD i noLine) :=
  (all_cons (by intro b b' hb hb' x hx line l; (cases x with | nil => exact absurd rfl hx | cons a x => kernel_rfl))
    (all_cons (by intro b b' hb hb' x hx line l; (cases x with | nil => exact absurd rfl hx | cons a x => kernel_rfl))
    (all_cons (by intro b b' hb hb' x hx line l; (cases x with | nil => exact absurd rfl hx | cons a x => kernel_rfl))
    (List.forall_mem_nil _))))

theorem obeys_nfsLines_1 : ∀ v, [Version.RHEL3, Version.FC3, Version.RHEL4, Version.FC4, Version.FC5].contains v = true → Command.Obeys (FC3_NFS.cls) nfsLines v :=
  obeys_of obeys_nfsLines_1_object [0] [0, 1, 3] (obeys_nfsLines_1_base _) (all_cons obeys_nfsLines_1_start (List.forall_mem_nil _)) (obeys_nfsLines_1_lines _) (by decide +kernel)

theorem obeys_nfsLines : nfsLines.Obeyed := by
  unfold CommandLines.Obeyed commandMaps
  exact (all_cons (fun _ c h => by cases h; exact obeys_nfsLines_0 _ rfl)
    (all_cons (fun _ c h => by cases h; exact obeys_nfsLines_0 _ rfl)
    (all_cons (fun _ c h => by cases h; exact obeys_nfsLines_0 _ rfl)
    (all_cons (fun _ c h => by cases h; exact obeys_nfsLines_0 _ rfl)
    (all_cons (fun _ c h => by cases h; exact obeys_nfsLines_0 _ rfl)
    (all_cons (fun _ c h => by cases h; exact obeys_nfsLines_0 _ rfl)
    (all_cons (fun _ c h => by cases h; exact obeys_nfsLines_0 _ rfl)
    (all_cons (fun _ c h => by cases h; exact obeys_nfsLines_0 _ rfl)
    (all_cons (fun _ c h => by cases h; exact obeys_nfsLines_0 _ rfl)
    (all_cons (fun _ c h => by cases h; exact obeys_nfsLines_0 _ rfl)
    (all_cons (fun _ c h => by cases h; exact obeys_nfsLines_0 _ rfl)
    (all_cons (fun _ c h => by cases h; exact obeys_nfsLines_0 _ rfl)
    (all_cons (fun _ c h => by cases h; exact obeys_nfsLines_0 _ rfl)
    (all_cons (fun _ c h => by cases h; exact obeys_nfsLines_0 _ rfl)
    (all_cons (fun _ c h => by cases h; exact obeys_nfsLines_0 _ rfl)
    (all_cons (fun _ c h => by cases h; exact obeys_nfsLines_0 _ rfl)
    (all_cons (fun _ c h => by cases h; exact obeys_nfsLines_0 _ rfl)
    (all_cons (fun _ c h => by cases h; exact obeys_nfsLines_0 _ rfl)
    (all_cons (fun _ c h => by cases h; exact obeys_nfsLines_0 _ rfl)
    (all_cons (fun _ c h => by cases h; exact obeys_nfsLines_0 _ rfl)
    (all_cons (fun _ c h => by cases h; exact obeys_nfsLines_0 _ rfl)
    (all_cons (fun _ c h => by cases h; exact obeys_nfsLines_0 _ rfl)
    (all_cons (fun _ c h => by cases h; exact obeys_nfsLines_0 _ rfl)
    (all_cons (fun _ c h => by cases h; exact obeys_nfsLines_0 _ rfl)
    (all_cons (fun _ c h => by cases h; exact obeys_nfsLines_0 _ rfl)
    (all_cons (fun _ c h => by cases h; exact obeys_nfsLines_0 _ rfl)
    (all_cons (fun _ c h => by cases h; exact obeys_nfsLines_0 _ rfl)
    (all_cons (fun _ c h => by cases h; exact obeys_nfsLines_0 _ rfl)
    (all_cons (fun _ c h => by cases h; exact obeys_nfsLines_1 _ rfl)
    (all_cons (fun _ c h => by cases h; exact obeys_nfsLines_1 _ rfl)
    (all_cons (fun _ c h => by cases h; exact obeys_nfsLines_1 _ rfl)
    (all_cons (fun _ c h => by cases h; exact obeys_nfsLines_0 _ rfl)
    (all_cons (fun _ c h => by cases h; exact obeys_nfsLines_1 _ rfl)
    (all_cons (fun _ c h => by cases h; exact obeys_nfsLines_1 _ rfl)
    (all_cons (fun _ c h => by cases h; exact obeys_nfsLines_0 _ rfl)
    (all_cons (fun _ c h => by cases h; exact obeys_nfsLines_0 _ rfl)
    (all_cons (fun _ c h => by cases h; exact obeys_nfsLines_0 _ rfl)
    (all_cons (fun _ c h => by cases h; exact obeys_nfsLines_0 _ rfl) (List.forall_mem_nil _)))))))))))))))))))))))))))))))))))))))

def obeys_repoLines_0_object (l : Nat) : Ns := [(c!"lineno", .int l), (c!"baseurl", .str c!"b"), (c!"mirrorlist", .none), (c!"name", .str c!"r"), (c!"cost", .none), (c!"includepkgs", .list []), (c!"excludepkgs", .list [])]

theorem obeys_repoLines_0_base (n : Str) : Command.FirstBase (F8_Repo.cls F8_RepoData.cls) n [c!"--name=r", c!"--baseurl=b"] obeys_repoLines_0_object := by
  intro b b' hb hb' line l; kernel_rfl

theorem obeys_repoLines_0_start : Command.FirstStart (F8_Repo.cls F8_RepoData.cls) obeys_repoLines_0_object (repoLines.start.getD 0 ([], [])).2 := fun _ => .inl ⟨fun _ => rfl, (all_cons (by kernel_rfl) (all_cons (by kernel_rfl) (List.forall_mem_nil _)))⟩

theorem obeys_repoLines_0_lines (n : Str) : ∀ i ∈ [2, 3, 5, 7, 9, 11, 19], Command.FirstLine (F8_Repo.cls F8_RepoData.cls) n [c!"--name=r", c!"--baseurl=b"] obeys_repoLines_0_object (repoLines.lines.getD i noLine) :=
  (all_cons (by intro b b' hb hb' x hx line l; (cases x with | nil => exact absurd rfl hx | cons a x => kernel_rfl))
    (all_cons (by intro b b' hb hb' x hx line l; kernel_rfl)
    (all_cons (by intro b b' hb hb' x hx line l; (cases x with | nil => exact absurd rfl hx | cons a x => kernel_rfl))
    (all_cons (by intro b b' hb hb' x hx line l; (cases x with | nil => exact absurd rfl hx | cons a x => kernel_rfl))
    (all_cons (by intro b b' hb hb' x hx line l; kernel_rfl)
    (all_cons (by intro b b' hb hb' x hx line l; kernel_rfl)
    (all_cons (by intro b b' hb hb' x hx line l; (cases x with | nil => exact absurd rfl hx | cons a x => kernel_rfl))
    (List.forall_mem_nil _))))))))

theorem obeys_repoLines_0 : ∀ v, [Version.F8, Version.F9, Version.F10].contains v = true → Command.Obeys (F8_Repo.cls F8_RepoData.cls) repoLines v :=
  obeys_of obeys_repoLines_0_object [0] [2, 3, 5, 7, 9, 11, 19] (obeys_repoLines_0_base _) (all_cons obeys_repoLines_0_start (List.forall_mem_nil _)) (obeys_repoLines_0_lines _) (by decide +kernel)

def obeys_repoLines_1_object (l : Nat) : Ns := [(c!"lineno", .int l), (c!"baseurl", .str c!"b"), (c!"mirrorlist", .none), (c!"name", .str c!"r"), (c!"cost", .none), (c!"includepkgs", .list []), (c!"excludepkgs", .list []), (c!"ignoregroups", .none)]

theorem obeys_repoLines_1_base (n : Str) : Command.FirstBase (F11_Repo.cls F11_RepoData.cls) n [c!"--name=r", c!"--baseurl=b"] obeys_repoLines_1_object := by
  intro b b' hb hb' line l; kernel_rfl

theorem obeys_repoLines_1_start : Command.FirstStart (F11_Repo.cls F11_RepoData.cls) obeys_repoLines_1_object (repoLines.start.getD 0 ([], [])).2 := fun _ => .inl ⟨fun _ => rfl, (all_cons (by kernel_rfl) (all_cons (by kernel_rfl) (List.forall_mem_nil _)))⟩

theorem obeys_repoLines_1_lines (n : Str) : ∀ i ∈ [2, 10, 12, 13, 19], Command.FirstLine (F11_Repo.cls F11_RepoData.cls) n [c!"--name=r", c!"--baseurl=b"] obeys_repoLines_1_object (repoLines.lines.getD i noLine) :=
  (all_cons (by intro b b' hb hb' x hx line l; (cases x with | nil => exact absurd rfl hx | cons a x => kernel_rfl))
    (all_cons (by intro b b' hb hb' x hx line l; kernel_rfl)
    (all_cons (by intro b b' hb hb' x hx line l; kernel_rfl)
    (all_cons (by intro b b' hb hb' x hx line l; (cases x with | nil => exact absurd rfl hx | cons a x => kernel_rfl))
    (all_cons (by intro b b' hb hb' x hx line l; (cases x with | nil => exact absurd rfl hx | cons a x => kernel_rfl))
    (List.forall_mem_nil _))))))

theorem obeys_repoLines_1 : ∀ v, [Version.F11, Version.F12].contains v = true → Command.Obeys (F11_Repo.cls F11_RepoData.cls) repoLines v :=
  obeys_of obeys_repoLines_1_object [0] [2, 10, 12, 13, 19] (obeys_repoLines_1_base _) (all_cons obeys_repoLines_1_start (List.forall_mem_nil _)) (obeys_repoLines_1_lines _) (by decide +kernel)

def obeys_repoLines_2_object (l : Nat) : Ns := [(c!"lineno", .int l), (c!"baseurl", .str c!"b"), (c!"mirrorlist", .none), (c!"name", .str c!"r"), (c!"cost", .none), (c!"includepkgs", .list []), (c!"excludepkgs", .list []), (c!"ignoregroups", .none), (c!"proxy", .str c!"")]

theorem obeys_repoLines_2_base (n : Str) : Command.FirstBase (F13_Repo.cls F13_RepoData.cls) n [c!"--name=r", c!"--baseurl=b"] obeys_repoLines_2_object := by
  intro b b' hb hb' line l; kernel_rfl

theorem obeys_repoLines_2_start : Command.FirstStart (F13_Repo.cls F13_RepoData.cls) obeys_repoLines_2_object (repoLines.start.getD 0 ([], [])).2 := fun _ => .inl ⟨fun _ => rfl, (all_cons (by kernel_rfl) (all_cons (by kernel_rfl) (List.forall_mem_nil _)))⟩

theorem obeys_repoLines_2_lines (n : Str) : ∀ i ∈ [2, 14, 15, 19], Command.FirstLine (F13_Repo.cls F13_RepoData.cls) n [c!"--name=r", c!"--baseurl=b"] obeys_repoLines_2_object (repoLines.lines.getD i noLine) :=
  (all_cons (by intro b b' hb hb' x hx line l; (cases x with | nil => exact absurd rfl hx | cons a x => kernel_rfl))
    (all_cons (by intro b b' hb hb' x hx line l; (cases x with | nil => exact absurd rfl hx | cons a x => kernel_rfl))
    (all_cons (by intro b b' hb hb' x hx line l; kernel_rfl)
    (all_cons (by intro b b' hb hb' x hx line l; (cases x with | nil => exact absurd rfl hx | cons a x => kernel_rfl))
    (List.forall_mem_nil _)))))

theorem obeys_repoLines_2 : ∀ v, [Version.F13].contains v = true → Command.Obeys (F13_Repo.cls F13_RepoData.cls) repoLines v :=
  obeys_of obeys_repoLines_2_object [0] [2, 14, 15, 19] (obeys_repoLines_2_base _) (all_cons obeys_repoLines_2_start (List.forall_mem_nil _)) (obeys_repoLines_2_lines _) (by decide +kernel)

def obeys_repoLines_3_object (l : Nat) : Ns := [(c!"lineno", .int l), (c!"baseurl", .str c!"b"), (c!"mirrorlist", .none), (c!"name", .str c!"r"), (c!"cost", .none), (c!"includepkgs", .list []), (c!"excludepkgs", .list []), (c!"ignoregroups", .none), (c!"proxy", .str c!""), (c!"noverifyssl", .bool false)]

theorem obeys_repoLines_3_base (n : Str) : Command.FirstBase (F14_Repo.cls F14_RepoData.cls) n [c!"--name=r", c!"--baseurl=b"] obeys_repoLines_3_object := by
  intro b b' hb hb' line l; kernel_rfl

theorem obeys_repoLines_3_start : Command.FirstStart (F14_Repo.cls F14_RepoData.cls) obeys_repoLines_3_object (repoLines.start.getD 0 ([], [])).2 := fun _ => .inl ⟨fun _ => rfl, (all_cons (by kernel_rfl) (all_cons (by kernel_rfl) (List.forall_mem_nil _)))⟩

theorem obeys_repoLines_3_lines (n : Str) : ∀ i ∈ [2, 19], Command.FirstLine (F14_Repo.cls F14_RepoData.cls) n [c!"--name=r", c!"--baseurl=b"] obeys_repoLines_3_object (repoLines.lines.getD i noLine) :=
  (all_cons (by intro b b' hb hb' x hx line l; (cases x with | nil => exact absurd rfl hx | cons a x => kernel_rfl))
    (all_cons (by intro b b' hb hb' x hx line l; (cases x with | nil => exact absurd rfl hx | cons a x => kernel_rfl))
    (List.forall_mem_nil _)))

theorem obeys_repoLines_3 : ∀ v, [Version.F14].contains v = true → Command.Obeys (F14_Repo.cls F14_RepoData.cls) repoLines v :=
  obeys_of obeys_repoLines_3_object [0] [2, 19] (obeys_repoLines_3_base _) (all_cons obeys_repoLines_3_start (List.forall_mem_nil _)) (obeys_repoLines_3_lines _) (by decide +kernel)

def obeys_repoLines_4_object (l : Nat) : Ns := [(c!"lineno", .int l), (c!"baseurl", .str c!"b"), (c!"mirrorlist", .none), (c!"name", .str c!"r"), (c!"cost", .none), (c!"includepkgs", .list []), (c!"excludepkgs", .list []), (c!"ignoregroups", .none), (c!"proxy", .str c!""), (c!"noverifyssl", .bool false)]

theorem obeys_repoLines_4_base (n : Str) : Command.FirstBase (F15_Repo.cls F15_RepoData.cls) n [c!"--name=r", c!"--baseurl=b"] obeys_repoLines_4_object := by
  intro b b' hb hb' line l; kernel_rfl

theorem obeys_repoLines_4_start : Command.FirstStart (F15_Repo.cls F15_RepoData.cls) obeys_repoLines_4_object (repoLines.start.getD 0 ([], [])).2 := fun _ => .inl ⟨fun _ => rfl, (all_cons (by kernel_rfl) (all_cons (by kernel_rfl) (List.forall_mem_nil _)))⟩

theorem obeys_repoLines_4_lines (n : Str) : ∀ i ∈ [2, 17, 19], Command.FirstLine (F15_Repo.cls F15_RepoData.cls) n [c!"--name=r", c!"--baseurl=b"] obeys_repoLines_4_object (repoLines.lines.getD i noLine) :=
  (all_cons (by intro b b' hb hb' x hx line l; (cases x with | nil => exact absurd rfl hx | cons a x => kernel_rfl))
    (all_cons (by intro b b' hb hb' x hx line l; kernel_rfl)
    (all_cons (by intro b b' hb hb' x hx line l; (cases x with | nil => exact absurd rfl hx | cons a x => kernel_rfl))
    (List.forall_mem_nil _))))

theorem obeys_repoLines_4 : ∀ v, [Version.F15, Version.F16, Version.F17, Version.F18, Version.F19, Version.F20].contains v = true → Command.Obeys (F15_Repo.cls F15_RepoData.cls) repoLines v :=
  obeys_of obeys_repoLines_4_object [0] [2, 17, 19] (obeys_repoLines_4_base _) (all_cons obeys_repoLines_4_start (List.forall_mem_nil _)) (obeys_repoLines_4_lines _) (by decide +kernel)

def obeys_repoLines_5_object (l : Nat) : Ns := [(c!"lineno", .int l), (c!"baseurl", .str c!"b"), (c!"mirrorlist", .none), (c!"name", .str c!"r"), (c!"cost", .none), (c!"includepkgs", .list []), (c!"excludepkgs", .list []), (c!"ignoregroups", .none), (c!"proxy", .str c!""), (c!"noverifyssl", .bool false), (c!"install", .bool false)]

theorem obeys_repoLines_5_base (n : Str) : Command.FirstBase (F21_Repo.cls F21_RepoData.cls) n [c!"--name=r", c!"--baseurl=b"] obeys_repoLines_5_object := by
  intro b b' hb hb' line l; kernel_rfl

theorem obeys_repoLines_5_start : Command.FirstStart (F21_Repo.cls F21_RepoData.cls) obeys_repoLines_5_object (repoLines.start.getD 0 ([], [])).2 := fun _ => .inl ⟨fun _ => rfl, (all_cons (by kernel_rfl) (all_cons (by kernel_rfl) (List.forall_mem_nil _)))⟩

theorem obeys_repoLines_5_lines (n : Str) : ∀ i ∈ [2, 18, 19], Command.FirstLine (F21_Repo.cls F21_RepoData.cls) n [c!"--name=r", c!"--baseurl=b"] obeys_repoLines_5_object (repoLines.lines.getD i noLine) :=
  (all_cons (by intro b b' hb hb' x hx line l; (cases x with | nil => exact absurd rfl hx | cons a x => kernel_rfl))
    (all_cons (by intro b b' hb hb' x hx line l; kernel_rfl)
    (all_cons (by intro b b' hb hb' x hx line l; (cases x with | nil => exact absurd rfl hx | cons a x => kernel_rfl))
    (List.forall_mem_nil _))))

theorem obeys_repoLines_5 : ∀ v, [Version.F21, Version.F22, Version.F23, Version.F24, Version.F25, Version.F26].contains v = true → Command.Obeys (F21_Repo.cls F21_RepoData.cls) repoLines v :=
  obeys_of obeys_repoLines_5_object [0] [2, 18, 19] (obeys_repoLines_5_base _) (all_cons obeys_repoLines_5_start (List.forall_mem_nil _)) (obeys_repoLines_5_lines _) (by decide +kernel)

def obeys_repoLines_6_object (l : Nat) : Ns := [(c!"lineno", .int l), (c!"baseurl", .str c!"b"), (c!"mirrorlist", .none), (c!"name", .str c!"r"), (c!"cost", .none), (c!"includepkgs", .list []), (c!"excludepkgs", .list []), (c!"ignoregroups", .none), (c!"proxy", .str c!""), (c!"noverifyssl", .bool false), (c!"install", .bool false), (c!"metalink", .bool false)]

theorem obeys_repoLines_6_base (n : Str) : Command.FirstBase (F27_Repo.cls F27_RepoData.cls) n [c!"--name=r", c!"--baseurl=b"] obeys_repoLines_6_object := by
  intro b b' hb hb' line l; kernel_rfl

theorem obeys_repoLines_6_start : Command.FirstStart (F27_Repo.cls F27_RepoData.cls) obeys_repoLines_6_object (repoLines.start.getD 0 ([], [])).2 := fun _ => .inl ⟨fun _ => rfl, (all_cons (by kernel_rfl) (all_cons (by kernel_rfl) (List.forall_mem_nil _)))⟩

theorem obeys_repoLines_6_lines (n : Str) : ∀ i ∈ [2, 19, 20, 22, 24], Command.FirstLine (F27_Repo.cls F27_RepoData.cls) n [c!"--name=r", c!"--baseurl=b"] obeys_repoLines_6_object (repoLines.lines.getD i noLine) :=
  (all_cons (by intro b b' hb hb' x hx line l; (cases x with | nil => exact absurd rfl hx | cons a x => kernel_rfl))
    (all_cons (by intro b b' hb hb' x hx line l; (cases x with | nil => exact absurd rfl hx | cons a x => kernel_rfl))
    (all_cons (by intro b b' hb hb' x hx line l; (cases x with | nil => exact absurd rfl hx | cons a x => kernel_rfl))
    (all_cons (by intro b b' hb hb' x hx line l; (cases x with | nil => exact absurd rfl hx | cons a x => kernel_rfl))
    (all_cons (by intro b b' hb hb' x hx line l; (cases x with | nil => exact absurd rfl hx | cons a x => kernel_rfl))
    (List.forall_mem_nil _))))))

theorem obeys_repoLines_6 : ∀ v, [Version.F27, Version.F28, Version.F29].contains v = true → Command.Obeys (F27_Repo.cls F27_RepoData.cls) repoLines v :=
  obeys_of obeys_repoLines_6_object [0] [2, 19, 20, 22, 24] (obeys_repoLines_6_base _) (all_cons obeys_repoLines_6_start (List.forall_mem_nil _)) (obeys_repoLines_6_lines _) (by decide +kernel)

def obeys_repoLines_7_object (l : Nat) : Ns := [(c!"lineno", .int l), (c!"baseurl", .str c!"b"), (c!"mirrorlist", .none), (c!"name", .str c!"r"), (c!"cost", .none), (c!"includepkgs", .list []), (c!"excludepkgs", .list []), (c!"ignoregroups", .none), (c!"proxy", .str c!""), (c!"noverifyssl", .bool false), (c!"install", .bool false), (c!"metalink", .bool false), (c!"sslcacert", .none), (c!"sslclientcert", .none), (c!"sslclientkey", .none)]

theorem obeys_repoLines_7_base (n : Str) : Command.FirstBase (F30_Repo.cls F30_RepoData.cls) n [c!"--name=r", c!"--baseurl=b"] obeys_repoLines_7_object := by
  intro b b' hb hb' line l; kernel_rfl

theorem obeys_repoLines_7_start : Command.FirstStart (F30_Repo.cls F30_RepoData.cls) obeys_repoLines_7_object (repoLines.start.getD 0 ([], [])).2 := fun _ => .inl ⟨fun _ => rfl, (all_cons (by kernel_rfl) (all_cons (by kernel_rfl) (List.forall_mem_nil _)))⟩

theorem obeys_repoLines_7_lines (n : Str) : ∀ i ∈ [2, 19, 21, 23, 25], Command.FirstLine (F30_Repo.cls F30_RepoData.cls) n [c!"--name=r", c!"--baseurl=b"] obeys_repoLines_7_object (repoLines.lines.getD i noLine) :=
  (all_cons (by intro b b' hb hb' x hx line l; (cases x with | nil => exact absurd rfl hx | cons a x => kernel_rfl))
    (all_cons (by intro b b' hb hb' x hx line l; (cases x with | nil => exact absurd rfl hx | cons a x => kernel_rfl))
    (all_cons (by intro b b' hb hb' x hx line l; (cases x with | nil => exact absurd rfl hx | cons a x => kernel_rfl))
    (all_cons (by intro b b' hb hb' x hx line l; (cases x with | nil => exact absurd rfl hx | cons a x => kernel_rfl))
    (all_cons (by intro b b' hb hb' x hx line l; (cases x with | nil => exact absurd rfl hx | cons a x => kernel_rfl))
    (List.forall_mem_nil _))))))

theorem obeys_repoLines_7 : ∀ v, [Version.F30, Version.F31, Version.F32].contains v = true → Command.Obeys (F30_Repo.cls F30_RepoData.cls) repoLines v :=
  obeys_of obeys_repoLines_7_object [0] [2, 19, 21, 23, 25] (obeys_repoLines_7_base _) (all_cons obeys_repoLines_7_start (List.forall_mem_nil _)) (obeys_repoLines_7_lines _) (by decide +kernel)

def obeys_repoLines_8_object (l : Nat) : Ns := [(c!"lineno", .int l), (c!"baseurl", .str c!"b"), (c!"mirrorlist", .none), (c!"name", .str c!"r"), (c!"cost", .none), (c!"includepkgs", .list []), (c!"excludepkgs", .list []), (c!"ignoregroups", .none), (c!"proxy", .str c!""), (c!"noverifyssl", .bool false), (c!"install", .bool false), (c!"metalink", .bool false), (c!"sslcacert", .none), (c!"sslclientcert", .none), (c!"sslclientkey", .none)]

theorem obeys_repoLines_8_base (n : Str) : Command.FirstBase (F33_Repo.cls F30_RepoData.cls) n [c!"--name=r", c!"--baseurl=b"] obeys_repoLines_8_object := by
  intro b b' hb hb' line l; kernel_rfl

theorem obeys_repoLines_8_start : Command.FirstStart (F33_Repo.cls F30_RepoData.cls) obeys_repoLines_8_object (repoLines.start.getD 0 ([], [])).2 := fun _ => .inl ⟨fun _ => rfl, (all_cons (by kernel_rfl) (all_cons (by kernel_rfl) (List.forall_mem_nil _)))⟩

theorem obeys_repoLines_8_lines (n : Str) : ∀ i ∈ [0, 1, 2, 3, 5, 7, 10, 12, 14, 16, 18, 19, 21, 23, 25], Command.FirstLine (F33_Repo.cls F30_RepoData.cls) n [c!"--name=r", c!"--baseurl=b"] obeys_repoLines_8_object (repoLines.lines.getD i noLine) :=
  (all_cons (by intro b b' hb hb' x hx line l; (cases x with | nil => exact absurd rfl hx | cons a x => kernel_rfl))
    (all_cons (by intro b b' hb hb' x hx line l; (cases x with | nil => exact absurd rfl hx | cons a x => kernel_rfl))
    (all_cons (by intro b b' hb hb' x hx line l; (cases x with | nil => exact absurd rfl hx | cons a x => kernel_rfl))
    (all_cons (by intro b b' hb hb' x hx line l; kernel_rfl)
    (all_cons (by intro b b' hb hb' x hx line l; (cases x with | nil => exact absurd rfl hx | cons a x => kernel_rfl))
    (all_cons (by intro b b' hb hb' x hx line l; (cases x with | nil => exact absurd rfl hx | cons a x => kernel_rfl))
    (all_cons (by intro b b' hb hb' x hx line l; kernel_rfl)
    (all_cons (by intro b b' hb hb' x hx line l; kernel_rfl)
    (all_cons (by intro b b' hb hb' x hx line l; (cases x with | nil => exact absurd rfl hx | cons a x => kernel_rfl))
    (all_cons (by intro b b' hb hb' x hx line l; kernel_rfl)
    (all_cons (by intro b b' hb hb' x hx line l; kernel_rfl)
    (all_cons (by intro b b' hb hb' x hx line l; (cases x with | nil => exact absurd rfl hx | cons a x => kernel_rfl))
    (all_cons (by intro b b' hb hb' x hx line l; (cases x with | nil => exact absurd rfl hx | cons a x => kernel_rfl))
    (all_cons (by intro b b' hb hb' x hx line l; (cases x with | nil => exact absurd rfl hx | cons a x => kernel_rfl))
    (all_cons (by intro b b' hb hb' x hx line l; (cases x with | nil => exact absurd rfl hx | cons a x => kernel_rfl))
    (List.forall_mem_nil _))))))))))))))))

theorem obeys_repoLines_8 : ∀ v, [Version.F33, Version.F34].contains v = true → Command.Obeys (F33_Repo.cls F30_RepoData.cls) repoLines v :=
  obeys_of obeys_repoLines_8_object [0] [0, 1, 2, 3, 5, 7, 10, 12, 14, 16, 18, 19, 21, 23, 25] (obeys_repoLines_8_base _) (all_cons obeys_repoLines_8_start (List.forall_mem_nil _)) (obeys_repoLines_8_lines _) (by decide +kernel)

def obeys_repoLines_9_object (l : Nat) : Ns := [(c!"lineno", .int l), (c!"baseurl", .str c!"b"), (c!"mirrorlist", .none), (c!"name", .str c!"r")]

theorem obeys_repoLines_9_base (n : Str) : Command.FirstBase (FC6_Repo.cls FC6_RepoData.cls) n [c!"--name=r", c!"--baseurl=b"] obeys_repoLines_9_object := by
  intro b b' hb hb' line l; kernel_rfl

theorem obeys_repoLines_9_start : Command.FirstStart (FC6_Repo.cls FC6_RepoData.cls) obeys_repoLines_9_object (repoLines.start.getD 0 ([], [])).2 := fun _ => .inl ⟨fun _ => rfl, (all_cons (by kernel_rfl) (all_cons (by kernel_rfl) (List.forall_mem_nil _)))⟩

theorem obeys_repoLines_9_lines (n : Str) : ∀ i ∈ [0, 1, 2, 4, 6, 8, 19], Command.FirstLine (FC6_Repo.cls FC6_RepoData.cls) n [c!"--name=r", c!"--baseurl=b"] obeys_repoLines_9_object (repoLines.lines.getD i noLine) :=
  (all_cons (by intro b b' hb hb' x hx line l; (cases x with | nil => exact absurd rfl hx | cons a x => kernel_rfl))
    (all_cons (by intro b b' hb hb' x hx line l; (cases x with | nil => exact absurd rfl hx | cons a x => kernel_rfl))
    (all_cons (by intro b b' hb hb' x hx line l; (cases x with | nil => exact absurd rfl hx | cons a x => kernel_rfl))
    (all_cons (by intro b b' hb hb' x hx line l; kernel_rfl)
    (all_cons (by intro b b' hb hb' x hx line l; (cases x with | nil => exact absurd rfl hx | cons a x => kernel_rfl))
    (all_cons (by intro b b' hb hb' x hx line l; (cases x with | nil => exact absurd rfl hx | cons a x => kernel_rfl))
    (all_cons (by intro b b' hb hb' x hx line l; (cases x with | nil => exact absurd rfl hx | cons a x => kernel_rfl))
    (List.forall_mem_nil _))))))))

theorem obeys_repoLines_9 : ∀ v, [Version.FC6, Version.RHEL5, Version.F7].contains v = true → Command.Obeys (FC6_Repo.cls FC6_RepoData.cls) repoLines v :=
  obeys_of obeys_repoLines_9_object [0] [0, 1, 2, 4, 6, 8, 19] (obeys_repoLines_9_base _) (all_cons obeys_repoLines_9_start (List.forall_mem_nil _)) (obeys_repoLines_9_lines _) (by decide +kernel)

def obeys_repoLines_10_object (l : Nat) : Ns := [(c!"lineno", .int l), (c!"baseurl", .str c!"b"), (c!"mirrorlist", .none), (c!"name", .str c!"r"), (c!"cost", .none), (c!"includepkgs", .list []), (c!"excludepkgs", .list []), (c!"ignoregroups", .none), (c!"proxy", .str c!""), (c!"noverifyssl", .bool false)]

theorem obeys_repoLines_10_base (n : Str) : Command.FirstBase (RHEL6_Repo.cls RHEL6_RepoData.cls) n [c!"--name=r", c!"--baseurl=b"] obeys_repoLines_10_object := by
  intro b b' hb hb' line l; kernel_rfl

theorem obeys_repoLines_10_start : Command.FirstStart (RHEL6_Repo.cls RHEL6_RepoData.cls) obeys_repoLines_10_object (repoLines.start.getD 0 ([], [])).2 := fun _ => .inl ⟨fun _ => rfl, (all_cons (by kernel_rfl) (all_cons (by kernel_rfl) (List.forall_mem_nil _)))⟩

theorem obeys_repoLines_10_lines (n : Str) : ∀ i ∈ [2, 16, 19], Command.FirstLine (RHEL6_Repo.cls RHEL6_RepoData.cls) n [c!"--name=r", c!"--baseurl=b"] obeys_repoLines_10_object (repoLines.lines.getD i noLine) :=
  (all_cons (by intro b b' hb hb' x hx line l; (cases x with | nil => exact absurd rfl hx | cons a x => kernel_rfl))
    (all_cons (by intro b b' hb hb' x hx line l; kernel_rfl)
    (all_cons (by intro b b' hb hb' x hx line l; (cases x with | nil => exact absurd rfl hx | cons a x => kernel_rfl))
    (List.forall_mem_nil _))))

theorem obeys_repoLines_10 : ∀ v, [Version.RHEL6].contains v = true → Command.Obeys (RHEL6_Repo.cls RHEL6_RepoData.cls) repoLines v :=
  obeys_of obeys_repoLines_10_object [0] [2, 16, 19] (obeys_repoLines_10_base _) (all_cons obeys_repoLines_10_start (List.forall_mem_nil _)) (obeys_repoLines_10_lines _) (by decide +kernel)

def obeys_repoLines_11_object (l : Nat) : Ns := [(c!"lineno", .int l), (c!"baseurl", .str c!"b"), (c!"mirrorlist", .none), (c!"name", .str c!"r"), (c!"cost", .none), (c!"includepkgs", .list []), (c!"excludepkgs", .list []), (c!"ignoregroups", .none), (c!"proxy", .str c!""), (c!"noverifyssl", .bool false), (c!"install", .bool false)]

theorem obeys_repoLines_11_base (n : Str) : Command.FirstBase (RHEL7_Repo.cls RHEL7_RepoData.cls) n [c!"--name=r", c!"--baseurl=b"] obeys_repoLines_11_object := by
  intro b b' hb hb' line l; kernel_rfl

theorem obeys_repoLines_11_start : Command.FirstStart (RHEL7_Repo.cls RHEL7_RepoData.cls) obeys_repoLines_11_object (repoLines.start.getD 0 ([], [])).2 := fun _ => .inl ⟨fun _ => rfl, (all_cons (by kernel_rfl) (all_cons (by kernel_rfl) (List.forall_mem_nil _)))⟩

theorem obeys_repoLines_11_lines (n : Str) : ∀ i ∈ [2, 19], Command.FirstLine (RHEL7_Repo.cls RHEL7_RepoData.cls) n [c!"--name=r", c!"--baseurl=b"] obeys_repoLines_11_object (repoLines.lines.getD i noLine) :=
  (all_cons (by intro b b' hb hb' x hx line l; (cases x with | nil => exact absurd rfl hx | cons a x => kernel_rfl))
    (all_cons (by intro b b' hb hb' x hx line l; (cases x with | nil => exact absurd rfl hx | cons a x => kernel_rfl))
    (List.forall_mem_nil _)))

theorem obeys_repoLines_11 : ∀ v, [Version.RHEL7].contains v = true → Command.Obeys (RHEL7_Repo.cls RHEL7_RepoData.cls) repoLines v :=
  obeys_of obeys_repoLines_11_object [0] [2, 19] (obeys_repoLines_11_base _) (all_cons obeys_repoLines_11_start (List.forall_mem_nil _)) (obeys_repoLines_11_lines _) (by decide +kernel)

def obeys_repoLines_12_object (l : Nat) : Ns := [(c!"lineno", .int l), (c!"baseurl", .str c!"b"), (c!"mirrorlist", .none), (c!"name", .str c!"r"), (c!"cost", .none), (c!"includepkgs", .list []), (c!"excludepkgs", .list []), (c!"ignoregroups", .none), (c!"proxy", .str c!""), (c!"noverifyssl", .bool false), (c!"install", .bool false), (c!"metalink", .bool false), (c!"sslcacert", .none), (c!"sslclientcert", .none), (c!"sslclientkey", .none)]

theorem obeys_repoLines_12_base (n : Str) : Command.FirstBase (RHEL8_Repo.cls RHEL8_RepoData.cls) n [c!"--name=r", c!"--baseurl=b"] obeys_repoLines_12_object := by
  intro b b' hb hb' line l; kernel_rfl

theorem obeys_repoLines_12_start : Command.FirstStart (RHEL8_Repo.cls RHEL8_RepoData.cls) obeys_repoLines_12_object (repoLines.start.getD 0 ([], [])).2 := fun _ => .inl ⟨fun _ => rfl, (all_cons (by kernel_rfl) (all_cons (by kernel_rfl) (List.forall_mem_nil _)))⟩

theorem obeys_repoLines_12_lines (n : Str) : ∀ i ∈ [2, 19, 21, 23, 25], Command.FirstLine (RHEL8_Repo.cls RHEL8_RepoData.cls) n [c!"--name=r", c!"--baseurl=b"] obeys_repoLines_12_object (repoLines.lines.getD i noLine) :=
  (all_cons (by intro b b' hb hb' x hx line l; (cases x with | nil => exact absurd rfl hx | cons a x => kernel_rfl))
    (all_cons (by intro b b' hb hb' x hx line l; (cases x with | nil => exact absurd rfl hx | cons a x => kernel_rfl))
    (all_cons (by intro b b' hb hb' x hx line l; (cases x with | nil => exact absurd rfl hx | cons a x => kernel_rfl))
    (all_cons (by intro b b' hb hb' x hx line l; (cases x with | nil => exact absurd rfl hx | cons a x => kernel_rfl))
    (all_cons (by intro b b' hb hb' x hx line l; (cases x with | nil => exact absurd rfl hx | cons a x => kernel_rfl))
    (List.forall_mem_nil _))))))

theorem obeys_repoLines_12 : ∀ v, [Version.RHEL8].contains v = true → Command.Obeys (RHEL8_Repo.cls RHEL8_RepoData.cls) repoLines v :=
  obeys_of obeys_repoLines_12_object [0] [2, 19, 21, 23, 25] (obeys_repoLines_12_base _) (all_cons obeys_repoLines_12_start (List.forall_mem_nil _)) (obeys_repoLines_12_lines _) (by decide +kernel)

theorem obeys_repoLines : repoLines.Obeyed := by
  unfold CommandLines.Obeyed commandMaps
  exact (all_cons (fun _ c h => by cases h; exact obeys_repoLines_0 _ rfl)
    (all_cons (fun _ c h => by cases h; exact obeys_repoLines_1 _ rfl)
    (all_cons (fun _ c h => by cases h; exact obeys_repoLines_1 _ rfl)
    (all_cons (fun _ c h => by cases h; exact obeys_repoLines_2 _ rfl)
    (all_cons (fun _ c h => by cases h; exact obeys_repoLines_3 _ rfl)
    (all_cons (fun _ c h => by cases h; exact obeys_repoLines_4 _ rfl)
    (all_cons (fun _ c h => by cases h; exact obeys_repoLines_4 _ rfl)
    (all_cons (fun _ c h => by cases h; exact obeys_repoLines_4 _ rfl)
    (all_cons (fun _ c h => by cases h; exact obeys_repoLines_4 _ rfl)
    (all_cons (fun _ c h => by cases h; exact obeys_repoLines_4 _ rfl)
    (all_cons (fun _ c h => by cases h; exact obeys_repoLines_4 _ rfl)
    (all_cons (fun _ c h => by cases h; exact obeys_repoLines_5 _ rfl)
    (all_cons (fun _ c h => by cases h; exact obeys_repoLines_5 _ rfl)
    (all_cons (fun _ c h => by cases h; exact obeys_repoLines_5 _ rfl)
    (all_cons (fun _ c h => by cases h; exact obeys_repoLines_5 _ rfl)
    (all_cons (fun _ c h => by cases h; exact obeys_repoLines_5 _ rfl)
    (all_cons (fun _ c h => by cases h; exact obeys_repoLines_5 _ rfl)
    (all_cons (fun _ c h => by cases h; exact obeys_repoLines_6 _ rfl)
    (all_cons (fun _ c h => by cases h; exact obeys_repoLines_6 _ rfl)
    (all_cons (fun _ c h => by cases h; exact obeys_repoLines_6 _ rfl)
    (all_cons (fun _ c h => by cases h; exact obeys_repoLines_7 _ rfl)
    (all_cons (fun _ c h => by cases h; exact obeys_repoLines_7 _ rfl)
    (all_cons (fun _ c h => by cases h; exact obeys_repoLines_7 _ rfl)
    (all_cons (fun _ c h => by cases h; exact obeys_repoLines_8 _ rfl)
    (all_cons (fun _ c h => by cases h; exact obeys_repoLines_8 _ rfl)
    (all_cons (fun _ c h => by cases h; exact obeys_repoLines_9 _ rfl)
    (all_cons (fun _ c h => by cases h; exact obeys_repoLines_0 _ rfl)
    (all_cons (fun _ c h => by cases h; exact obeys_repoLines_0 _ rfl)
    (all_cons (fun hv => absurd hv (by decide))
    (all_cons (fun hv => absurd hv (by decide))
    (all_cons (fun hv => absurd hv (by decide))
    (all_cons (fun _ c h => by cases h; exact obeys_repoLines_9 _ rfl)
    (all_cons (fun hv => absurd hv (by decide))
    (all_cons (fun hv => absurd hv (by decide))
    (all_cons (fun _ c h => by cases h; exact obeys_repoLines_9 _ rfl)
    (all_cons (fun _ c h => by cases h; exact obeys_repoLines_10 _ rfl)
    (all_cons (fun _ c h => by cases h; exact obeys_repoLines_11 _ rfl)
    (all_cons (fun _ c h => by cases h; exact obeys_repoLines_12 _ rfl) (List.forall_mem_nil _)))))))))))))))))))))))))))))))))))))))

def obeys_repoLines2_0_object (l : Nat) : Ns := [(c!"lineno", .int l), (c!"baseurl", .str c!""), (c!"mirrorlist", .str c!"m"), (c!"name", .str c!"r"), (c!"cost", .none), (c!"includepkgs", .list []), (c!"excludepkgs", .list [])]

theorem obeys_repoLines2_0_base (n : Str) : Command.FirstBase (F8_Repo.cls F8_RepoData.cls) n [c!"--name=r", c!"--mirrorlist=m"] obeys_repoLines2_0_object := by
  intro b b' hb hb' line l; kernel_rfl

theorem obeys_repoLines2_0_start : Command.FirstStart (F8_Repo.cls F8_RepoData.cls) obeys_repoLines2_0_object (repoLines2.start.getD 0 ([], [])).2 := fun _ => .inl ⟨fun _ => rfl, (all_cons (by kernel_rfl) (all_cons (by kernel_rfl) (List.forall_mem_nil _)))⟩

theorem obeys_repoLines2_0_lines (n : Str) : ∀ i ∈ [0, 1], Command.FirstLine (F8_Repo.cls F8_RepoData.cls) n [c!"--name=r", c!"--mirrorlist=m"] obeys_repoLines2_0_object (repoLines2.lines.getD i noLine) :=
  (all_cons (by intro b b' hb hb' x hx line l; (cases x with | nil => exact absurd rfl hx | cons a x => kernel_rfl))
    (all_cons (by intro b b' hb hb' x hx line l; (cases x with | nil => exact absurd rfl hx | cons a x => kernel_rfl))
    (List.forall_mem_nil _)))

theorem obeys_repoLines2_0 : ∀ v, [Version.F8, Version.F9, Version.F10].contains v = true → Command.Obeys (F8_Repo.cls F8_RepoData.cls) repoLines2 v :=
  obeys_of obeys_repoLines2_0_object [0] [0, 1] (obeys_repoLines2_0_base _) (all_cons obeys_repoLines2_0_start (List.forall_mem_nil _)) (obeys_repoLines2_0_lines _) (by decide +kernel)

def obeys_repoLines2_1_object (l : Nat) : Ns := [(c!"lineno", .int l), (c!"baseurl", .str c!""), (c!"mirrorlist", .str c!"m"), (c!"name", .str c!"r"), (c!"cost", .none), (c!"includepkgs", .list []), (c!"excludepkgs", .list []), (c!"ignoregroups", .none)]

theorem obeys_repoLines2_1_base (n : Str) : Command.FirstBase (F11_Repo.cls F11_RepoData.cls) n [c!"--name=r", c!"--mirrorlist=m"] obeys_repoLines2_1_object := by
  intro b b' hb hb' line l; kernel_rfl

theorem obeys_repoLines2_1_start : Command.FirstStart (F11_Repo.cls F11_RepoData.cls) obeys_repoLines2_1_object (repoLines2.start.getD 0 ([], [])).2 := fun _ => .inl ⟨fun _ => rfl, (all_cons (by kernel_rfl) (all_cons (by kernel_rfl) (List.forall_mem_nil _)))⟩

theorem obeys_repoLines2_1_lines (n : Str) : ∀ i ∈ [0, 1], Command.FirstLine (F11_Repo.cls F11_RepoData.cls) n [c!"--name=r", c!"--mirrorlist=m"] obeys_repoLines2_1_object (repoLines2.lines.getD i noLine) :=
  (all_cons (by intro b b' hb hb' x hx line l; (cases x with | nil => exact absurd rfl hx | cons a x => kernel_rfl))
    (all_cons (by intro b b' hb hb' x hx line l; (cases x with | nil => exact absurd rfl hx | cons a x => kernel_rfl))
    (List.forall_mem_nil _)))

theorem obeys_repoLines2_1 : ∀ v, [Version.F11, Version.F12].contains v = true → Command.Obeys (F11_Repo.cls F11_RepoData.cls) repoLines2 v :=
  obeys_of obeys_repoLines2_1_object [0] [0, 1] (obeys_repoLines2_1_base _) (all_cons obeys_repoLines2_1_start (List.forall_mem_nil _)) (obeys_repoLines2_1_lines _) (by decide +kernel)

def obeys_repoLines2_2_object (l : Nat) : Ns := [(c!"lineno", .int l), (c!"baseurl", .str c!""), (c!"mirrorlist", .str c!"m"), (c!"name", .str c!"r"), (c!"cost", .none), (c!"includepkgs", .list []), (c!"excludepkgs", .list []), (c!"ignoregroups", .none), (c!"proxy", .str c!"")]

theorem obeys_repoLines2_2_base (n : Str) : Command.FirstBase (F13_Repo.cls F13_RepoData.cls) n [c!"--name=r", c!"--mirrorlist=m"] obeys_repoLines2_2_object := by
  intro b b' hb hb' line l; kernel_rfl

theorem obeys_repoLines2_2_start : Command.FirstStart (F13_Repo.cls F13_RepoData.cls) obeys_repoLines2_2_object (repoLines2.start.getD 0 ([], [])).2 := fun _ => .inl ⟨fun _ => rfl, (all_cons (by kernel_rfl) (all_cons (by kernel_rfl) (List.forall_mem_nil _)))⟩

theorem obeys_repoLines2_2_lines (n : Str) : ∀ i ∈ [0, 1], Command.FirstLine (F13_Repo.cls F13_RepoData.cls) n [c!"--name=r", c!"--mirrorlist=m"] obeys_repoLines2_2_object (repoLines2.lines.getD i noLine) :=
  (all_cons (by intro b b' hb hb' x hx line l; (cases x with | nil => exact absurd rfl hx | cons a x => kernel_rfl))
    (all_cons (by intro b b' hb hb' x hx line l; (cases x with | nil => exact absurd rfl hx | cons a x => kernel_rfl))
    (List.forall_mem_nil _)))

theorem obeys_repoLines2_2 : ∀ v, [Version.F13].contains v = true → Command.Obeys (F13_Repo.cls F13_RepoData.cls) repoLines2 v :=
  obeys_of obeys_repoLines2_2_object [0] [0, 1] (obeys_repoLines2_2_base _) (all_cons obeys_repoLines2_2_start (List.forall_mem_nil _)) (obeys_repoLines2_2_lines _) (by decide +kernel)

def obeys_repoLines2_3_object (l : Nat) : Ns := [(c!"lineno", .int l), (c!"baseurl", .str c!""), (c!"mirrorlist", .str c!"m"), (c!"name", .str c!"r"), (c!"cost", .none), (c!"includepkgs", .list []), (c!"excludepkgs", .list []), (c!"ignoregroups", .none), (c!"proxy", .str c!""), (c!"noverifyssl", .bool false)]

theorem obeys_repoLines2_3_base (n : Str) : Command.FirstBase (F14_Repo.cls F14_RepoData.cls) n [c!"--name=r", c!"--mirrorlist=m"] obeys_repoLines2_3_object := by
  intro b b' hb hb' line l; kernel_rfl

theorem obeys_repoLines2_3_start : Command.FirstStart (F14_Repo.cls F14_RepoData.cls) obeys_repoLines2_3_object (repoLines2.start.getD 0 ([], [])).2 := fun _ => .inl ⟨fun _ => rfl, (all_cons (by kernel_rfl) (all_cons (by kernel_rfl) (List.forall_mem_nil _)))⟩

theorem obeys_repoLines2_3_lines (n : Str) : ∀ i ∈ [0, 1], Command.FirstLine (F14_Repo.cls F14_RepoData.cls) n [c!"--name=r", c!"--mirrorlist=m"] obeys_repoLines2_3_object (repoLines2.lines.getD i noLine) :=
  (all_cons (by intro b b' hb hb' x hx line l; (cases x with | nil => exact absurd rfl hx | cons a x => kernel_rfl))
    (all_cons (by intro b b' hb hb' x hx line l; (cases x with | nil => exact absurd rfl hx | cons a x => kernel_rfl))
    (List.forall_mem_nil _)))

theorem obeys_repoLines2_3 : ∀ v, [Version.F14].contains v = true → Command.Obeys (F14_Repo.cls F14_RepoData.cls) repoLines2 v :=
  obeys_of obeys_repoLines2_3_object [0] [0, 1] (obeys_repoLines2_3_base _) (all_cons obeys_repoLines2_3_start (List.forall_mem_nil _)) (obeys_repoLines2_3_lines _) (by decide +kernel)

def obeys_repoLines2_4_object (l : Nat) : Ns := [(c!"lineno", .int l), (c!"baseurl", .str c!""), (c!"mirrorlist", .str c!"m"), (c!"name", .str c!"r"), (c!"cost", .none), (c!"includepkgs", .list []), (c!"excludepkgs", .list []), (c!"ignoregroups", .none), (c!"proxy", .str c!""), (c!"noverifyssl", .bool false)]

theorem obeys_repoLines2_4_base (n : Str) : Command.FirstBase (F15_Repo.cls F15_RepoData.cls) n [c!"--name=r", c!"--mirrorlist=m"] obeys_repoLines2_4_object := by
  intro b b' hb hb' line l; kernel_rfl

theorem obeys_repoLines2_4_start : Command.FirstStart (F15_Repo.cls F15_RepoData.cls) obeys_repoLines2_4_object (repoLines2.start.getD 0 ([], [])).2 := fun _ => .inl ⟨fun _ => rfl, (all_cons (by kernel_rfl) (all_cons (by kernel_rfl) (List.forall_mem_nil _)))⟩

theorem obeys_repoLines2_4_lines (n : Str) : ∀ i ∈ [0, 1], Command.FirstLine (F15_Repo.cls F15_RepoData.cls) n [c!"--name=r", c!"--mirrorlist=m"] obeys_repoLines2_4_object (repoLines2.lines.getD i noLine) :=
  (all_cons (by intro b b' hb hb' x hx line l; (cases x with | nil => exact absurd rfl hx | cons a x => kernel_rfl))
    (all_cons (by intro b b' hb hb' x hx line l; (cases x with | nil => exact absurd rfl hx | cons a x => kernel_rfl))
    (List.forall_mem_nil _)))

theorem obeys_repoLines2_4 : ∀ v, [Version.F15, Version.F16, Version.F17, Version.F18, Version.F19, Version.F20].contains v = true → Command.Obeys (F15_Repo.cls F15_RepoData.cls) repoLines2 v :=
  obeys_of obeys_repoLines2_4_object [0] [0, 1] (obeys_repoLines2_4_base _) (all_cons obeys_repoLines2_4_start (List.forall_mem_nil _)) (obeys_repoLines2_4_lines _) (by decide +kernel)

def obeys_repoLines2_5_object (l : Nat) : Ns := [(c!"lineno", .int l), (c!"baseurl", .str c!""), (c!"mirrorlist", .str c!"m"), (c!"name", .str c!"r"), (c!"cost", .none), (c!"includepkgs", .list []), (c!"excludepkgs", .list []), (c!"ignoregroups", .none), (c!"proxy", .str c!""), (c!"noverifyssl", .bool false), (c!"install", .bool false)]

theorem obeys_repoLines2_5_base (n : Str) : Command.FirstBase (F21_Repo.cls F21_RepoData.cls) n [c!"--name=r", c!"--mirrorlist=m"] obeys_repoLines2_5_object := by
  intro b b' hb hb' line l; kernel_rfl

theorem obeys_repoLines2_5_start : Command.FirstStart (F21_Repo.cls F21_RepoData.cls) obeys_repoLines2_5_object (repoLines2.start.getD 0 ([], [])).2 := fun _ => .inl ⟨fun _ => rfl, (all_cons (by kernel_rfl) (all_cons (by kernel_rfl) (List.forall_mem_nil _)))⟩

theorem obeys_repoLines2_5_lines (n : Str) : ∀ i ∈ [0, 1], Command.FirstLine (F21_Repo.cls F21_RepoData.cls) n [c!"--name=r", c!"--mirrorlist=m"] obeys_repoLines2_5_object (repoLines2.lines.getD i noLine) :=
  (all_cons (by intro b b' hb hb' x hx line l; (cases x with | nil => exact absurd rfl hx | cons a x => kernel_rfl))
    (all_cons (by intro b b' hb hb' x hx line l; (cases x with | nil => exact absurd rfl hx | cons a x => kernel_rfl))
    (List.forall_mem_nil _)))

theorem obeys_repoLines2_5 : ∀ v, [Version.F21, Version.F22, Version.F23, Version.F24, Version.F25, Version.F26].contains v = true → Command.Obeys (F21_Repo.cls F21_RepoData.cls) repoLines2 v :=
  obeys_of obeys_repoLines2_5_object [0] [0, 1] (obeys_repoLines2_5_base _) (all_cons obeys_repoLines2_5_start (List.forall_mem_nil _)) (obeys_repoLines2_5_lines _) (by decide +kernel)

def obeys_repoLines2_6_object (l : Nat) : Ns := [(c!"lineno", .int l), (c!"baseurl", .str c!""), (c!"mirrorlist", .str c!"m"), (c!"name", .str c!"r"), (c!"cost", .none), (c!"includepkgs", .list []), (c!"excludepkgs", .list []), (c!"ignoregroups", .none), (c!"proxy", .str c!""), (c!"noverifyssl", .bool false), (c!"install", .bool false), (c!"metalink", .bool false)]

theorem obeys_repoLines2_6_base (n : Str) : Command.FirstBase (F27_Repo.cls F27_RepoData.cls) n [c!"--name=r", c!"--mirrorlist=m"] obeys_repoLines2_6_object := by
  intro b b' hb hb' line l; kernel_rfl

theorem obeys_repoLines2_6_start : Command.FirstStart (F27_Repo.cls F27_RepoData.cls) obeys_repoLines2_6_object (repoLines2.start.getD 0 ([], [])).2 := fun _ => .inl ⟨fun _ => rfl, (all_cons (by kernel_rfl) (all_cons (by kernel_rfl) (List.forall_mem_nil _)))⟩

theorem obeys_repoLines2_6_lines (n : Str) : ∀ i ∈ [0, 1], Command.FirstLine (F27_Repo.cls F27_RepoData.cls) n [c!"--name=r", c!"--mirrorlist=m"] obeys_repoLines2_6_object (repoLines2.lines.getD i noLine) :=
  (all_cons (by intro b b' hb hb' x hx line l; (cases x with | nil => exact absurd rfl hx | cons a x => kernel_rfl))
    (all_cons (by intro b b' hb hb' x hx line l; (cases x with | nil => exact absurd rfl hx | cons a x => kernel_rfl))
    (List.forall_mem_nil _)))

theorem obeys_repoLines2_6 : ∀ v, [Version.F27, Version.F28, Version.F29].contains v = true → Command.Obeys (F27_Repo.cls F27_RepoData.cls) repoLines2 v :=
  obeys_of obeys_repoLines2_6_object [0] [0, 1] (obeys_repoLines2_6_base _) (all_cons obeys_repoLines2_6_start (List.forall_mem_nil _)) (obeys_repoLines2_6_lines _) (by decide +kernel)

def obeys_repoLines2_7_object (l : Nat) : Ns := [(c!"lineno", .int l), (c!"baseurl", .str c!""), (c!"mirrorlist", .str c!"m"), (c!"name", .str c!"r"), (c!"cost", .none), (c!"includepkgs", .list []), (c!"excludepkgs", .list []), (c!"ignoregroups", .none), (c!"proxy", .str c!""), (c!"noverifyssl", .bool false), (c!"install", .bool false), (c!"metalink", .bool false), (c!"sslcacert", .none), (c!"sslclientcert", .none), (c!"sslclientkey", .none)]

theorem obeys_repoLines2_7_base (n : Str) : Command.FirstBase (F30_Repo.cls F30_RepoData.cls) n [c!"--name=r", c!"--mirrorlist=m"] obeys_repoLines2_7_object := by
  intro b b' hb hb' line l; kernel_rfl

theorem obeys_repoLines2_7_start : Command.FirstStart (F30_Repo.cls F30_RepoData.cls) obeys_repoLines2_7_object (repoLines2.start.getD 0 ([], [])).2 := fun _ => .inl ⟨fun _ => rfl, (all_cons (by kernel_rfl) (all_cons (by kernel_rfl) (List.forall_mem_nil _)))⟩

theorem obeys_repoLines2_7_lines (n : Str) : ∀ i ∈ [0, 1], Command.FirstLine (F30_Repo.cls F30_RepoData.cls) n [c!"--name=r", c!"--mirrorlist=m"] obeys_repoLines2_7_object (repoLines2.lines.getD i noLine) :=
  (all_cons (by intro b b' hb hb' x hx line l; (cases x with | nil => exact absurd rfl hx | cons a x => kernel_rfl))
    (all_cons (by intro b b' hb hb' x hx line l; (cases x with | nil => exact absurd rfl hx | cons a x => kernel_rfl))
    (List.forall_mem_nil _)))

theorem obeys_repoLines2_7 : ∀ v, [Version.F30, Version.F31, Version.F32].contains v = true → Command.Obeys (F30_Repo.cls F30_RepoData.cls) repoLines2 v :=
  obeys_of obeys_repoLines2_7_object [0] [0, 1] (obeys_repoLines2_7_base _) (all_cons obeys_repoLines2_7_start (List.forall_mem_nil _)) (obeys_repoLines2_7_lines _) (by decide +kernel)

def obeys_repoLines2_8_object (l : Nat) : Ns := [(c!"lineno", .int l), (c!"baseurl", .str c!""), (c!"mirrorlist", .str c!"m"), (c!"name", .str c!"r"), (c!"cost", .none), (c!"includepkgs", .list []), (c!"excludepkgs", .list []), (c!"ignoregroups", .none), (c!"proxy", .str c!""), (c!"noverifyssl", .bool false), (c!"install", .bool false), (c!"metalink", .bool false), (c!"sslcacert", .none), (c!"sslclientcert", .none), (c!"sslclientkey", .none)]

theorem obeys_repoLines2_8_base (n : Str) : Command.FirstBase (F33_Repo.cls F30_RepoData.cls) n [c!"--name=r", c!"--mirrorlist=m"] obeys_repoLines2_8_object := by
  intro b b' hb hb' line l; kernel_rfl

theorem obeys_repoLines2_8_start : Command.FirstStart (F33_Repo.cls F30_RepoData.cls) obeys_repoLines2_8_object (repoLines2.start.getD 0 ([], [])).2 := fun _ => .inl ⟨fun _ => rfl, (all_cons (by kernel_rfl) (all_cons (by kernel_rfl) (List.forall_mem_nil _)))⟩

theorem obeys_repoLines2_8_lines (n : Str) : ∀ i ∈ [0, 1], Command.FirstLine (F33_Repo.cls F30_RepoData.cls) n [c!"--name=r", c!"--mirrorlist=m"] obeys_repoLines2_8_object (repoLines2.lines.getD i noLine) :=
  (all_cons (by intro b b' hb hb' x hx line l; (cases x with | nil => exact absurd rfl hx | cons a x => kernel_rfl))
    (all_cons (by intro b b' hb hb' x hx line l; (cases x with | nil => exact absurd rfl hx | cons a x => kernel_rfl))
    (List.forall_mem_nil _)))

theorem obeys_repoLines2_8 : ∀ v, [Version.F33, Version.F34].contains v = true → Command.Obeys (F33_Repo.cls F30_RepoData.cls) repoLines2 v :=
  obeys_of obeys_repoLines2_8_object [0] [0, 1] (obeys_repoLines2_8_base _) (all_cons obeys_repoLines2_8_start (List.forall_mem_nil _)) (obeys_repoLines2_8_lines _) (by decide +kernel)

def obeys_repoLines2_9_object (l : Nat) : Ns := [(c!"lineno", .int l), (c!"baseurl", .str c!""), (c!"mirrorlist", .str c!"m"), (c!"name", .str c!"r")]

theorem obeys_repoLines2_9_base (n : Str) : Command.FirstBase (FC6_Repo.cls FC6_RepoData.cls) n [c!"--name=r", c!"--mirrorlist=m"] obeys_repoLines2_9_object := by
  intro b b' hb hb' line l; kernel_rfl

theorem obeys_repoLines2_9_start : Command.FirstStart (FC6_Repo.cls FC6_RepoData.cls) obeys_repoLines2_9_object (repoLines2.start.getD 0 ([], [])).2 := fun _ => .inl ⟨fun _ => rfl, (all_cons (by kernel_rfl) (all_cons (by kernel_rfl) (List.forall_mem_nil _)))⟩

theorem obeys_repoLines2_9_lines (n : Str) : ∀ i ∈ [0, 1], Command.FirstLine (FC6_Repo.cls FC6_RepoData.cls) n [c!"--name=r", c!"--mirrorlist=m"] obeys_repoLines2_9_object (repoLines2.lines.getD i noLine) :=
  (all_cons (by intro b b' hb hb' x hx line l; (cases x with | nil => exact absurd rfl hx | cons a x => kernel_rfl))
    (all_cons (by intro b b' hb hb' x hx line l; (cases x with | nil => exact absurd rfl hx | cons a x => kernel_rfl))
    (List.forall_mem_nil _)))

theorem obeys_repoLines2_9 : ∀ v, [Version.FC6, Version.RHEL5, Version.F7].contains v = true → Command.Obeys (FC6_Repo.cls FC6_RepoData.cls) repoLines2 v :=
  obeys_of obeys_repoLines2_9_object [0] [0, 1] (obeys_repoLines2_9_base _) (all_cons obeys_repoLines2_9_start (List.forall_mem_nil _)) (obeys_repoLines2_9_lines _) (by decide +kernel)

def obeys_repoLines2_10_object (l : Nat) : Ns := [(c!"lineno", .int l), (c!"baseurl", .str c!""), (c!"mirrorlist", .str c!"m"), (c!"name", .str c!"r"), (c!"cost", .none), (c!"includepkgs", .list []), (c!"excludepkgs", .list []), (c!"ignoregroups", .none), (c!"proxy", .str c!""), (c!"noverifyssl", .bool false)]

theorem obeys_repoLines2_10_base (n : Str) : Command.FirstBase (RHEL6_Repo.cls RHEL6_RepoData.cls) n [c!"--name=r", c!"--mirrorlist=m"] obeys_repoLines2_10_object := by
  intro b b' hb hb' line l; kernel_rfl

theorem obeys_repoLines2_10_start : Command.FirstStart (RHEL6_Repo.cls RHEL6_RepoData.cls) obeys_repoLines2_10_object (repoLines2.start.getD 0 ([], [])).2 := fun _ => .inl ⟨fun _ => rfl, (all_cons (by kernel_rfl) (all_cons (by kernel_rfl) (List.forall_mem_nil _)))⟩

theorem obeys_repoLines2_10_lines (n : Str) : ∀ i ∈ [0, 1], Command.FirstLine (RHEL6_Repo.cls RHEL6_RepoData.cls) n [c!"--name=r", c!"--mirrorlist=m"] obeys_repoLines2_10_object (repoLines2.lines.getD i noLine) :=
  (all_cons (by intro b b' hb hb' x hx line l; (cases x with | nil => exact absurd rfl hx | cons a x => kernel_rfl))
    (all_cons (by intro b b' hb hb' x hx line l; (cases x with | nil => exact absurd rfl hx | cons a x => kernel_rfl))
    (List.forall_mem_nil _)))

theorem obeys_repoLines2_10 : ∀ v, [Version.RHEL6].contains v = true → Command.Obeys (RHEL6_Repo.cls RHEL6_RepoData.cls) repoLines2 v :=
  obeys_of obeys_repoLines2_10_object [0] [0, 1] (obeys_repoLines2_10_base _) (all_cons obeys_repoLines2_10_start (List.forall_mem_nil _)) (obeys_repoLines2_10_lines _) (by decide +kernel)

def obeys_repoLines2_11_object (l : Nat) : Ns := [(c!"lineno", .int l), (c!"baseurl", .str c!""), (c!"mirrorlist", .str c!"m"), (c!"name", .str c!"r"), (c!"cost", .none), (c!"includepkgs", .list []), (c!"excludepkgs", .list []), (c!"ignoregroups", .none), (c!"proxy", .str c!""), (c!"noverifyssl", .bool false), (c!"install", .bool false)]

theorem obeys_repoLines2_11_base (n : Str) : Command.FirstBase (RHEL7_Repo.cls RHEL7_RepoData.cls) n [c!"--name=r", c!"--mirrorlist=m"] obeys_repoLines2_11_object := by
  intro b b' hb hb' line l; kernel_rfl

theorem obeys_repoLines2_11_start : Command.FirstStart (RHEL7_Repo.cls RHEL7_RepoData.cls) obeys_repoLines2_11_object (repoLines2.start.getD 0 ([], [])).2 := fun _ => .inl ⟨fun _ => rfl, (all_cons (by kernel_rfl) (all_cons (by kernel_rfl) (List.forall_mem_nil _)))⟩

theorem obeys_repoLines2_11_lines (n : Str) : ∀ i ∈ [0, 1], Command.FirstLine (RHEL7_Repo.cls RHEL7_RepoData.cls) n [c!"--name=r", c!"--mirrorlist=m"] obeys_repoLines2_11_object (repoLines2.lines.getD i noLine) :=
  (all_cons (by intro b b' hb hb' x hx line l; (cases x with | nil => exact absurd rfl hx | cons a x => kernel_rfl))
    (all_cons (by intro b b' hb hb' x hx line l; (cases x with | nil => exact absurd rfl hx | cons a x => kernel_rfl))
    (List.forall_mem_nil _)))

theorem obeys_repoLines2_11 : ∀ v, [Version.RHEL7].contains v = true → Command.Obeys (RHEL7_Repo.cls RHEL7_RepoData.cls) repoLines2 v :=
  obeys_of obeys_repoLines2_11_object [0] [0, 1] (obeys_repoLines2_11_base _) (all_cons obeys_repoLines2_11_start (List.forall_mem_nil _)) (obeys_repoLines2_11_lines _) (by decide +kernel)

def obeys_repoLines2_12_object (l : Nat) : Ns := [(c!"lineno", .int l), (c!"baseurl", .str c!""), (c!"mirrorlist", .str c!"m"), (c!"name", .str c!"r"), (c!"cost", .none), (c!"includepkgs", .list []), (c!"excludepkgs", .list []), (c!"ignoregroups", .none), (c!"proxy", .str c!""), (c!"noverifyssl", .bool false), (c!"install", .bool false), (c!"metalink", .bool false), (c!"sslcacert", .none), (c!"sslclientcert", .none), (c!"sslclientkey", .none)]

theorem obeys_repoLines2_12_base (n : Str) : Command.FirstBase (RHEL8_Repo.cls RHEL8_RepoData.cls) n [c!"--name=r", c!"--mirrorlist=m"] obeys_repoLines2_12_object := by
  intro b b' hb hb' line l; kernel_rfl

theorem obeys_repoLines2_12_start : Command.FirstStart (RHEL8_Repo.cls RHEL8_RepoData.cls) obeys_repoLines2_12_object (repoLines2.start.getD 0 ([], [])).2 := fun _ => .inl ⟨fun _ => rfl, (all_cons (by kernel_rfl) (all_cons (by kernel_rfl) (List.forall_mem_nil _)))⟩

theorem obeys_repoLines2_12_lines (n : Str) : ∀ i ∈ [0, 1], Command.FirstLine (RHEL8_Repo.cls RHEL8_RepoData.cls) n [c!"--name=r", c!"--mirrorlist=m"] obeys_repoLines2_12_object (repoLines2.lines.getD i noLine) :=
  (all_cons (by intro b b' hb hb' x hx line l; (cases x with | nil => exact absurd rfl hx | cons a x => kernel_rfl))
    (all_cons (by intro b b' hb hb' x hx line l; (cases x with | nil => exact absurd rfl hx | cons a x => kernel_rfl))
    (List.forall_mem_nil _)))

theorem obeys_repoLines2_12 : ∀ v, [Version.RHEL8].contains v = true → Command.Obeys (RHEL8_Repo.cls RHEL8_RepoData.cls) repoLines2 v :=
  obeys_of obeys_repoLines2_12_object [0] [0, 1] (obeys_repoLines2_12_base _) (all_cons obeys_repoLines2_12_start (List.forall_mem_nil _)) (obeys_repoLines2_12_lines _) (by decide +kernel)

theorem obeys_repoLines2 : repoLines2.Obeyed := by
  unfold CommandLines.Obeyed commandMaps
  exact (all_cons (fun _ c h => by cases h; exact obeys_repoLines2_0 _ rfl)
    (all_cons (fun _ c h => by cases h; exact obeys_repoLines2_1 _ rfl)
    (all_cons (fun _ c h => by cases h; exact obeys_repoLines2_1 _ rfl)
    (all_cons (fun _ c h => by cases h; exact obeys_repoLines2_2 _ rfl)
    (all_cons (fun _ c h => by cases h; exact obeys_repoLines2_3 _ rfl)
    (all_cons (fun _ c h => by cases h; exact obeys_repoLines2_4 _ rfl)
    (all_cons (fun _ c h => by cases h; exact obeys_repoLines2_4 _ rfl)
    (all_cons (fun _ c h => by cases h; exact obeys_repoLines2_4 _ rfl)
    (all_cons (fun _ c h => by cases h; exact obeys_repoLines2_4 _ rfl)
    (all_cons (fun _ c h => by cases h; exact obeys_repoLines2_4 _ rfl)
    (all_cons (fun _ c h => by cases h; exact obeys_repoLines2_4 _ rfl)
    (all_cons (fun _ c h => by cases h; exact obeys_repoLines2_5 _ rfl)
    (all_cons (fun _ c h => by cases h; exact obeys_repoLines2_5 _ rfl)
    (all_cons (fun _ c h => by cases h; exact obeys_repoLines2_5 _ rfl)
    (all_cons (fun _ c h => by cases h; exact obeys_repoLines2_5 _ rfl)
    (all_cons (fun _ c h => by cases h; exact obeys_repoLines2_5 _ rfl)
    (all_cons (fun _ c h => by cases h; exact obeys_repoLines2_5 _ rfl)
    (all_cons (fun _ c h => by cases h; exact obeys_repoLines2_6 _ rfl)
    (all_cons (fun _ c h => by cases h; exact obeys_repoLines2_6 _ rfl)
    (all_cons (fun _ c h => by cases h; exact obeys_repoLines2_6 _ rfl)
    (all_cons (fun _ c h => by cases h; exact obeys_repoLines2_7 _ rfl)
    (all_cons (fun _ c h => by cases h; exact obeys_repoLines2_7 _ rfl)
    (all_cons (fun _ c h => by cases h; exact obeys_repoLines2_7 _ rfl)
    (all_cons (fun _ c h => by cases h; exact obeys_repoLines2_8 _ rfl)
    (all_cons (fun _ c h => by cases h; exact obeys_repoLines2_8 _ rfl)
    (all_cons (fun _ c h => by cases h; exact obeys_repoLines2_9 _ rfl)
    (all_cons (fun _ c h => by cases h; exact obeys_repoLines2_0 _ rfl)
    (all_cons (fun _ c h => by cases h; exact obeys_repoLines2_0 _ rfl)
    (all_cons (fun hv => absurd hv (by decide))
    (all_cons (fun hv => absurd hv (by decide))
    (all_cons (fun hv => absurd hv (by decide))
    (all_cons (fun _ c h => by cases h; exact obeys_repoLines2_9 _ rfl)
    (all_cons (fun hv => absurd hv (by decide))
    (all_cons (fun hv => absurd hv (by decide))
    (all_cons (fun _ c h => by cases h; exact obeys_repoLines2_9 _ rfl)
    (all_cons (fun _ c h => by cases h; exact obeys_repoLines2_10 _ rfl)
    (all_cons (fun _ c h => by cases h; exact obeys_repoLines2_11 _ rfl)
    (all_cons (fun _ c h => by cases h; exact obeys_repoLines2_12 _ rfl) (List.forall_mem_nil _)))))))))))))))))))))))))))))))))))))))

def obeys_repoLines3_0_object (l : Nat) : Ns := [(c!"lineno", .int l), (c!"baseurl", .str c!""), (c!"mirrorlist", .none), (c!"name", .str c!"r"), (c!"cost", .none), (c!"includepkgs", .list []), (c!"excludepkgs", .list []), (c!"ignoregroups", .none), (c!"proxy", .str c!""), (c!"noverifyssl", .bool false), (c!"install", .bool false), (c!"metalink", .str c!"m")]

theorem obeys_repoLines3_0_base (n : Str) : Command.FirstBase (F27_Repo.cls F27_RepoData.cls) n [c!"--name=r", c!"--metalink=m"] obeys_repoLines3_0_object := by
  intro b b' hb hb' line l; kernel_rfl

theorem obeys_repoLines3_0_start : Command.FirstStart (F27_Repo.cls F27_RepoData.cls) obeys_repoLines3_0_object (repoLines3.start.getD 0 ([], [])).2 := fun _ => .inl ⟨fun _ => rfl, (all_cons (by kernel_rfl) (all_cons (by kernel_rfl) (List.forall_mem_nil _)))⟩

theorem obeys_repoLines3_0_lines (n : Str) : ∀ i ∈ [0], Command.FirstLine (F27_Repo.cls F27_RepoData.cls) n [c!"--name=r", c!"--metalink=m"] obeys_repoLines3_0_object (repoLines3.lines.getD i noLine) :=
  (all_cons (by intro b b' hb hb' x hx line l; (cases x with | nil => exact absurd rfl hx | cons a x => kernel_rfl))
    (List.forall_mem_nil _))

theorem obeys_repoLines3_0 : ∀ v, [Version.F27, Version.F28, Version.F29].contains v = true → Command.Obeys (F27_Repo.cls F27_RepoData.cls) repoLines3 v :=
  obeys_of obeys_repoLines3_0_object [0] [0] (obeys_repoLines3_0_base _) (all_cons obeys_repoLines3_0_start (List.forall_mem_nil _)) (obeys_repoLines3_0_lines _) (by decide +kernel)

def obeys_repoLines3_1_object (l : Nat) : Ns := [(c!"lineno", .int l), (c!"baseurl", .str c!""), (c!"mirrorlist", .none), (c!"name", .str c!"r"), (c!"cost", .none), (c!"includepkgs", .list []), (c!"excludepkgs", .list []), (c!"ignoregroups", .none), (c!"proxy", .str c!""), (c!"noverifyssl", .bool false), (c!"install", .bool false), (c!"metalink", .str c!"m"), (c!"sslcacert", .none), (c!"sslclientcert", .none), (c!"sslclientkey", .none)]

theorem obeys_repoLines3_1_base (n : Str) : Command.FirstBase (F30_Repo.cls F30_RepoData.cls) n [c!"--name=r", c!"--metalink=m"] obeys_repoLines3_1_object := by
  intro b b' hb hb' line l; kernel_rfl

theorem obeys_repoLines3_1_start : Command.FirstStart (F30_Repo.cls F30_RepoData.cls) obeys_repoLines3_1_object (repoLines3.start.getD 0 ([], [])).2 := fun _ => .inl ⟨fun _ => rfl, (all_cons (by kernel_rfl) (all_cons (by kernel_rfl) (List.forall_mem_nil _)))⟩

theorem obeys_repoLines3_1_lines (n : Str) : ∀ i ∈ [0], Command.FirstLine (F30_Repo.cls F30_RepoData.cls) n [c!"--name=r", c!"--metalink=m"] obeys_repoLines3_1_object (repoLines3.lines.getD i noLine) :=
  (all_cons (by intro b b' hb hb' x hx line l; (cases x with | nil => exact absurd rfl hx | cons a x => kernel_rfl))
    (List.forall_mem_nil _))

theorem obeys_repoLines3_1 : ∀ v, [Version.F30, Version.F31, Version.F32].contains v = true → Command.Obeys (F30_Repo.cls F30_RepoData.cls) repoLines3 v :=
  obeys_of obeys_repoLines3_1_object [0] [0] (obeys_repoLines3_1_base _) (all_cons obeys_repoLines3_1_start (List.forall_mem_nil _)) (obeys_repoLines3_1_lines _) (by decide +kernel)

def obeys_repoLines3_2_object (l : Nat) : Ns := [(c!"lineno", .int l), (c!"baseurl", .str c!""), (c!"mirrorlist", .none), (c!"name", .str c!"r"), (c!"cost", .none), (c!"includepkgs", .list []), (c!"excludepkgs", .list []), (c!"ignoregroups", .none), (c!"proxy", .str c!""), (c!"noverifyssl", .bool false), (c!"install", .bool false), (c!"metalink", .str c!"m"), (c!"sslcacert", .none), (c!"sslclientcert", .none), (c!"sslclientkey", .none)]

theorem obeys_repoLines3_2_base (n : Str) : Command.FirstBase (F33_Repo.cls F30_RepoData.cls) n [c!"--name=r", c!"--metalink=m"] obeys_repoLines3_2_object := by
  intro b b' hb hb' line l; kernel_rfl

theorem obeys_repoLines3_2_start : Command.FirstStart (F33_Repo.cls F30_RepoData.cls) obeys_repoLines3_2_object (repoLines3.start.getD 0 ([], [])).2 := fun _ => .inl ⟨fun _ => rfl, (all_cons (by kernel_rfl) (all_cons (by kernel_rfl) (List.forall_mem_nil _)))⟩

theorem obeys_repoLines3_2_lines (n : Str) : ∀ i ∈ [0], Command.FirstLine (F33_Repo.cls F30_RepoData.cls) n [c!"--name=r", c!"--metalink=m"] obeys_repoLines3_2_object (repoLines3.lines.getD i noLine) :=
  (all_cons (by intro b b' hb hb' x hx line l; (cases x with | nil => exact absurd rfl hx | cons a x => kernel_rfl))
    (List.forall_mem_nil _))

theorem obeys_repoLines3_2 : ∀ v, [Version.F33, Version.F34].contains v = true → Command.Obeys (F33_Repo.cls F30_RepoData.cls) repoLines3 v :=
  obeys_of obeys_repoLines3_2_object [0] [0] (obeys_repoLines3_2_base _) (all_cons obeys_repoLines3_2_start (List.forall_mem_nil _)) (obeys_repoLines3_2_lines _) (by decide +kernel)

def obeys_repoLines3_3_object (l : Nat) : Ns := [(c!"lineno", .int l), (c!"baseurl", .str c!""), (c!"mirrorlist", .none), (c!"name", .str c!"r"), (c!"cost", .none), (c!"includepkgs", .list []), (c!"excludepkgs", .list []), (c!"ignoregroups", .none), (c!"proxy", .str c!""), (c!"noverifyssl", .bool false), (c!"install", .bool false), (c!"metalink", .str c!"m"), (c!"sslcacert", .none), (c!"sslclientcert", .none), (c!"sslclientkey", .none)]

theorem obeys_repoLines3_3_base (n : Str) : Command.FirstBase (RHEL8_Repo.cls RHEL8_RepoData.cls) n [c!"--name=r", c!"--metalink=m"] obeys_repoLines3_3_object := by
  intro b b' hb hb' line l; kernel_rfl

theorem obeys_repoLines3_3_start : Command.FirstStart (RHEL8_Repo.cls RHEL8_RepoData.cls) obeys_repoLines3_3_object (repoLines3.start.getD 0 ([], [])).2 := fun _ => .inl ⟨fun _ => rfl, (all_cons (by kernel_rfl) (all_cons (by kernel_rfl) (List.forall_mem_nil _)))⟩

theorem obeys_repoLines3_3_lines (n : Str) : ∀ i ∈ [0], Command.FirstLine (RHEL8_Repo.cls RHEL8_RepoData.cls) n [c!"--name=r", c!"--metalink=m"] obeys_repoLines3_3_object (repoLines3.lines.getD i noLine) :=
  (all_cons (by intro b b' hb hb' x hx line l; (cases x with | nil => exact absurd rfl hx | cons a x => kernel_rfl))
    (List.forall_mem_nil _))

theorem obeys_repoLines3_3 : ∀ v, [Version.RHEL8].contains v = true → Command.Obeys (RHEL8_Repo.cls RHEL8_RepoData.cls) repoLines3 v :=
  obeys_of obeys_repoLines3_3_object [0] [0] (obeys_repoLines3_3_base _) (all_cons obeys_repoLines3_3_start (List.forall_mem_nil _)) (obeys_repoLines3_3_lines _) (by decide +kernel)

theorem obeys_repoLines3 : repoLines3.Obeyed := by
  unfold CommandLines.Obeyed commandMaps
  exact (all_cons (fun hv => absurd hv (by decide))
    (all_cons (fun hv => absurd hv (by decide))
    (all_cons (fun hv => absurd hv (by decide))
    (all_cons (fun hv => absurd hv (by decide))
    (all_cons (fun hv => absurd hv (by decide))
    (all_cons (fun hv => absurd hv (by decide))
    (all_cons (fun hv => absurd hv (by decide))
    (all_cons (fun hv => absurd hv (by decide))
    (all_cons (fun hv => absurd hv (by decide))
    (all_cons (fun hv => absurd hv (by decide))
    (all_cons (fun hv => absurd hv (by decide))
    (all_cons (fun hv => absurd hv (by decide))
    (all_cons (fun hv => absurd hv (by decide))
    (all_cons (fun hv => absurd hv (by decide))
    (all_cons (fun hv => absurd hv (by decide))
    (all_cons (fun hv => absurd hv (by decide))
    (all_cons (fun hv => absurd hv (by decide))
    (all_cons (fun _ c h => by cases h; exact obeys_repoLines3_0 _ rfl)
    (all_cons (fun _ c h => by cases h; exact obeys_repoLines3_0 _ rfl)
    (all_cons (fun _ c h => by cases h; exact obeys_repoLines3_0 _ rfl)
    (all_cons (fun _ c h => by cases h; exact obeys_repoLines3_1 _ rfl)
    (all_cons (fun _ c h => by cases h; exact obeys_repoLines3_1 _ rfl)
    (all_cons (fun _ c h => by cases h; exact obeys_repoLines3_1 _ rfl)
    (all_cons (fun _ c h => by cases h; exact obeys_repoLines3_2 _ rfl)
    (all_cons (fun _ c h => by cases h; exact obeys_repoLines3_2 _ rfl)
    (all_cons (fun hv => absurd hv (by decide))
    (all_cons (fun hv => absurd hv (by decide))
    (all_cons (fun hv => absurd hv (by decide))
    (all_cons (fun hv => absurd hv (by decide))
    (all_cons (fun hv => absurd hv (by decide))
    (all_cons (fun hv => absurd hv (by decide))
    (all_cons (fun hv => absurd hv (by decide))
    (all_cons (fun hv => absurd hv (by decide))
    (all_cons (fun hv => absurd hv (by decide))
    (all_cons (fun hv => absurd hv (by decide))
    (all_cons (fun hv => absurd hv (by decide))
    (all_cons (fun hv => absurd hv (by decide))
    (all_cons (fun _ c h => by cases h; exact obeys_repoLines3_3 _ rfl) (List.forall_mem_nil _)))))))))))))))))))))))))))))))))))))))

def obeys_shutdownLines_0_object (_ : Nat) : Ns := [(c!"action", .int 2), (c!"eject", .bool false)]

theorem obeys_shutdownLines_0_base : Command.FirstBase (FC6_Reboot.cls) c!"shutdown" [] obeys_shutdownLines_0_object := by
  intro b b' hb hb' line l; kernel_rfl

theorem obeys_shutdownLines_0_start : Command.FirstStart (FC6_Reboot.cls) obeys_shutdownLines_0_object (shutdownLines.start.getD 0 ([], [])).2 := fun _ => .inr ⟨fun _ => rfl, by kernel_rfl⟩

theorem obeys_shutdownLines_0_lines : ∀ i ∈ [0, 2], Command.FirstLine (FC6_Reboot.cls) c!"shutdown" [] obeys_shutdownLines_0_object (shutdownLines.lines.getD i noLine) :=
  (all_cons (by intro b b' hb hb' x hx line l; kernel_rfl)
    (all_cons (by intro b b' hb hb' x hx line l; kernel_rfl)
    (List.forall_mem_nil _)))

theorem obeys_shutdownLines_0 : ∀ v, [Version.FC6, Version.RHEL5, Version.F7, Version.F8, Version.F9, Version.F10, Version.F11, Version.F12, Version.F13, Version.RHEL6, Version.F14, Version.F15, Version.F16, Version.F17].contains v = true → Command.Obeys (FC6_Reboot.cls) shutdownLines v :=
  obeys_of obeys_shutdownLines_0_object [0] [0, 2] (obeys_shutdownLines_0_base) (all_cons obeys_shutdownLines_0_start (List.forall_mem_nil _)) (obeys_shutdownLines_0_lines) (by decide +kernel)

def obeys_shutdownLines_1_object (_ : Nat) : Ns := [(c!"action", .int 2), (c!"eject", .bool false)]

theorem obeys_shutdownLines_1_base : Command.FirstBase (F18_Reboot.cls) c!"shutdown" [] obeys_shutdownLines_1_object := by
  intro b b' hb hb' line l; kernel_rfl

theorem obeys_shutdownLines_1_start : Command.FirstStart (F18_Reboot.cls) obeys_shutdownLines_1_object (shutdownLines.start.getD 0 ([], [])).2 := fun _ => .inr ⟨fun _ => rfl, by kernel_rfl⟩

theorem obeys_shutdownLines_1_lines : ∀ i ∈ [0, 2], Command.FirstLine (F18_Reboot.cls) c!"shutdown" [] obeys_shutdownLines_1_object (shutdownLines.lines.getD i noLine) :=
  (all_cons (by intro b b' hb hb' x hx line l; kernel_rfl)
    (all_cons (by intro b b' hb hb' x hx line l; kernel_rfl)
    (List.forall_mem_nil _)))

theorem obeys_shutdownLines_1 : ∀ v, [Version.F18, Version.F19, Version.F20, Version.F21, Version.RHEL7, Version.F22].contains v = true → Command.Obeys (F18_Reboot.cls) shutdownLines v :=
  obeys_of obeys_shutdownLines_1_object [0] [0, 2] (obeys_shutdownLines_1_base) (all_cons obeys_shutdownLines_1_start (List.forall_mem_nil _)) (obeys_shutdownLines_1_lines) (by decide +kernel)

def obeys_shutdownLines_2_object (_ : Nat) : Ns := [(c!"action", .int 2), (c!"eject", .bool false), (c!"kexec", .bool false)]

theorem obeys_shutdownLines_2_base : Command.FirstBase (F23_Reboot.cls) c!"shutdown" [] obeys_shutdownLines_2_object := by
  intro b b' hb hb' line l; kernel_rfl

theorem obeys_shutdownLines_2_start : Command.FirstStart (F23_Reboot.cls) obeys_shutdownLines_2_object (shutdownLines.start.getD 0 ([], [])).2 := fun _ => .inr ⟨fun _ => rfl, by kernel_rfl⟩

theorem obeys_shutdownLines_2_lines : ∀ i ∈ [0, 3], Command.FirstLine (F23_Reboot.cls) c!"shutdown" [] obeys_shutdownLines_2_object (shutdownLines.lines.getD i noLine) :=
  (all_cons (by intro b b' hb hb' x hx line l; kernel_rfl)
    (all_cons (by intro b b' hb hb' x hx line l; kernel_rfl)
    (List.forall_mem_nil _)))

theorem obeys_shutdownLines_2 : ∀ v, [Version.F23, Version.F24, Version.F25, Version.F26, Version.F27, Version.F28, Version.RHEL8, Version.F29, Version.F30, Version.F31, Version.F32, Version.F33, Version.F34].contains v = true → Command.Obeys (F23_Reboot.cls) shutdownLines v :=
  obeys_of obeys_shutdownLines_2_object [0] [0, 3] (obeys_shutdownLines_2_base) (all_cons obeys_shutdownLines_2_start (List.forall_mem_nil _)) (obeys_shutdownLines_2_lines) (by decide +kernel)

def obeys_shutdownLines_3_object (_ : Nat) : Ns := [(c!"action", .int 2)]

theorem obeys_shutdownLines_3_base : Command.FirstBase (FC3_Reboot.cls) c!"shutdown" [] obeys_shutdownLines_3_object := by
  intro b b' hb hb' line l; kernel_rfl

theorem obeys_shutdownLines_3_start : Command.FirstStart (FC3_Reboot.cls) obeys_shutdownLines_3_object (shutdownLines.start.getD 0 ([], [])).2 := fun _ => .inr ⟨fun _ => rfl, by kernel_rfl⟩

theorem obeys_shutdownLines_3_lines : ∀ i ∈ [1, 4], Command.FirstLine (FC3_Reboot.cls) c!"shutdown" [] obeys_shutdownLines_3_object (shutdownLines.lines.getD i noLine) :=
  (all_cons (by intro b b' hb hb' x hx line l; kernel_rfl)
    (all_cons (by intro b b' hb hb' x hx line l; kernel_rfl)
    (List.forall_mem_nil _)))

theorem obeys_shutdownLines_3 : ∀ v, [Version.RHEL3, Version.FC3, Version.RHEL4, Version.FC4, Version.FC5].contains v = true → Command.Obeys (FC3_Reboot.cls) shutdownLines v :=
  obeys_of obeys_shutdownLines_3_object [0] [1, 4] (obeys_shutdownLines_3_base) (all_cons obeys_shutdownLines_3_start (List.forall_mem_nil _)) (obeys_shutdownLines_3_lines) (by decide +kernel)

theorem obeys_shutdownLines : shutdownLines.Obeyed := by
  unfold CommandLines.Obeyed commandMaps
  exact (all_cons (fun _ c h => by cases h; exact obeys_shutdownLines_0 _ rfl)
    (all_cons (fun _ c h => by cases h; exact obeys_shutdownLines_0 _ rfl)
    (all_cons (fun _ c h => by cases h; exact obeys_shutdownLines_0 _ rfl)
    (all_cons (fun _ c h => by cases h; exact obeys_shutdownLines_0 _ rfl)
    (all_cons (fun _ c h => by cases h; exact obeys_shutdownLines_0 _ rfl)
    (all_cons (fun _ c h => by cases h; exact obeys_shutdownLines_0 _ rfl)
    (all_cons (fun _ c h => by cases h; exact obeys_shutdownLines_0 _ rfl)
    (all_cons (fun _ c h => by cases h; exact obeys_shutdownLines_0 _ rfl)
    (all_cons (fun _ c h => by cases h; exact obeys_shutdownLines_1 _ rfl)
    (all_cons (fun _ c h => by cases h; exact obeys_shutdownLines_1 _ rfl)
    (all_cons (fun _ c h => by cases h; exact obeys_shutdownLines_1 _ rfl)
    (all_cons (fun _ c h => by cases h; exact obeys_shutdownLines_1 _ rfl)
    (all_cons (fun _ c h => by cases h; exact obeys_shutdownLines_1 _ rfl)
    (all_cons (fun _ c h => by cases h; exact obeys_shutdownLines_2 _ rfl)
    (all_cons (fun _ c h => by cases h; exact obeys_shutdownLines_2 _ rfl)
    (all_cons (fun _ c h => by cases h; exact obeys_shutdownLines_2 _ rfl)
    (all_cons (fun _ c h => by cases h; exact obeys_shutdownLines_2 _ rfl)
    (all_cons (fun _ c h => by cases h; exact obeys_shutdownLines_2 _ rfl)
    (all_cons (fun _ c h => by cases h; exact obeys_shutdownLines_2 _ rfl)
    (all_cons (fun _ c h => by cases h; exact obeys_shutdownLines_2 _ rfl)
    (all_cons (fun _ c h => by cases h; exact obeys_shutdownLines_2 _ rfl)
    (all_cons (fun _ c h => by cases h; exact obeys_shutdownLines_2 _ rfl)
    (all_cons (fun _ c h => by cases h; exact obeys_shutdownLines_2 _ rfl)
    (all_cons (fun _ c h => by cases h; exact obeys_shutdownLines_2 _ rfl)
    (all_cons (fun _ c h => by cases h; exact obeys_shutdownLines_2 _ rfl)
    (all_cons (fun _ c h => by cases h; exact obeys_shutdownLines_0 _ rfl)
    (all_cons (fun _ c h => by cases h; exact obeys_shutdownLines_0 _ rfl)
    (all_cons (fun _ c h => by cases h; exact obeys_shutdownLines_0 _ rfl)
    (all_cons (fun _ c h => by cases h; exact obeys_shutdownLines_3 _ rfl)
    (all_cons (fun _ c h => by cases h; exact obeys_shutdownLines_3 _ rfl)
    (all_cons (fun _ c h => by cases h; exact obeys_shutdownLines_3 _ rfl)
    (all_cons (fun _ c h => by cases h; exact obeys_shutdownLines_0 _ rfl)
    (all_cons (fun _ c h => by cases h; exact obeys_shutdownLines_3 _ rfl)
    (all_cons (fun _ c h => by cases h; exact obeys_shutdownLines_3 _ rfl)
    (all_cons (fun _ c h => by cases h; exact obeys_shutdownLines_0 _ rfl)
    (all_cons (fun _ c h => by cases h; exact obeys_shutdownLines_0 _ rfl)
    (all_cons (fun _ c h => by cases h; exact obeys_shutdownLines_1 _ rfl)
    (all_cons (fun _ c h => by cases h; exact obeys_shutdownLines_2 _ rfl) (List.forall_mem_nil _)))))))))))))))))))))))))))))))))))))))

def obeys_skipxLines_0_object (_ : Nat) : Ns := [(c!"skipx", .bool true)]

theorem obeys_skipxLines_0_base (n : Str) : Command.FirstBase (FC3_SkipX.cls) n [] obeys_skipxLines_0_object := by
  intro b b' hb hb' line l; kernel_rfl

theorem obeys_skipxLines_0_start : Command.FirstStart (FC3_SkipX.cls) obeys_skipxLines_0_object (skipxLines.start.getD 0 ([], [])).2 := fun _ => .inr ⟨fun _ => rfl, by kernel_rfl⟩

theorem obeys_skipxLines_0_lines (n : Str) : ∀ i ∈ [0, 1], Command.FirstLine (FC3_SkipX.cls) n [] obeys_skipxLines_0_object (skipxLines.lines.getD i noLine) :=
  (all_cons (by intro b b' hb hb' x hx line l; kernel_rfl)
    (all_cons (by intro b b' hb hb' x hx line l; kernel_rfl)
    (List.forall_mem_nil _)))

theorem obeys_skipxLines_0 : ∀ v, [Version.RHEL3, Version.FC3, Version.RHEL4, Version.FC4, Version.FC5, Version.FC6, Version.RHEL5, Version.F7, Version.F8, Version.F9, Version.F10, Version.F11, Version.F12, Version.F13, Version.RHEL6, Version.F14, Version.F15, Version.F16, Version.F17, Version.F18, Version.F19, Version.F20, Version.F21, Version.RHEL7, Version.F22, Version.F23, Version.F24, Version.F25, Version.F26, Version.F27, Version.F28, Version.RHEL8, Version.F29, Version.F30, Version.F31, Version.F32, Version.F33, Version.F34].contains v = true → Command.Obeys (FC3_SkipX.cls) skipxLines v :=
  obeys_of obeys_skipxLines_0_object [0] [0, 1] (obeys_skipxLines_0_base _) (all_cons obeys_skipxLines_0_start (List.forall_mem_nil _)) (obeys_skipxLines_0_lines _) (by decide +kernel)

theorem obeys_skipxLines : skipxLines.Obeyed := by
  unfold CommandLines.Obeyed commandMaps
  exact (all_cons (fun _ c h => by cases h; exact obeys_skipxLines_0 _ rfl)
    (all_cons (fun _ c h => by cases h; exact obeys_skipxLines_0 _ rfl)
    (all_cons (fun _ c h => by cases h; exact obeys_skipxLines_0 _ rfl)
    (all_cons (fun _ c h => by cases h; exact obeys_skipxLines_0 _ rfl)
    (all_cons (fun _ c h => by cases h; exact obeys_skipxLines_0 _ rfl)
    (all_cons (fun _ c h => by cases h; exact obeys_skipxLines_0 _ rfl)
    (all_cons (fun _ c h => by cases h; exact obeys_skipxLines_0 _ rfl)
    (all_cons (fun _ c h => by cases h; exact obeys_skipxLines_0 _ rfl)
    (all_cons (fun _ c h => by cases h; exact obeys_skipxLines_0 _ rfl)
    (all_cons (fun _ c h => by cases h; exact obeys_skipxLines_0 _ rfl)
    (all_cons (fun _ c h => by cases h; exact obeys_skipxLines_0 _ rfl)
    (all_cons (fun _ c h => by cases h; exact obeys_skipxLines_0 _ rfl)
    (all_cons (fun _ c h => by cases h; exact obeys_skipxLines_0 _ rfl)
    (all_cons (fun _ c h => by cases h; exact obeys_skipxLines_0 _ rfl)
    (all_cons (fun _ c h => by cases h; exact obeys_skipxLines_0 _ rfl)
    (all_cons (fun _ c h => by cases h; exact obeys_skipxLines_0 _ rfl)
    (all_cons (fun _ c h => by cases h; exact obeys_skipxLines_0 _ rfl)
    (all_cons (fun _ c h => by cases h; exact obeys_skipxLines_0 _ rfl)
    (all_cons (fun _ c h => by cases h; exact obeys_skipxLines_0 _ rfl)
    (all_cons (fun _ c h => by cases h; exact obeys_skipxLines_0 _ rfl)
    (all_cons (fun _ c h => by cases h; exact obeys_skipxLines_0 _ rfl)
    (all_cons (fun _ c h => by cases h; exact obeys_skipxLines_0 _ rfl)
    (all_cons (fun _ c h => by cases h; exact obeys_skipxLines_0 _ rfl)
    (all_cons (fun _ c h => by cases h; exact obeys_skipxLines_0 _ rfl)
    (all_cons (fun _ c h => by cases h; exact obeys_skipxLines_0 _ rfl)
    (all_cons (fun _ c h => by cases h; exact obeys_skipxLines_0 _ rfl)
    (all_cons (fun _ c h => by cases h; exact obeys_skipxLines_0 _ rfl)
    (all_cons (fun _ c h => by cases h; exact obeys_skipxLines_0 _ rfl)
    (all_cons (fun _ c h => by cases h; exact obeys_skipxLines_0 _ rfl)
    (all_cons (fun _ c h => by cases h; exact obeys_skipxLines_0 _ rfl)
    (all_cons (fun _ c h => by cases h; exact obeys_skipxLines_0 _ rfl)
    (all_cons (fun _ c h => by cases h; exact obeys_skipxLines_0 _ rfl)
    (all_cons (fun _ c h => by cases h; exact obeys_skipxLines_0 _ rfl)
    (all_cons (fun _ c h => by cases h; exact obeys_skipxLines_0 _ rfl)
    (all_cons (fun _ c h => by cases h; exact obeys_skipxLines_0 _ rfl)
    (all_cons (fun _ c h => by cases h; exact obeys_skipxLines_0 _ rfl)
    (all_cons (fun _ c h => by cases h; exact obeys_skipxLines_0 _ rfl)
    (all_cons (fun _ c h => by cases h; exact obeys_skipxLines_0 _ rfl) (List.forall_mem_nil _)))))))))))))))))))))))))))))))))))))))

def obeys_sshpwLines_0_object (l : Nat) : Ns := [(c!"lineno", .int l), (c!"username", .str c!"u"), (c!"isCrypted", .bool false), (c!"password", .str c!"p"), (c!"lock", .bool false)]

theorem obeys_sshpwLines_0_base (n : Str) : Command.FirstBase (F13_SshPw.cls F13_SshPwData.cls) n [c!"--username=u", c!"p"] obeys_sshpwLines_0_object := by
  intro b b' hb hb' line l; kernel_rfl

theorem obeys_sshpwLines_0_start : Command.FirstStart (F13_SshPw.cls F13_SshPwData.cls) obeys_sshpwLines_0_object (sshpwLines.start.getD 0 ([], [])).2 := fun _ => .inl ⟨fun _ => rfl, (all_cons (by kernel_rfl) (all_cons (by kernel_rfl) (List.forall_mem_nil _)))⟩

theorem obeys_sshpwLines_0_lines (n : Str) : ∀ i ∈ [0, 1, 2, 3, 4], Command.FirstLine (F13_SshPw.cls F13_SshPwData.cls) n [c!"--username=u", c!"p"] obeys_sshpwLines_0_object (sshpwLines.lines.getD i noLine) :=
  (all_cons (by intro b b' hb hb' x hx line l; (cases x with | nil => exact absurd rfl hx | cons a x => kernel_rfl))
    (all_cons (by intro b b' hb hb' x hx line l; kernel_rfl)
    (all_cons (by intro b b' hb hb' x hx line l; kernel_rfl)
    (all_cons (by intro b b' hb hb' x hx line l; kernel_rfl)
    (all_cons (by intro b b' hb hb' x hx line l; kernel_rfl)
    (List.forall_mem_nil _))))))

theorem obeys_sshpwLines_0 : ∀ v, [Version.F13, Version.RHEL6, Version.F14, Version.F15, Version.F16, Version.F17, Version.F18, Version.F19, Version.F20, Version.F21, Version.RHEL7, Version.F22, Version.F23].contains v = true → Command.Obeys (F13_SshPw.cls F13_SshPwData.cls) sshpwLines v :=
  obeys_of obeys_sshpwLines_0_object [0] [0, 1, 2, 3, 4] (obeys_sshpwLines_0_base _) (all_cons obeys_sshpwLines_0_start (List.forall_mem_nil _)) (obeys_sshpwLines_0_lines _) (by decide +kernel)

def obeys_sshpwLines_1_object (l : Nat) : Ns := [(c!"lineno", .int l), (c!"username", .str c!"u"), (c!"isCrypted", .bool false), (c!"password", .str c!"p"), (c!"lock", .bool false), (c!"sshkey", .bool false)]

theorem obeys_sshpwLines_1_base (n : Str) : Command.FirstBase (F24_SshPw.cls F24_SshPwData.cls) n [c!"--username=u", c!"p"] obeys_sshpwLines_1_object := by
  intro b b' hb hb' line l; kernel_rfl

theorem obeys_sshpwLines_1_start : Command.FirstStart (F24_SshPw.cls F24_SshPwData.cls) obeys_sshpwLines_1_object (sshpwLines.start.getD 0 ([], [])).2 := fun _ => .inl ⟨fun _ => rfl, (all_cons (by kernel_rfl) (all_cons (by kernel_rfl) (List.forall_mem_nil _)))⟩

theorem obeys_sshpwLines_1_lines (n : Str) : ∀ i ∈ [0, 1, 2, 3, 5], Command.FirstLine (F24_SshPw.cls F24_SshPwData.cls) n [c!"--username=u", c!"p"] obeys_sshpwLines_1_object (sshpwLines.lines.getD i noLine) :=
  (all_cons (by intro b b' hb hb' x hx line l; (cases x with | nil => exact absurd rfl hx | cons a x => kernel_rfl))
    (all_cons (by intro b b' hb hb' x hx line l; kernel_rfl)
    (all_cons (by intro b b' hb hb' x hx line l; kernel_rfl)
    (all_cons (by intro b b' hb hb' x hx line l; kernel_rfl)
    (all_cons (by intro b b' hb hb' x hx line l; kernel_rfl)
    (List.forall_mem_nil _))))))

theorem obeys_sshpwLines_1 : ∀ v, [Version.F24, Version.F25, Version.F26, Version.F27, Version.F28, Version.RHEL8, Version.F29, Version.F30, Version.F31, Version.F32, Version.F33, Version.F34].contains v = true → Command.Obeys (F24_SshPw.cls F24_SshPwData.cls) sshpwLines v :=
  obeys_of obeys_sshpwLines_1_object [0] [0, 1, 2, 3, 5] (obeys_sshpwLines_1_base _) (all_cons obeys_sshpwLines_1_start (List.forall_mem_nil _)) (obeys_sshpwLines_1_lines _) (by decide +kernel)

theorem obeys_sshpwLines : sshpwLines.Obeyed := by
  unfold CommandLines.Obeyed commandMaps
  exact (all_cons (fun hv => absurd hv (by decide))
    (all_cons (fun hv => absurd hv (by decide))
    (all_cons (fun hv => absurd hv (by decide))
    (all_cons (fun _ c h => by cases h; exact obeys_sshpwLines_0 _ rfl)
    (all_cons (fun _ c h => by cases h; exact obeys_sshpwLines_0 _ rfl)
    (all_cons (fun _ c h => by cases h; exact obeys_sshpwLines_0 _ rfl)
    (all_cons (fun _ c h => by cases h; exact obeys_sshpwLines_0 _ rfl)
    (all_cons (fun _ c h => by cases h; exact obeys_sshpwLines_0 _ rfl)
    (all_cons (fun _ c h => by cases h; exact obeys_sshpwLines_0 _ rfl)
    (all_cons (fun _ c h => by cases h; exact obeys_sshpwLines_0 _ rfl)
    (all_cons (fun _ c h => by cases h; exact obeys_sshpwLines_0 _ rfl)
    (all_cons (fun _ c h => by cases h; exact obeys_sshpwLines_0 _ rfl)
    (all_cons (fun _ c h => by cases h; exact obeys_sshpwLines_0 _ rfl)
    (all_cons (fun _ c h => by cases h; exact obeys_sshpwLines_0 _ rfl)
    (all_cons (fun _ c h => by cases h; exact obeys_sshpwLines_1 _ rfl)
    (all_cons (fun _ c h => by cases h; exact obeys_sshpwLines_1 _ rfl)
    (all_cons (fun _ c h => by cases h; exact obeys_sshpwLines_1 _ rfl)
    (all_cons (fun _ c h => by cases h; exact obeys_sshpwLines_1 _ rfl)
    (all_cons (fun _ c h => by cases h; exact obeys_sshpwLines_1 _ rfl)
    (all_cons (fun _ c h => by cases h; exact obeys_sshpwLines_1 _ rfl)
    (all_cons (fun _ c h => by cases h; exact obeys_sshpwLines_1 _ rfl)
    (all_cons (fun _ c h => by cases h; exact obeys_sshpwLines_1 _ rfl)
    (all_cons (fun _ c h => by cases h; exact obeys_sshpwLines_1 _ rfl)
    (all_cons (fun _ c h => by cases h; exact obeys_sshpwLines_1 _ rfl)
    (all_cons (fun _ c h => by cases h; exact obeys_sshpwLines_1 _ rfl)
    (all_cons (fun hv => absurd hv (by decide))
    (all_cons (fun hv => absurd hv (by decide))
    (all_cons (fun hv => absurd hv (by decide))
    (all_cons (fun hv => absurd hv (by decide))
    (all_cons (fun hv => absurd hv (by decide))
    (all_cons (fun hv => absurd hv (by decide))
    (all_cons (fun hv => absurd hv (by decide))
    (all_cons (fun hv => absurd hv (by decide))
    (all_cons (fun hv => absurd hv (by decide))
    (all_cons (fun hv => absurd hv (by decide))
    (all_cons (fun _ c h => by cases h; exact obeys_sshpwLines_0 _ rfl)
    (all_cons (fun _ c h => by cases h; exact obeys_sshpwLines_0 _ rfl)
    (all_cons (fun _ c h => by cases h; exact obeys_sshpwLines_1 _ rfl) (List.forall_mem_nil _)))))))))))))))))))))))))))))))))))))))

def obeys_upgradeLines_0_object (_ : Nat) : Ns := [(c!"upgrade", .bool true)]

theorem obeys_upgradeLines_0_base : Command.FirstBase (FC3_Upgrade.cls) c!"upgrade" [] obeys_upgradeLines_0_object := by
  intro b b' hb hb' line l; kernel_rfl

theorem obeys_upgradeLines_0_start : Command.FirstStart (FC3_Upgrade.cls) obeys_upgradeLines_0_object (upgradeLines.start.getD 0 ([], [])).2 := fun _ => .inr ⟨fun _ => rfl, by kernel_rfl⟩

theorem obeys_upgradeLines_0_lines : ∀ i ∈ [0], Command.FirstLine (FC3_Upgrade.cls) c!"upgrade" [] obeys_upgradeLines_0_object (upgradeLines.lines.getD i noLine) :=
  (all_cons (by intro b b' hb hb' x hx line l; (cases x with | nil => exact absurd rfl hx | cons a x => kernel_rfl))
    (List.forall_mem_nil _))

theorem obeys_upgradeLines_0 : ∀ v, [Version.RHEL3, Version.FC3, Version.RHEL4, Version.FC4, Version.FC5, Version.FC6, Version.RHEL5, Version.F7, Version.F8, Version.F9, Version.F10].contains v = true → Command.Obeys (FC3_Upgrade.cls) upgradeLines v :=
  obeys_of obeys_upgradeLines_0_object [0] [0] (obeys_upgradeLines_0_base) (all_cons obeys_upgradeLines_0_start (List.forall_mem_nil _)) (obeys_upgradeLines_0_lines) (by decide +kernel)

def obeys_upgradeLines_1_object (_ : Nat) : Ns := [(c!"upgrade", .bool true), (c!"root_device", .none)]

theorem obeys_upgradeLines_1_base : Command.FirstBase (F11_Upgrade.cls) c!"upgrade" [] obeys_upgradeLines_1_object := by
  intro b b' hb hb' line l; kernel_rfl

theorem obeys_upgradeLines_1_start : Command.FirstStart (F11_Upgrade.cls) obeys_upgradeLines_1_object (upgradeLines.start.getD 0 ([], [])).2 := fun _ => .inr ⟨fun _ => rfl, by kernel_rfl⟩

theorem obeys_upgradeLines_1_lines : ∀ i ∈ [1], Command.FirstLine (F11_Upgrade.cls) c!"upgrade" [] obeys_upgradeLines_1_object (upgradeLines.lines.getD i noLine) :=
  (all_cons (by intro b b' hb hb' x hx line l; (cases x with | nil => exact absurd rfl hx | cons a x => kernel_rfl))
    (List.forall_mem_nil _))

theorem obeys_upgradeLines_1 : ∀ v, [Version.F11, Version.F12, Version.F13, Version.RHEL6, Version.F14, Version.F15, Version.F16, Version.F17, Version.F18, Version.F19].contains v = true → Command.Obeys (F11_Upgrade.cls) upgradeLines v :=
  obeys_of obeys_upgradeLines_1_object [0] [1] (obeys_upgradeLines_1_base) (all_cons obeys_upgradeLines_1_start (List.forall_mem_nil _)) (obeys_upgradeLines_1_lines) (by decide +kernel)

theorem obeys_upgradeLines : upgradeLines.Obeyed := by
  unfold CommandLines.Obeyed commandMaps
  exact (all_cons (fun _ c h => by cases h; exact obeys_upgradeLines_0 _ rfl)
    (all_cons (fun _ c h => by cases h; exact obeys_upgradeLines_1 _ rfl)
    (all_cons (fun _ c h => by cases h; exact obeys_upgradeLines_1 _ rfl)
    (all_cons (fun _ c h => by cases h; exact obeys_upgradeLines_1 _ rfl)
    (all_cons (fun _ c h => by cases h; exact obeys_upgradeLines_1 _ rfl)
    (all_cons (fun _ c h => by cases h; exact obeys_upgradeLines_1 _ rfl)
    (all_cons (fun _ c h => by cases h; exact obeys_upgradeLines_1 _ rfl)
    (all_cons (fun _ c h => by cases h; exact obeys_upgradeLines_1 _ rfl)
    (all_cons (fun _ c h => by cases h; exact obeys_upgradeLines_1 _ rfl)
    (all_cons (fun _ c h => by cases h; exact obeys_upgradeLines_1 _ rfl)
    (all_cons (fun hv => absurd hv (by decide))
    (all_cons (fun hv => absurd hv (by decide))
    (all_cons (fun hv => absurd hv (by decide))
    (all_cons (fun hv => absurd hv (by decide))
    (all_cons (fun hv => absurd hv (by decide))
    (all_cons (fun hv => absurd hv (by decide))
    (all_cons (fun hv => absurd hv (by decide))
    (all_cons (fun hv => absurd hv (by decide))
    (all_cons (fun hv => absurd hv (by decide))
    (all_cons (fun hv => absurd hv (by decide))
    (all_cons (fun hv => absurd hv (by decide))
    (all_cons (fun hv => absurd hv (by decide))
    (all_cons (fun hv => absurd hv (by decide))
    (all_cons (fun hv => absurd hv (by decide))
    (all_cons (fun hv => absurd hv (by decide))
    (all_cons (fun _ c h => by cases h; exact obeys_upgradeLines_0 _ rfl)
    (all_cons (fun _ c h => by cases h; exact obeys_upgradeLines_0 _ rfl)
    (all_cons (fun _ c h => by cases h; exact obeys_upgradeLines_0 _ rfl)
    (all_cons (fun _ c h => by cases h; exact obeys_upgradeLines_0 _ rfl)
    (all_cons (fun _ c h => by cases h; exact obeys_upgradeLines_0 _ rfl)
    (all_cons (fun _ c h => by cases h; exact obeys_upgradeLines_0 _ rfl)
    (all_cons (fun _ c h => by cases h; exact obeys_upgradeLines_0 _ rfl)
    (all_cons (fun _ c h => by cases h; exact obeys_upgradeLines_0 _ rfl)
    (all_cons (fun _ c h => by cases h; exact obeys_upgradeLines_0 _ rfl)
    (all_cons (fun _ c h => by cases h; exact obeys_upgradeLines_0 _ rfl)
    (all_cons (fun _ c h => by cases h; exact obeys_upgradeLines_1 _ rfl)
    (all_cons (fun hv => absurd hv (by decide))
    (all_cons (fun hv => absurd hv (by decide)) (List.forall_mem_nil _)))))))))))))))))))))))))))))))))))))))

def obeys_xconfigLines_0_object (_ : Nat) : Ns := [(c!"defaultdesktop", .str c!""), (c!"depth", .int 0), (c!"startX", .bool false)]

theorem obeys_xconfigLines_0_base (n : Str) : Command.FirstBase (F10_XConfig.cls) n [] obeys_xconfigLines_0_object := by
  intro b b' hb hb' line l; kernel_rfl

theorem obeys_xconfigLines_0_start : Command.FirstStart (F10_XConfig.cls) obeys_xconfigLines_0_object (xconfigLines.start.getD 0 ([], [])).2 := fun _ => .inr ⟨fun _ => rfl, by kernel_rfl⟩

theorem obeys_xconfigLines_0_lines (n : Str) : ∀ i ∈ [0, 1, 2, 4, 6, 8, 11], Command.FirstLine (F10_XConfig.cls) n [] obeys_xconfigLines_0_object (xconfigLines.lines.getD i noLine) :=
  (all_cons (by intro b b' hb hb' x hx line l; (cases x with | nil => exact absurd rfl hx | cons a x => kernel_rfl))
    (all_cons (by intro b b' hb hb' x hx line l; kernel_rfl)
    (all_cons (by intro b b' hb hb' x hx line l; (cases x with | nil => exact absurd rfl hx | cons a x => kernel_rfl))
    (all_cons (by intro b b' hb hb' x hx line l; (cases x with | nil => exact absurd rfl hx | cons a x => kernel_rfl))
    (all_cons (by intro b b' hb hb' x hx line l; (cases x with | nil => exact absurd rfl hx | cons a x => kernel_rfl))
    (all_cons (by intro b b' hb hb' x hx line l; (cases x with | nil => exact absurd rfl hx | cons a x => kernel_rfl))
    (all_cons (by intro b b' hb hb' x hx line l; kernel_rfl)
    (List.forall_mem_nil _))))))))

theorem obeys_xconfigLines_0 : ∀ v, [Version.F10, Version.F11, Version.F12, Version.F13, Version.RHEL6].contains v = true → Command.Obeys (F10_XConfig.cls) xconfigLines v :=
  obeys_of obeys_xconfigLines_0_object [0] [0, 1, 2, 4, 6, 8, 11] (obeys_xconfigLines_0_base _) (all_cons obeys_xconfigLines_0_start (List.forall_mem_nil _)) (obeys_xconfigLines_0_lines _) (by decide +kernel)

def obeys_xconfigLines_1_object (_ : Nat) : Ns := [(c!"defaultdesktop", .str c!""), (c!"depth", .int 0), (c!"startX", .bool false)]

theorem obeys_xconfigLines_1_base (n : Str) : Command.FirstBase (F14_XConfig.cls) n [] obeys_xconfigLines_1_object := by
  intro b b' hb hb' line l; kernel_rfl

theorem obeys_xconfigLines_1_start : Command.FirstStart (F14_XConfig.cls) obeys_xconfigLines_1_object (xconfigLines.start.getD 0 ([], [])).2 := fun _ => .inr ⟨fun _ => rfl, by kernel_rfl⟩

theorem obeys_xconfigLines_1_lines (n : Str) : ∀ i ∈ [0, 1, 3, 5, 7, 9, 12], Command.FirstLine (F14_XConfig.cls) n [] obeys_xconfigLines_1_object (xconfigLines.lines.getD i noLine) :=
  (all_cons (by intro b b' hb hb' x hx line l; (cases x with | nil => exact absurd rfl hx | cons a x => kernel_rfl))
    (all_cons (by intro b b' hb hb' x hx line l; kernel_rfl)
    (all_cons (by intro b b' hb hb' x hx line l; (cases x with | nil => exact absurd rfl hx | cons a x => kernel_rfl))
    (all_cons (by intro b b' hb hb' x hx line l; (cases x with | nil => exact absurd rfl hx | cons a x => kernel_rfl))
    (all_cons (by intro b b' hb hb' x hx line l; (cases x with | nil => exact absurd rfl hx | cons a x => kernel_rfl))
    (all_cons (by intro b b' hb hb' x hx line l; (cases x with | nil => exact absurd rfl hx | cons a x => kernel_rfl))
    (all_cons (by intro b b' hb hb' x hx line l; kernel_rfl)
    (List.forall_mem_nil _))))))))

theorem obeys_xconfigLines_1 : ∀ v, [Version.F14, Version.F15, Version.F16, Version.F17, Version.F18, Version.F19, Version.F20, Version.F21, Version.RHEL7, Version.F22, Version.F23, Version.F24, Version.F25, Version.F26, Version.F27, Version.F28, Version.RHEL8, Version.F29, Version.F30, Version.F31, Version.F32, Version.F33, Version.F34].contains v = true → Command.Obeys (F14_XConfig.cls) xconfigLines v :=
  obeys_of obeys_xconfigLines_1_object [0] [0, 1, 3, 5, 7, 9, 12] (obeys_xconfigLines_1_base _) (all_cons obeys_xconfigLines_1_start (List.forall_mem_nil _)) (obeys_xconfigLines_1_lines _) (by decide +kernel)

def obeys_xconfigLines_2_object (_ : Nat) : Ns := [(c!"defaultdesktop", .str c!""), (c!"depth", .int 0), (c!"resolution", .str c!""), (c!"startX", .bool false), (c!"videoRam", .str c!""), (c!"driver", .str c!"")]

theorem obeys_xconfigLines_2_base (n : Str) : Command.FirstBase (FC6_XConfig.cls) n [] obeys_xconfigLines_2_object := by
  intro b b' hb hb' line l; kernel_rfl

theorem obeys_xconfigLines_2_start : Command.FirstStart (FC6_XConfig.cls) obeys_xconfigLines_2_object (xconfigLines.start.getD 0 ([], [])).2 := fun _ => .inr ⟨fun _ => rfl, by kernel_rfl⟩

theorem obeys_xconfigLines_2_lines (n : Str) : ∀ i ∈ [0, 1, 2, 6, 10, 13, 14, 16, 18, 20, 22, 24, 26], Command.FirstLine (FC6_XConfig.cls) n [] obeys_xconfigLines_2_object (xconfigLines.lines.getD i noLine) :=
  (all_cons (by intro b b' hb hb' x hx line l; (cases x with | nil => exact absurd rfl hx | cons a x => kernel_rfl))
    (all_cons (by intro b b' hb hb' x hx line l; kernel_rfl)
    (all_cons (by intro b b' hb hb' x hx line l; (cases x with | nil => exact absurd rfl hx | cons a x => kernel_rfl))
    (all_cons (by intro b b' hb hb' x hx line l; (cases x with | nil => exact absurd rfl hx | cons a x => kernel_rfl))
    (all_cons (by intro b b' hb hb' x hx line l; (cases x with | nil => exact absurd rfl hx | cons a x => kernel_rfl))
    (all_cons (by intro b b' hb hb' x hx line l; kernel_rfl)
    (all_cons (by intro b b' hb hb' x hx line l; (cases x with | nil => exact absurd rfl hx | cons a x => kernel_rfl))
    (all_cons (by intro b b' hb hb' x hx line l; (cases x with | nil => exact absurd rfl hx | cons a x => kernel_rfl))
    (all_cons (by intro b b' hb hb' x hx line l; (cases x with | nil => exact absurd rfl hx | cons a x => kernel_rfl))
    (all_cons (by intro b b' hb hb' x hx line l; (cases x with | nil => exact absurd rfl hx | cons a x => kernel_rfl))
    (all_cons (by intro b b' hb hb' x hx line l; (cases x with | nil => exact absurd rfl hx | cons a x => kernel_rfl))
    (all_cons (by intro b b' hb hb' x hx line l; kernel_rfl)
    (all_cons (by intro b b' hb hb' x hx line l; (cases x with | nil => exact absurd rfl hx | cons a x => kernel_rfl))
    (List.forall_mem_nil _))))))))))))))

theorem obeys_xconfigLines_2 : ∀ v, [Version.FC6, Version.RHEL5, Version.F7, Version.F8].contains v = true → Command.Obeys (FC6_XConfig.cls) xconfigLines v :=
  obeys_of obeys_xconfigLines_2_object [0] [0, 1, 2, 6, 10, 13, 14, 16, 18, 20, 22, 24, 26] (obeys_xconfigLines_2_base _) (all_cons obeys_xconfigLines_2_start (List.forall_mem_nil _)) (obeys_xconfigLines_2_lines _) (by decide +kernel)

def obeys_xconfigLines_3_object (_ : Nat) : Ns := [(c!"defaultdesktop", .str c!""), (c!"depth", .int 0), (c!"resolution", .str c!""), (c!"startX", .bool false), (c!"videoRam", .str c!""), (c!"driver", .str c!"")]

theorem obeys_xconfigLines_3_base (n : Str) : Command.FirstBase (F9_XConfig.cls) n [] obeys_xconfigLines_3_object := by
  intro b b' hb hb' line l; kernel_rfl

theorem obeys_xconfigLines_3_start : Command.FirstStart (F9_XConfig.cls) obeys_xconfigLines_3_object (xconfigLines.start.getD 0 ([], [])).2 := fun _ => .inr ⟨fun _ => rfl, by kernel_rfl⟩

theorem obeys_xconfigLines_3_lines (n : Str) : ∀ i ∈ [0, 1, 2, 5, 6, 10, 13, 15, 17, 19, 21, 23], Command.FirstLine (F9_XConfig.cls) n [] obeys_xconfigLines_3_object (xconfigLines.lines.getD i noLine) :=
  (all_cons (by intro b b' hb hb' x hx line l; (cases x with | nil => exact absurd rfl hx | cons a x => kernel_rfl))
    (all_cons (by intro b b' hb hb' x hx line l; kernel_rfl)
    (all_cons (by intro b b' hb hb' x hx line l; (cases x with | nil => exact absurd rfl hx | cons a x => kernel_rfl))
    (all_cons (by intro b b' hb hb' x hx line l; (cases x with | nil => exact absurd rfl hx | cons a x => kernel_rfl))
    (all_cons (by intro b b' hb hb' x hx line l; (cases x with | nil => exact absurd rfl hx | cons a x => kernel_rfl))
    (all_cons (by intro b b' hb hb' x hx line l; (cases x with | nil => exact absurd rfl hx | cons a x => kernel_rfl))
    (all_cons (by intro b b' hb hb' x hx line l; kernel_rfl)
    (all_cons (by intro b b' hb hb' x hx line l; (cases x with | nil => exact absurd rfl hx | cons a x => kernel_rfl))
    (all_cons (by intro b b' hb hb' x hx line l; (cases x with | nil => exact absurd rfl hx | cons a x => kernel_rfl))
    (all_cons (by intro b b' hb hb' x hx line l; (cases x with | nil => exact absurd rfl hx | cons a x => kernel_rfl))
    (all_cons (by intro b b' hb hb' x hx line l; (cases x with | nil => exact absurd rfl hx | cons a x => kernel_rfl))
    (all_cons (by intro b b' hb hb' x hx line l; (cases x with | nil => exact absurd rfl hx | cons a x => kernel_rfl))
    (List.forall_mem_nil _)))))))))))))

theorem obeys_xconfigLines_3 : ∀ v, [Version.F9].contains v = true → Command.Obeys (F9_XConfig.cls) xconfigLines v :=
  obeys_of obeys_xconfigLines_3_object [0] [0, 1, 2, 5, 6, 10, 13, 15, 17, 19, 21, 23] (obeys_xconfigLines_3_base _) (all_cons obeys_xconfigLines_3_start (List.forall_mem_nil _)) (obeys_xconfigLines_3_lines _) (by decide +kernel)

def obeys_xconfigLines_4_object (_ : Nat) : Ns := [(c!"card", .str c!""), (c!"defaultdesktop", .str c!""), (c!"depth", .int 0), (c!"hsync", .str c!""), (c!"monitor", .str c!""), (c!"noProbe", .bool false), (c!"resolution", .str c!""), (c!"server", .str c!""), (c!"startX", .bool false), (c!"videoRam", .str c!""), (c!"vsync", .str c!"")]

theorem obeys_xconfigLines_4_base (n : Str) : Command.FirstBase (FC3_XConfig.cls) n [] obeys_xconfigLines_4_object := by
  intro b b' hb hb' line l; kernel_rfl

theorem obeys_xconfigLines_4_start : Command.FirstStart (FC3_XConfig.cls) obeys_xconfigLines_4_object (xconfigLines.start.getD 0 ([], [])).2 := fun _ => .inr ⟨fun _ => rfl, by kernel_rfl⟩

theorem obeys_xconfigLines_4_lines (n : Str) : ∀ i ∈ [0, 1, 3, 6, 10, 13, 14, 16, 18, 21, 22, 25, 27], Command.FirstLine (FC3_XConfig.cls) n [] obeys_xconfigLines_4_object (xconfigLines.lines.getD i noLine) :=
  (all_cons (by intro b b' hb hb' x hx line l; (cases x with | nil => exact absurd rfl hx | cons a x => kernel_rfl))
    (all_cons (by intro b b' hb hb' x hx line l; kernel_rfl)
    (all_cons (by intro b b' hb hb' x hx line l; (cases x with | nil => exact absurd rfl hx | cons a x => kernel_rfl))
    (all_cons (by intro b b' hb hb' x hx line l; (cases x with | nil => exact absurd rfl hx | cons a x => kernel_rfl))
    (all_cons (by intro b b' hb hb' x hx line l; (cases x with | nil => exact absurd rfl hx | cons a x => kernel_rfl))
    (all_cons (by intro b b' hb hb' x hx line l; kernel_rfl)
    (all_cons (by intro b b' hb hb' x hx line l; (cases x with | nil => exact absurd rfl hx | cons a x => kernel_rfl))
    (all_cons (by intro b b' hb hb' x hx line l; (cases x with | nil => exact absurd rfl hx | cons a x => kernel_rfl))
    (all_cons (by intro b b' hb hb' x hx line l; (cases x with | nil => exact absurd rfl hx | cons a x => kernel_rfl))
    (all_cons (by intro b b' hb hb' x hx line l; (cases x with | nil => exact absurd rfl hx | cons a x => kernel_rfl))
    (all_cons (by intro b b' hb hb' x hx line l; (cases x with | nil => exact absurd rfl hx | cons a x => kernel_rfl))
    (all_cons (by intro b b' hb hb' x hx line l; kernel_rfl)
    (all_cons (by intro b b' hb hb' x hx line l; (cases x with | nil => exact absurd rfl hx | cons a x => kernel_rfl))
    (List.forall_mem_nil _))))))))))))))

theorem obeys_xconfigLines_4 : ∀ v, [Version.RHEL3, Version.FC3, Version.RHEL4, Version.FC4, Version.FC5].contains v = true → Command.Obeys (FC3_XConfig.cls) xconfigLines v :=
  obeys_of obeys_xconfigLines_4_object [0] [0, 1, 3, 6, 10, 13, 14, 16, 18, 21, 22, 25, 27] (obeys_xconfigLines_4_base _) (all_cons obeys_xconfigLines_4_start (List.forall_mem_nil _)) (obeys_xconfigLines_4_lines _) (by decide +kernel)

theorem obeys_xconfigLines : xconfigLines.Obeyed := by
  unfold CommandLines.Obeyed commandMaps
  exact (all_cons (fun _ c h => by cases h; exact obeys_xconfigLines_0 _ rfl)
    (all_cons (fun _ c h => by cases h; exact obeys_xconfigLines_0 _ rfl)
    (all_cons (fun _ c h => by cases h; exact obeys_xconfigLines_0 _ rfl)
    (all_cons (fun _ c h => by cases h; exact obeys_xconfigLines_0 _ rfl)
    (all_cons (fun _ c h => by cases h; exact obeys_xconfigLines_1 _ rfl)
    (all_cons (fun _ c h => by cases h; exact obeys_xconfigLines_1 _ rfl)
    (all_cons (fun _ c h => by cases h; exact obeys_xconfigLines_1 _ rfl)
    (all_cons (fun _ c h => by cases h; exact obeys_xconfigLines_1 _ rfl)
    (all_cons (fun _ c h => by cases h; exact obeys_xconfigLines_1 _ rfl)
    (all_cons (fun _ c h => by cases h; exact obeys_xconfigLines_1 _ rfl)
    (all_cons (fun _ c h => by cases h; exact obeys_xconfigLines_1 _ rfl)
    (all_cons (fun _ c h => by cases h; exact obeys_xconfigLines_1 _ rfl)
    (all_cons (fun _ c h => by cases h; exact obeys_xconfigLines_1 _ rfl)
    (all_cons (fun _ c h => by cases h; exact obeys_xconfigLines_1 _ rfl)
    (all_cons (fun _ c h => by cases h; exact obeys_xconfigLines_1 _ rfl)
    (all_cons (fun _ c h => by cases h; exact obeys_xconfigLines_1 _ rfl)
    (all_cons (fun _ c h => by cases h; exact obeys_xconfigLines_1 _ rfl)
    (all_cons (fun _ c h => by cases h; exact obeys_xconfigLines_1 _ rfl)
    (all_cons (fun _ c h => by cases h; exact obeys_xconfigLines_1 _ rfl)
    (all_cons (fun _ c h => by cases h; exact obeys_xconfigLines_1 _ rfl)
    (all_cons (fun _ c h => by cases h; exact obeys_xconfigLines_1 _ rfl)
    (all_cons (fun _ c h => by cases h; exact obeys_xconfigLines_1 _ rfl)
    (all_cons (fun _ c h => by cases h; exact obeys_xconfigLines_1 _ rfl)
    (all_cons (fun _ c h => by cases h; exact obeys_xconfigLines_1 _ rfl)
    (all_cons (fun _ c h => by cases h; exact obeys_xconfigLines_1 _ rfl)
    (all_cons (fun _ c h => by cases h; exact obeys_xconfigLines_2 _ rfl)
    (all_cons (fun _ c h => by cases h; exact obeys_xconfigLines_2 _ rfl)
    (all_cons (fun _ c h => by cases h; exact obeys_xconfigLines_3 _ rfl)
    (all_cons (fun _ c h => by cases h; exact obeys_xconfigLines_4 _ rfl)
    (all_cons (fun _ c h => by cases h; exact obeys_xconfigLines_4 _ rfl)
    (all_cons (fun _ c h => by cases h; exact obeys_xconfigLines_4 _ rfl)
    (all_cons (fun _ c h => by cases h; exact obeys_xconfigLines_2 _ rfl)
    (all_cons (fun _ c h => by cases h; exact obeys_xconfigLines_4 _ rfl)
    (all_cons (fun _ c h => by cases h; exact obeys_xconfigLines_4 _ rfl)
    (all_cons (fun _ c h => by cases h; exact obeys_xconfigLines_2 _ rfl)
    (all_cons (fun _ c h => by cases h; exact obeys_xconfigLines_0 _ rfl)
    (all_cons (fun _ c h => by cases h; exact obeys_xconfigLines_1 _ rfl)
    (all_cons (fun _ c h => by cases h; exact obeys_xconfigLines_1 _ rfl) (List.forall_mem_nil _)))))))))))))))))))))))))))))))))))))))

end Ks.Cmd
