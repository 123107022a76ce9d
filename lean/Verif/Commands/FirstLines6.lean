import Verif.Commands.LineLogic
import Verif.Commands.LineTable
/-!
# The classes of the command maps do what the table of first lines says

Written by `scripts/gen_lines.py`.
-/
namespace Ks.Cmd

set_option linter.unusedVariables false

def obeys_driverdiskLines_0_object (l : Nat) : Ns := [(c!"lineno", .int l), (c!"partition", .str c!"d"), (c!"source", .str c!""), (c!"type", .str c!""), (c!"biospart", .str c!"")]

theorem obeys_driverdiskLines_0_base (n : Str) : Command.FirstBase (FC4_DriverDisk.cls FC4_DriverDiskData.cls) n [c!"d"] obeys_driverdiskLines_0_object := by
  intro b b' hb hb' line l; kernel_rfl

theorem obeys_driverdiskLines_0_start : Command.FirstStart (FC4_DriverDisk.cls FC4_DriverDiskData.cls) obeys_driverdiskLines_0_object (driverdiskLines.start.getD 0 ([], [])).2 := fun _ => .inl ⟨fun _ => rfl, (all_cons (by kernel_rfl) (List.forall_mem_nil _))⟩

theorem obeys_driverdiskLines_0_lines (n : Str) : ∀ i ∈ [0, 1, 3], Command.FirstLine (FC4_DriverDisk.cls FC4_DriverDiskData.cls) n [c!"d"] obeys_driverdiskLines_0_object (driverdiskLines.lines.getD i noLine) :=
  (all_cons (by intro b b' hb hb' x hx line l; (cases x with | nil => exact absurd rfl hx | cons a x => kernel_rfl))
    (all_cons (by intro b b' hb hb' x hx line l; (cases x with | nil => exact absurd rfl hx | cons a x => kernel_rfl))
    (all_cons (by intro b b' hb hb' x hx line l; (cases x with | nil => exact absurd rfl hx | cons a x => kernel_rfl))
    (List.forall_mem_nil _))))

theorem obeys_driverdiskLines_0 : ∀ v, [Version.RHEL4, Version.FC4, Version.FC5, Version.FC6, Version.F7, Version.F8, Version.F9, Version.F10, Version.F11].contains v = true → Command.Obeys (FC4_DriverDisk.cls FC4_DriverDiskData.cls) driverdiskLines v :=
  obeys_of obeys_driverdiskLines_0_object [0] [0, 1, 3] (obeys_driverdiskLines_0_base _) (all_cons obeys_driverdiskLines_0_start (List.forall_mem_nil _)) (obeys_driverdiskLines_0_lines _) (by decide +kernel)

def obeys_driverdiskLines_1_object (l : Nat) : Ns := [(c!"lineno", .int l), (c!"partition", .str c!"d"), (c!"source", .str c!""), (c!"biospart", .str c!"")]

theorem obeys_driverdiskLines_1_base (n : Str) : Command.FirstBase (F12_DriverDisk.cls F12_DriverDiskData.cls) n [c!"d"] obeys_driverdiskLines_1_object := by
  intro b b' hb hb' line l; kernel_rfl

theorem obeys_driverdiskLines_1_start : Command.FirstStart (F12_DriverDisk.cls F12_DriverDiskData.cls) obeys_driverdiskLines_1_object (driverdiskLines.start.getD 0 ([], [])).2 := fun _ => .inl ⟨fun _ => rfl, (all_cons (by kernel_rfl) (List.forall_mem_nil _))⟩

theorem obeys_driverdiskLines_1_lines (n : Str) : ∀ i ∈ [0, 1, 3], Command.FirstLine (F12_DriverDisk.cls F12_DriverDiskData.cls) n [c!"d"] obeys_driverdiskLines_1_object (driverdiskLines.lines.getD i noLine) :=
  (all_cons (by intro b b' hb hb' x hx line l; (cases x with | nil => exact absurd rfl hx | cons a x => kernel_rfl))
    (all_cons (by intro b b' hb hb' x hx line l; (cases x with | nil => exact absurd rfl hx | cons a x => kernel_rfl))
    (all_cons (by intro b b' hb hb' x hx line l; (cases x with | nil => exact absurd rfl hx | cons a x => kernel_rfl))
    (List.forall_mem_nil _))))

theorem obeys_driverdiskLines_1 : ∀ v, [Version.RHEL5, Version.F12, Version.F13, Version.RHEL6].contains v = true → Command.Obeys (F12_DriverDisk.cls F12_DriverDiskData.cls) driverdiskLines v :=
  obeys_of obeys_driverdiskLines_1_object [0] [0, 1, 3] (obeys_driverdiskLines_1_base _) (all_cons obeys_driverdiskLines_1_start (List.forall_mem_nil _)) (obeys_driverdiskLines_1_lines _) (by decide +kernel)

def obeys_driverdiskLines_2_object (l : Nat) : Ns := [(c!"lineno", .int l), (c!"partition", .str c!"d"), (c!"source", .str c!""), (c!"biospart", .str c!"")]

theorem obeys_driverdiskLines_2_base (n : Str) : Command.FirstBase (F14_DriverDisk.cls F14_DriverDiskData.cls) n [c!"d"] obeys_driverdiskLines_2_object := by
  intro b b' hb hb' line l; kernel_rfl

theorem obeys_driverdiskLines_2_start : Command.FirstStart (F14_DriverDisk.cls F14_DriverDiskData.cls) obeys_driverdiskLines_2_object (driverdiskLines.start.getD 0 ([], [])).2 := fun _ => .inl ⟨fun _ => rfl, (all_cons (by kernel_rfl) (List.forall_mem_nil _))⟩

theorem obeys_driverdiskLines_2_lines (n : Str) : ∀ i ∈ [0, 2, 3], Command.FirstLine (F14_DriverDisk.cls F14_DriverDiskData.cls) n [c!"d"] obeys_driverdiskLines_2_object (driverdiskLines.lines.getD i noLine) :=
  (all_cons (by intro b b' hb hb' x hx line l; (cases x with | nil => exact absurd rfl hx | cons a x => kernel_rfl))
    (all_cons (by intro b b' hb hb' x hx line l; (cases x with | nil => exact absurd rfl hx | cons a x => kernel_rfl))
    (all_cons (by intro b b' hb hb' x hx line l; (cases x with | nil => exact absurd rfl hx | cons a x => kernel_rfl))
    (List.forall_mem_nil _))))

theorem obeys_driverdiskLines_2 : ∀ v, [Version.F14, Version.F15, Version.F16, Version.F17, Version.F18, Version.F19, Version.F20, Version.F21, Version.RHEL7, Version.F22, Version.F23, Version.F24, Version.F25, Version.F26, Version.F27, Version.F28, Version.RHEL8, Version.F29, Version.F30, Version.F31, Version.F32, Version.F33, Version.F34].contains v = true → Command.Obeys (F14_DriverDisk.cls F14_DriverDiskData.cls) driverdiskLines v :=
  obeys_of obeys_driverdiskLines_2_object [0] [0, 2, 3] (obeys_driverdiskLines_2_base _) (all_cons obeys_driverdiskLines_2_start (List.forall_mem_nil _)) (obeys_driverdiskLines_2_lines _) (by decide +kernel)

def obeys_driverdiskLines_3_object (l : Nat) : Ns := [(c!"lineno", .int l), (c!"partition", .str c!"d"), (c!"source", .str c!""), (c!"type", .str c!"")]

theorem obeys_driverdiskLines_3_base (n : Str) : Command.FirstBase (FC3_DriverDisk.cls FC3_DriverDiskData.cls) n [c!"d"] obeys_driverdiskLines_3_object := by
  intro b b' hb hb' line l; kernel_rfl

theorem obeys_driverdiskLines_3_start : Command.FirstStart (FC3_DriverDisk.cls FC3_DriverDiskData.cls) obeys_driverdiskLines_3_object (driverdiskLines.start.getD 0 ([], [])).2 := fun _ => .inl ⟨fun _ => rfl, (all_cons (by kernel_rfl) (List.forall_mem_nil _))⟩

theorem obeys_driverdiskLines_3_lines (n : Str) : ∀ i ∈ [0, 1, 3], Command.FirstLine (FC3_DriverDisk.cls FC3_DriverDiskData.cls) n [c!"d"] obeys_driverdiskLines_3_object (driverdiskLines.lines.getD i noLine) :=
  (all_cons (by intro b b' hb hb' x hx line l; (cases x with | nil => exact absurd rfl hx | cons a x => kernel_rfl))
    (all_cons (by intro b b' hb hb' x hx line l; (cases x with | nil => exact absurd rfl hx | cons a x => kernel_rfl))
    (all_cons (by intro b b' hb hb' x hx line l; (cases x with | nil => exact absurd rfl hx | cons a x => kernel_rfl))
    (List.forall_mem_nil _))))

theorem obeys_driverdiskLines_3 : ∀ v, [Version.RHEL3, Version.FC3].contains v = true → Command.Obeys (FC3_DriverDisk.cls FC3_DriverDiskData.cls) driverdiskLines v :=
  obeys_of obeys_driverdiskLines_3_object [0] [0, 1, 3] (obeys_driverdiskLines_3_base _) (all_cons obeys_driverdiskLines_3_start (List.forall_mem_nil _)) (obeys_driverdiskLines_3_lines _) (by decide +kernel)

theorem obeys_driverdiskLines : driverdiskLines.Obeyed := by
  unfold CommandLines.Obeyed commandMaps
  exact (all_cons (fun _ c h => by cases h; exact obeys_driverdiskLines_0 _ rfl)
    (all_cons (fun _ c h => by cases h; exact obeys_driverdiskLines_0 _ rfl)
    (all_cons (fun _ c h => by cases h; exact obeys_driverdiskLines_1 _ rfl)
    (all_cons (fun _ c h => by cases h; exact obeys_driverdiskLines_1 _ rfl)
    (all_cons (fun _ c h => by cases h; exact obeys_driverdiskLines_2 _ rfl)
    (all_cons (fun _ c h => by cases h; exact obeys_driverdiskLines_2 _ rfl)
    (all_cons (fun _ c h => by cases h; exact obeys_driverdiskLines_2 _ rfl)
    (all_cons (fun _ c h => by cases h; exact obeys_driverdiskLines_2 _ rfl)
    (all_cons (fun _ c h => by cases h; exact obeys_driverdiskLines_2 _ rfl)
    (all_cons (fun _ c h => by cases h; exact obeys_driverdiskLines_2 _ rfl)
    (all_cons (fun _ c h => by cases h; exact obeys_driverdiskLines_2 _ rfl)
    (all_cons (fun _ c h => by cases h; exact obeys_driverdiskLines_2 _ rfl)
    (all_cons (fun _ c h => by cases h; exact obeys_driverdiskLines_2 _ rfl)
    (all_cons (fun _ c h => by cases h; exact obeys_driverdiskLines_2 _ rfl)
    (all_cons (fun _ c h => by cases h; exact obeys_driverdiskLines_2 _ rfl)
    (all_cons (fun _ c h => by cases h; exact obeys_driverdiskLines_2 _ rfl)
    (all_cons (fun _ c h => by cases h; exact obeys_driverdiskLines_2 _ rfl)
    (all_cons (fun _ c h => by cases h; exact obeys_driverdiskLines_2 _ rfl)
    (all_cons (fun _ c h => by cases h; exact obeys_driverdiskLines_2 _ rfl)
    (all_cons (fun _ c h => by cases h; exact obeys_driverdiskLines_2 _ rfl)
    (all_cons (fun _ c h => by cases h; exact obeys_driverdiskLines_2 _ rfl)
    (all_cons (fun _ c h => by cases h; exact obeys_driverdiskLines_2 _ rfl)
    (all_cons (fun _ c h => by cases h; exact obeys_driverdiskLines_2 _ rfl)
    (all_cons (fun _ c h => by cases h; exact obeys_driverdiskLines_2 _ rfl)
    (all_cons (fun _ c h => by cases h; exact obeys_driverdiskLines_2 _ rfl)
    (all_cons (fun _ c h => by cases h; exact obeys_driverdiskLines_0 _ rfl)
    (all_cons (fun _ c h => by cases h; exact obeys_driverdiskLines_0 _ rfl)
    (all_cons (fun _ c h => by cases h; exact obeys_driverdiskLines_0 _ rfl)
    (all_cons (fun _ c h => by cases h; exact obeys_driverdiskLines_3 _ rfl)
    (all_cons (fun _ c h => by cases h; exact obeys_driverdiskLines_0 _ rfl)
    (all_cons (fun _ c h => by cases h; exact obeys_driverdiskLines_0 _ rfl)
    (all_cons (fun _ c h => by cases h; exact obeys_driverdiskLines_0 _ rfl)
    (all_cons (fun _ c h => by cases h; exact obeys_driverdiskLines_3 _ rfl)
    (all_cons (fun _ c h => by cases h; exact obeys_driverdiskLines_0 _ rfl)
    (all_cons (fun _ c h => by cases h; exact obeys_driverdiskLines_1 _ rfl)
    (all_cons (fun _ c h => by cases h; exact obeys_driverdiskLines_1 _ rfl)
    (all_cons (fun _ c h => by cases h; exact obeys_driverdiskLines_2 _ rfl)
    (all_cons (fun _ c h => by cases h; exact obeys_driverdiskLines_2 _ rfl) (List.forall_mem_nil _)))))))))))))))))))))))))))))))))))))))

def obeys_driverdiskLines2_0_object (l : Nat) : Ns := [(c!"lineno", .int l), (c!"partition", .list []), (c!"source", .str c!"s"), (c!"type", .str c!""), (c!"biospart", .str c!"")]

theorem obeys_driverdiskLines2_0_base (n : Str) : Command.FirstBase (FC4_DriverDisk.cls FC4_DriverDiskData.cls) n [c!"--source=s"] obeys_driverdiskLines2_0_object := by
  intro b b' hb hb' line l; kernel_rfl

theorem obeys_driverdiskLines2_0_start : Command.FirstStart (FC4_DriverDisk.cls FC4_DriverDiskData.cls) obeys_driverdiskLines2_0_object (driverdiskLines2.start.getD 0 ([], [])).2 := fun _ => .inl ⟨fun _ => rfl, (all_cons (by kernel_rfl) (List.forall_mem_nil _))⟩

theorem obeys_driverdiskLines2_0_lines (n : Str) : ∀ i ∈ [], Command.FirstLine (FC4_DriverDisk.cls FC4_DriverDiskData.cls) n [c!"--source=s"] obeys_driverdiskLines2_0_object (driverdiskLines2.lines.getD i noLine) :=
  (List.forall_mem_nil _)

theorem obeys_driverdiskLines2_0 : ∀ v, [Version.RHEL4, Version.FC4, Version.FC5, Version.FC6, Version.F7, Version.F8, Version.F9, Version.F10, Version.F11].contains v = true → Command.Obeys (FC4_DriverDisk.cls FC4_DriverDiskData.cls) driverdiskLines2 v :=
  obeys_of obeys_driverdiskLines2_0_object [0] [] (obeys_driverdiskLines2_0_base _) (all_cons obeys_driverdiskLines2_0_start (List.forall_mem_nil _)) (obeys_driverdiskLines2_0_lines _) (by decide +kernel)

def obeys_driverdiskLines2_1_object (l : Nat) : Ns := [(c!"lineno", .int l), (c!"partition", .list []), (c!"source", .str c!"s"), (c!"biospart", .str c!"")]

theorem obeys_driverdiskLines2_1_base (n : Str) : Command.FirstBase (F12_DriverDisk.cls F12_DriverDiskData.cls) n [c!"--source=s"] obeys_driverdiskLines2_1_object := by
  intro b b' hb hb' line l; kernel_rfl

theorem obeys_driverdiskLines2_1_start : Command.FirstStart (F12_DriverDisk.cls F12_DriverDiskData.cls) obeys_driverdiskLines2_1_object (driverdiskLines2.start.getD 0 ([], [])).2 := fun _ => .inl ⟨fun _ => rfl, (all_cons (by kernel_rfl) (List.forall_mem_nil _))⟩

theorem obeys_driverdiskLines2_1_lines (n : Str) : ∀ i ∈ [], Command.FirstLine (F12_DriverDisk.cls F12_DriverDiskData.cls) n [c!"--source=s"] obeys_driverdiskLines2_1_object (driverdiskLines2.lines.getD i noLine) :=
  (List.forall_mem_nil _)

theorem obeys_driverdiskLines2_1 : ∀ v, [Version.RHEL5, Version.F12, Version.F13, Version.RHEL6].contains v = true → Command.Obeys (F12_DriverDisk.cls F12_DriverDiskData.cls) driverdiskLines2 v :=
  obeys_of obeys_driverdiskLines2_1_object [0] [] (obeys_driverdiskLines2_1_base _) (all_cons obeys_driverdiskLines2_1_start (List.forall_mem_nil _)) (obeys_driverdiskLines2_1_lines _) (by decide +kernel)

def obeys_driverdiskLines2_2_object (l : Nat) : Ns := [(c!"lineno", .int l), (c!"partition", .list []), (c!"source", .str c!"s"), (c!"biospart", .str c!"")]

theorem obeys_driverdiskLines2_2_base (n : Str) : Command.FirstBase (F14_DriverDisk.cls F14_DriverDiskData.cls) n [c!"--source=s"] obeys_driverdiskLines2_2_object := by
  intro b b' hb hb' line l; kernel_rfl

theorem obeys_driverdiskLines2_2_start : Command.FirstStart (F14_DriverDisk.cls F14_DriverDiskData.cls) obeys_driverdiskLines2_2_object (driverdiskLines2.start.getD 0 ([], [])).2 := fun _ => .inl ⟨fun _ => rfl, (all_cons (by kernel_rfl) (List.forall_mem_nil _))⟩

theorem obeys_driverdiskLines2_2_lines (n : Str) : ∀ i ∈ [], Command.FirstLine (F14_DriverDisk.cls F14_DriverDiskData.cls) n [c!"--source=s"] obeys_driverdiskLines2_2_object (driverdiskLines2.lines.getD i noLine) :=
  (List.forall_mem_nil _)

theorem obeys_driverdiskLines2_2 : ∀ v, [Version.F14, Version.F15, Version.F16, Version.F17, Version.F18, Version.F19, Version.F20, Version.F21, Version.RHEL7, Version.F22, Version.F23, Version.F24, Version.F25, Version.F26, Version.F27, Version.F28, Version.RHEL8, Version.F29, Version.F30, Version.F31, Version.F32, Version.F33, Version.F34].contains v = true → Command.Obeys (F14_DriverDisk.cls F14_DriverDiskData.cls) driverdiskLines2 v :=
  obeys_of obeys_driverdiskLines2_2_object [0] [] (obeys_driverdiskLines2_2_base _) (all_cons obeys_driverdiskLines2_2_start (List.forall_mem_nil _)) (obeys_driverdiskLines2_2_lines _) (by decide +kernel)

def obeys_driverdiskLines2_3_object (l : Nat) : Ns := [(c!"lineno", .int l), (c!"partition", .list []), (c!"source", .str c!"s"), (c!"type", .str c!"")]

theorem obeys_driverdiskLines2_3_base (n : Str) : Command.FirstBase (FC3_DriverDisk.cls FC3_DriverDiskData.cls) n [c!"--source=s"] obeys_driverdiskLines2_3_object := by
  intro b b' hb hb' line l; kernel_rfl

theorem obeys_driverdiskLines2_3_start : Command.FirstStart (FC3_DriverDisk.cls FC3_DriverDiskData.cls) obeys_driverdiskLines2_3_object (driverdiskLines2.start.getD 0 ([], [])).2 := fun _ => .inl ⟨fun _ => rfl, (all_cons (by kernel_rfl) (List.forall_mem_nil _))⟩

theorem obeys_driverdiskLines2_3_lines (n : Str) : ∀ i ∈ [], Command.FirstLine (FC3_DriverDisk.cls FC3_DriverDiskData.cls) n [c!"--source=s"] obeys_driverdiskLines2_3_object (driverdiskLines2.lines.getD i noLine) :=
  (List.forall_mem_nil _)

theorem obeys_driverdiskLines2_3 : ∀ v, [Version.RHEL3, Version.FC3].contains v = true → Command.Obeys (FC3_DriverDisk.cls FC3_DriverDiskData.cls) driverdiskLines2 v :=
  obeys_of obeys_driverdiskLines2_3_object [0] [] (obeys_driverdiskLines2_3_base _) (all_cons obeys_driverdiskLines2_3_start (List.forall_mem_nil _)) (obeys_driverdiskLines2_3_lines _) (by decide +kernel)

theorem obeys_driverdiskLines2 : driverdiskLines2.Obeyed := by
  unfold CommandLines.Obeyed commandMaps
  exact (all_cons (fun _ c h => by cases h; exact obeys_driverdiskLines2_0 _ rfl)
    (all_cons (fun _ c h => by cases h; exact obeys_driverdiskLines2_0 _ rfl)
    (all_cons (fun _ c h => by cases h; exact obeys_driverdiskLines2_1 _ rfl)
    (all_cons (fun _ c h => by cases h; exact obeys_driverdiskLines2_1 _ rfl)
    (all_cons (fun _ c h => by cases h; exact obeys_driverdiskLines2_2 _ rfl)
    (all_cons (fun _ c h => by cases h; exact obeys_driverdiskLines2_2 _ rfl)
    (all_cons (fun _ c h => by cases h; exact obeys_driverdiskLines2_2 _ rfl)
    (all_cons (fun _ c h => by cases h; exact obeys_driverdiskLines2_2 _ rfl)
    (all_cons (fun _ c h => by cases h; exact obeys_driverdiskLines2_2 _ rfl)
    (all_cons (fun _ c h => by cases h; exact obeys_driverdiskLines2_2 _ rfl)
    (all_cons (fun _ c h => by cases h; exact obeys_driverdiskLines2_2 _ rfl)
    (all_cons (fun _ c h => by cases h; exact obeys_driverdiskLines2_2 _ rfl)
    (all_cons (fun _ c h => by cases h; exact obeys_driverdiskLines2_2 _ rfl)
    (all_cons (fun _ c h => by cases h; exact obeys_driverdiskLines2_2 _ rfl)
    (all_cons (fun _ c h => by cases h; exact obeys_driverdiskLines2_2 _ rfl)
    (all_cons (fun _ c h => by cases h; exact obeys_driverdiskLines2_2 _ rfl)
    (all_cons (fun _ c h => by cases h; exact obeys_driverdiskLines2_2 _ rfl)
    (all_cons (fun _ c h => by cases h; exact obeys_driverdiskLines2_2 _ rfl)
    (all_cons (fun _ c h => by cases h; exact obeys_driverdiskLines2_2 _ rfl)
    (all_cons (fun _ c h => by cases h; exact obeys_driverdiskLines2_2 _ rfl)
    (all_cons (fun _ c h => by cases h; exact obeys_driverdiskLines2_2 _ rfl)
    (all_cons (fun _ c h => by cases h; exact obeys_driverdiskLines2_2 _ rfl)
    (all_cons (fun _ c h => by cases h; exact obeys_driverdiskLines2_2 _ rfl)
    (all_cons (fun _ c h => by cases h; exact obeys_driverdiskLines2_2 _ rfl)
    (all_cons (fun _ c h => by cases h; exact obeys_driverdiskLines2_2 _ rfl)
    (all_cons (fun _ c h => by cases h; exact obeys_driverdiskLines2_0 _ rfl)
    (all_cons (fun _ c h => by cases h; exact obeys_driverdiskLines2_0 _ rfl)
    (all_cons (fun _ c h => by cases h; exact obeys_driverdiskLines2_0 _ rfl)
    (all_cons (fun _ c h => by cases h; exact obeys_driverdiskLines2_3 _ rfl)
    (all_cons (fun _ c h => by cases h; exact obeys_driverdiskLines2_0 _ rfl)
    (all_cons (fun _ c h => by cases h; exact obeys_driverdiskLines2_0 _ rfl)
    (all_cons (fun _ c h => by cases h; exact obeys_driverdiskLines2_0 _ rfl)
    (all_cons (fun _ c h => by cases h; exact obeys_driverdiskLines2_3 _ rfl)
    (all_cons (fun _ c h => by cases h; exact obeys_driverdiskLines2_0 _ rfl)
    (all_cons (fun _ c h => by cases h; exact obeys_driverdiskLines2_1 _ rfl)
    (all_cons (fun _ c h => by cases h; exact obeys_driverdiskLines2_1 _ rfl)
    (all_cons (fun _ c h => by cases h; exact obeys_driverdiskLines2_2 _ rfl)
    (all_cons (fun _ c h => by cases h; exact obeys_driverdiskLines2_2 _ rfl) (List.forall_mem_nil _)))))))))))))))))))))))))))))))))))))))

def obeys_driverdiskLines3_0_object (l : Nat) : Ns := [(c!"lineno", .int l), (c!"partition", .list []), (c!"source", .str c!""), (c!"type", .str c!""), (c!"biospart", .str c!"b")]

theorem obeys_driverdiskLines3_0_base (n : Str) : Command.FirstBase (FC4_DriverDisk.cls FC4_DriverDiskData.cls) n [c!"--biospart=b"] obeys_driverdiskLines3_0_object := by
  intro b b' hb hb' line l; kernel_rfl

theorem obeys_driverdiskLines3_0_start : Command.FirstStart (FC4_DriverDisk.cls FC4_DriverDiskData.cls) obeys_driverdiskLines3_0_object (driverdiskLines3.start.getD 0 ([], [])).2 := fun _ => .inl ⟨fun _ => rfl, (all_cons (by kernel_rfl) (List.forall_mem_nil _))⟩

theorem obeys_driverdiskLines3_0_lines (n : Str) : ∀ i ∈ [], Command.FirstLine (FC4_DriverDisk.cls FC4_DriverDiskData.cls) n [c!"--biospart=b"] obeys_driverdiskLines3_0_object (driverdiskLines3.lines.getD i noLine) :=
  (List.forall_mem_nil _)

theorem obeys_driverdiskLines3_0 : ∀ v, [Version.RHEL4, Version.FC4, Version.FC5, Version.FC6, Version.F7, Version.F8, Version.F9, Version.F10, Version.F11].contains v = true → Command.Obeys (FC4_DriverDisk.cls FC4_DriverDiskData.cls) driverdiskLines3 v :=
  obeys_of obeys_driverdiskLines3_0_object [0] [] (obeys_driverdiskLines3_0_base _) (all_cons obeys_driverdiskLines3_0_start (List.forall_mem_nil _)) (obeys_driverdiskLines3_0_lines _) (by decide +kernel)

def obeys_driverdiskLines3_1_object (l : Nat) : Ns := [(c!"lineno", .int l), (c!"partition", .list []), (c!"source", .str c!""), (c!"biospart", .str c!"b")]

theorem obeys_driverdiskLines3_1_base (n : Str) : Command.FirstBase (F12_DriverDisk.cls F12_DriverDiskData.cls) n [c!"--biospart=b"] obeys_driverdiskLines3_1_object := by
  intro b b' hb hb' line l; kernel_rfl

theorem obeys_driverdiskLines3_1_start : Command.FirstStart (F12_DriverDisk.cls F12_DriverDiskData.cls) obeys_driverdiskLines3_1_object (driverdiskLines3.start.getD 0 ([], [])).2 := fun _ => .inl ⟨fun _ => rfl, (all_cons (by kernel_rfl) (List.forall_mem_nil _))⟩

theorem obeys_driverdiskLines3_1_lines (n : Str) : ∀ i ∈ [], Command.FirstLine (F12_DriverDisk.cls F12_DriverDiskData.cls) n [c!"--biospart=b"] obeys_driverdiskLines3_1_object (driverdiskLines3.lines.getD i noLine) :=
  (List.forall_mem_nil _)

theorem obeys_driverdiskLines3_1 : ∀ v, [Version.RHEL5, Version.F12, Version.F13, Version.RHEL6].contains v = true → Command.Obeys (F12_DriverDisk.cls F12_DriverDiskData.cls) driverdiskLines3 v :=
  obeys_of obeys_driverdiskLines3_1_object [0] [] (obeys_driverdiskLines3_1_base _) (all_cons obeys_driverdiskLines3_1_start (List.forall_mem_nil _)) (obeys_driverdiskLines3_1_lines _) (by decide +kernel)

def obeys_driverdiskLines3_2_object (l : Nat) : Ns := [(c!"lineno", .int l), (c!"partition", .list []), (c!"source", .str c!""), (c!"biospart", .str c!"b")]

theorem obeys_driverdiskLines3_2_base (n : Str) : Command.FirstBase (F14_DriverDisk.cls F14_DriverDiskData.cls) n [c!"--biospart=b"] obeys_driverdiskLines3_2_object := by
  intro b b' hb hb' line l; kernel_rfl

theorem obeys_driverdiskLines3_2_start : Command.FirstStart (F14_DriverDisk.cls F14_DriverDiskData.cls) obeys_driverdiskLines3_2_object (driverdiskLines3.start.getD 0 ([], [])).2 := fun _ => .inl ⟨fun _ => rfl, (all_cons (by kernel_rfl) (List.forall_mem_nil _))⟩

theorem obeys_driverdiskLines3_2_lines (n : Str) : ∀ i ∈ [], Command.FirstLine (F14_DriverDisk.cls F14_DriverDiskData.cls) n [c!"--biospart=b"] obeys_driverdiskLines3_2_object (driverdiskLines3.lines.getD i noLine) :=
  (List.forall_mem_nil _)

theorem obeys_driverdiskLines3_2 : ∀ v, [Version.F14, Version.F15, Version.F16, Version.F17, Version.F18, Version.F19, Version.F20, Version.F21, Version.RHEL7, Version.F22, Version.F23, Version.F24, Version.F25, Version.F26, Version.F27, Version.F28, Version.RHEL8, Version.F29, Version.F30, Version.F31, Version.F32, Version.F33, Version.F34].contains v = true → Command.Obeys (F14_DriverDisk.cls F14_DriverDiskData.cls) driverdiskLines3 v :=
  obeys_of obeys_driverdiskLines3_2_object [0] [] (obeys_driverdiskLines3_2_base _) (all_cons obeys_driverdiskLines3_2_start (List.forall_mem_nil _)) (obeys_driverdiskLines3_2_lines _) (by decide +kernel)

theorem obeys_driverdiskLines3 : driverdiskLines3.Obeyed := by
  unfold CommandLines.Obeyed commandMaps
  exact (all_cons (fun _ c h => by cases h; exact obeys_driverdiskLines3_0 _ rfl)
    (all_cons (fun _ c h => by cases h; exact obeys_driverdiskLines3_0 _ rfl)
    (all_cons (fun _ c h => by cases h; exact obeys_driverdiskLines3_1 _ rfl)
    (all_cons (fun _ c h => by cases h; exact obeys_driverdiskLines3_1 _ rfl)
    (all_cons (fun _ c h => by cases h; exact obeys_driverdiskLines3_2 _ rfl)
    (all_cons (fun _ c h => by cases h; exact obeys_driverdiskLines3_2 _ rfl)
    (all_cons (fun _ c h => by cases h; exact obeys_driverdiskLines3_2 _ rfl)
    (all_cons (fun _ c h => by cases h; exact obeys_driverdiskLines3_2 _ rfl)
    (all_cons (fun _ c h => by cases h; exact obeys_driverdiskLines3_2 _ rfl)
    (all_cons (fun _ c h => by cases h; exact obeys_driverdiskLines3_2 _ rfl)
    (all_cons (fun _ c h => by cases h; exact obeys_driverdiskLines3_2 _ rfl)
    (all_cons (fun _ c h => by cases h; exact obeys_driverdiskLines3_2 _ rfl)
    (all_cons (fun _ c h => by cases h; exact obeys_driverdiskLines3_2 _ rfl)
    (all_cons (fun _ c h => by cases h; exact obeys_driverdiskLines3_2 _ rfl)
    (all_cons (fun _ c h => by cases h; exact obeys_driverdiskLines3_2 _ rfl)
    (all_cons (fun _ c h => by cases h; exact obeys_driverdiskLines3_2 _ rfl)
    (all_cons (fun _ c h => by cases h; exact obeys_driverdiskLines3_2 _ rfl)
    (all_cons (fun _ c h => by cases h; exact obeys_driverdiskLines3_2 _ rfl)
    (all_cons (fun _ c h => by cases h; exact obeys_driverdiskLines3_2 _ rfl)
    (all_cons (fun _ c h => by cases h; exact obeys_driverdiskLines3_2 _ rfl)
    (all_cons (fun _ c h => by cases h; exact obeys_driverdiskLines3_2 _ rfl)
    (all_cons (fun _ c h => by cases h; exact obeys_driverdiskLines3_2 _ rfl)
    (all_cons (fun _ c h => by cases h; exact obeys_driverdiskLines3_2 _ rfl)
    (all_cons (fun _ c h => by cases h; exact obeys_driverdiskLines3_2 _ rfl)
    (all_cons (fun _ c h => by cases h; exact obeys_driverdiskLines3_2 _ rfl)
    (all_cons (fun _ c h => by cases h; exact obeys_driverdiskLines3_0 _ rfl)
    (all_cons (fun _ c h => by cases h; exact obeys_driverdiskLines3_0 _ rfl)
    (all_cons (fun _ c h => by cases h; exact obeys_driverdiskLines3_0 _ rfl)
    (all_cons (fun hv => absurd hv (by decide))
    (all_cons (fun _ c h => by cases h; exact obeys_driverdiskLines3_0 _ rfl)
    (all_cons (fun _ c h => by cases h; exact obeys_driverdiskLines3_0 _ rfl)
    (all_cons (fun _ c h => by cases h; exact obeys_driverdiskLines3_0 _ rfl)
    (all_cons (fun hv => absurd hv (by decide))
    (all_cons (fun _ c h => by cases h; exact obeys_driverdiskLines3_0 _ rfl)
    (all_cons (fun _ c h => by cases h; exact obeys_driverdiskLines3_1 _ rfl)
    (all_cons (fun _ c h => by cases h; exact obeys_driverdiskLines3_1 _ rfl)
    (all_cons (fun _ c h => by cases h; exact obeys_driverdiskLines3_2 _ rfl)
    (all_cons (fun _ c h => by cases h; exact obeys_driverdiskLines3_2 _ rfl) (List.forall_mem_nil _)))))))))))))))))))))))))))))))))))))))

def obeys_firewallLines_0_object (_ : Nat) : Ns := [(c!"enabled", .bool true), (c!"ports", .list []), (c!"trusts", .list []), (c!"services", .list [])]

theorem obeys_firewallLines_0_base (n : Str) : Command.FirstBase (F10_Firewall.cls) n [] obeys_firewallLines_0_object := by
  intro b b' hb hb' line l; kernel_rfl

theorem obeys_firewallLines_0_start : Command.FirstStart (F10_Firewall.cls) obeys_firewallLines_0_object (firewallLines.start.getD 0 ([], [])).2 := fun _ => .inr ⟨fun _ => rfl, by kernel_rfl⟩

theorem obeys_firewallLines_0_lines (n : Str) : ∀ i ∈ [0, 1, 2, 3, 4, 5, 6, 8, 10, 12, 14, 16, 22], Command.FirstLine (F10_Firewall.cls) n [] obeys_firewallLines_0_object (firewallLines.lines.getD i noLine) :=
  (all_cons (by intro b b' hb hb' x hx line l; kernel_rfl)
    (all_cons (by intro b b' hb hb' x hx line l; kernel_rfl)
    (all_cons (by intro b b' hb hb' x hx line l; kernel_rfl)
    (all_cons (by intro b b' hb hb' x hx line l; kernel_rfl)
    (all_cons (by intro b b' hb hb' x hx line l; kernel_rfl)
    (all_cons (by intro b b' hb hb' x hx line l; (cases x with | nil => exact absurd rfl hx | cons a x => kernel_rfl))
    (all_cons (by intro b b' hb hb' x hx line l; (cases x with | nil => exact absurd rfl hx | cons a x => kernel_rfl))
    (all_cons (by intro b b' hb hb' x hx line l; kernel_rfl)
    (all_cons (by intro b b' hb hb' x hx line l; kernel_rfl)
    (all_cons (by intro b b' hb hb' x hx line l; kernel_rfl)
    (all_cons (by intro b b' hb hb' x hx line l; kernel_rfl)
    (all_cons (by intro b b' hb hb' x hx line l; (cases x with | nil => exact absurd rfl hx | cons a x => kernel_rfl))
    (all_cons (by intro b b' hb hb' x hx line l; kernel_rfl)
    (List.forall_mem_nil _))))))))))))))

theorem obeys_firewallLines_0 : ∀ v, [Version.F10, Version.F11, Version.F12, Version.F13, Version.RHEL6].contains v = true → Command.Obeys (F10_Firewall.cls) firewallLines v :=
  obeys_of obeys_firewallLines_0_object [0] [0, 1, 2, 3, 4, 5, 6, 8, 10, 12, 14, 16, 22] (obeys_firewallLines_0_base _) (all_cons obeys_firewallLines_0_start (List.forall_mem_nil _)) (obeys_firewallLines_0_lines _) (by decide +kernel)

def obeys_firewallLines_1_object (_ : Nat) : Ns := [(c!"enabled", .bool true), (c!"ports", .list []), (c!"trusts", .list []), (c!"services", .list [])]

theorem obeys_firewallLines_1_base (n : Str) : Command.FirstBase (F14_Firewall.cls) n [] obeys_firewallLines_1_object := by
  intro b b' hb hb' line l; kernel_rfl

theorem obeys_firewallLines_1_start : Command.FirstStart (F14_Firewall.cls) obeys_firewallLines_1_object (firewallLines.start.getD 0 ([], [])).2 := fun _ => .inr ⟨fun _ => rfl, by kernel_rfl⟩

theorem obeys_firewallLines_1_lines (n : Str) : ∀ i ∈ [0, 1, 2, 3, 4, 5, 6, 8, 10, 12, 14, 17, 18], Command.FirstLine (F14_Firewall.cls) n [] obeys_firewallLines_1_object (firewallLines.lines.getD i noLine) :=
  (all_cons (by intro b b' hb hb' x hx line l; kernel_rfl)
    (all_cons (by intro b b' hb hb' x hx line l; kernel_rfl)
    (all_cons (by intro b b' hb hb' x hx line l; kernel_rfl)
    (all_cons (by intro b b' hb hb' x hx line l; kernel_rfl)
    (all_cons (by intro b b' hb hb' x hx line l; kernel_rfl)
    (all_cons (by intro b b' hb hb' x hx line l; (cases x with | nil => exact absurd rfl hx | cons a x => kernel_rfl))
    (all_cons (by intro b b' hb hb' x hx line l; (cases x with | nil => exact absurd rfl hx | cons a x => kernel_rfl))
    (all_cons (by intro b b' hb hb' x hx line l; kernel_rfl)
    (all_cons (by intro b b' hb hb' x hx line l; kernel_rfl)
    (all_cons (by intro b b' hb hb' x hx line l; kernel_rfl)
    (all_cons (by intro b b' hb hb' x hx line l; kernel_rfl)
    (all_cons (by intro b b' hb hb' x hx line l; (cases x with | nil => exact absurd rfl hx | cons a x => kernel_rfl))
    (all_cons (by intro b b' hb hb' x hx line l; (cases x with | nil => exact absurd rfl hx | cons a x => kernel_rfl))
    (List.forall_mem_nil _))))))))))))))

theorem obeys_firewallLines_1 : ∀ v, [Version.F14, Version.F15, Version.F16, Version.F17, Version.F18, Version.F19].contains v = true → Command.Obeys (F14_Firewall.cls) firewallLines v :=
  obeys_of obeys_firewallLines_1_object [0] [0, 1, 2, 3, 4, 5, 6, 8, 10, 12, 14, 17, 18] (obeys_firewallLines_1_base _) (all_cons obeys_firewallLines_1_start (List.forall_mem_nil _)) (obeys_firewallLines_1_lines _) (by decide +kernel)

def obeys_firewallLines_2_object (_ : Nat) : Ns := [(c!"enabled", .bool true), (c!"ports", .list []), (c!"trusts", .list []), (c!"services", .list []), (c!"remove_services", .list [])]

theorem obeys_firewallLines_2_base (n : Str) : Command.FirstBase (F20_Firewall.cls) n [] obeys_firewallLines_2_object := by
  intro b b' hb hb' line l; kernel_rfl

theorem obeys_firewallLines_2_start : Command.FirstStart (F20_Firewall.cls) obeys_firewallLines_2_object (firewallLines.start.getD 0 ([], [])).2 := fun _ => .inr ⟨fun _ => rfl, by kernel_rfl⟩

theorem obeys_firewallLines_2_lines (n : Str) : ∀ i ∈ [0, 1, 2, 3, 4, 5, 6, 8, 10, 12, 14, 19, 20], Command.FirstLine (F20_Firewall.cls) n [] obeys_firewallLines_2_object (firewallLines.lines.getD i noLine) :=
  (all_cons (by intro b b' hb hb' x hx line l; kernel_rfl)
    (all_cons (by intro b b' hb hb' x hx line l; kernel_rfl)
    (all_cons (by intro b b' hb hb' x hx line l; kernel_rfl)
    (all_cons (by intro b b' hb hb' x hx line l; kernel_rfl)
    (all_cons (by intro b b' hb hb' x hx line l; kernel_rfl)
    (all_cons (by intro b b' hb hb' x hx line l; (cases x with | nil => exact absurd rfl hx | cons a x => kernel_rfl))
    (all_cons (by intro b b' hb hb' x hx line l; (cases x with | nil => exact absurd rfl hx | cons a x => kernel_rfl))
    (all_cons (by intro b b' hb hb' x hx line l; kernel_rfl)
    (all_cons (by intro b b' hb hb' x hx line l; kernel_rfl)
    (all_cons (by intro b b' hb hb' x hx line l; kernel_rfl)
    (all_cons (by intro b b' hb hb' x hx line l; kernel_rfl)
    (all_cons (by intro b b' hb hb' x hx line l; (cases x with | nil => exact absurd rfl hx | cons a x => kernel_rfl))
    (all_cons (by intro b b' hb hb' x hx line l; kernel_rfl)
    (List.forall_mem_nil _))))))))))))))

theorem obeys_firewallLines_2 : ∀ v, [Version.F20, Version.F21, Version.RHEL7, Version.F22, Version.F23, Version.F24, Version.F25, Version.F26, Version.F27].contains v = true → Command.Obeys (F20_Firewall.cls) firewallLines v :=
  obeys_of obeys_firewallLines_2_object [0] [0, 1, 2, 3, 4, 5, 6, 8, 10, 12, 14, 19, 20] (obeys_firewallLines_2_base _) (all_cons obeys_firewallLines_2_start (List.forall_mem_nil _)) (obeys_firewallLines_2_lines _) (by decide +kernel)

def obeys_firewallLines_3_object (_ : Nat) : Ns := [(c!"enabled", .bool true), (c!"ports", .list []), (c!"trusts", .list []), (c!"services", .list []), (c!"remove_services", .list []), (c!"use_system_defaults", .bool false)]

theorem obeys_firewallLines_3_base (n : Str) : Command.FirstBase (F28_Firewall.cls) n [] obeys_firewallLines_3_object := by
  intro b b' hb hb' line l; kernel_rfl

theorem obeys_firewallLines_3_start : Command.FirstStart (F28_Firewall.cls) obeys_firewallLines_3_object (firewallLines.start.getD 1 ([], [])).2 := fun _ => .inr ⟨fun _ => rfl, by kernel_rfl⟩

theorem obeys_firewallLines_3_lines (n : Str) : ∀ i ∈ [0, 1, 2, 3, 4, 5, 6, 8, 10, 12, 14, 19, 21], Command.FirstLine (F28_Firewall.cls) n [] obeys_firewallLines_3_object (firewallLines.lines.getD i noLine) :=
  (all_cons (by intro b b' hb hb' x hx line l; kernel_rfl)
    (all_cons (by intro b b' hb hb' x hx line l; kernel_rfl)
    (all_cons (by intro b b' hb hb' x hx line l; kernel_rfl)
    (all_cons (by intro b b' hb hb' x hx line l; kernel_rfl)
    (all_cons (by intro b b' hb hb' x hx line l; kernel_rfl)
    (all_cons (by intro b b' hb hb' x hx line l; (cases x with | nil => exact absurd rfl hx | cons a x => kernel_rfl))
    (all_cons (by intro b b' hb hb' x hx line l; (cases x with | nil => exact absurd rfl hx | cons a x => kernel_rfl))
    (all_cons (by intro b b' hb hb' x hx line l; kernel_rfl)
    (all_cons (by intro b b' hb hb' x hx line l; kernel_rfl)
    (all_cons (by intro b b' hb hb' x hx line l; kernel_rfl)
    (all_cons (by intro b b' hb hb' x hx line l; kernel_rfl)
    (all_cons (by intro b b' hb hb' x hx line l; (cases x with | nil => exact absurd rfl hx | cons a x => kernel_rfl))
    (all_cons (by intro b b' hb hb' x hx line l; kernel_rfl)
    (List.forall_mem_nil _))))))))))))))

theorem obeys_firewallLines_3 : ∀ v, [Version.F28, Version.RHEL8, Version.F29, Version.F30, Version.F31, Version.F32, Version.F33, Version.F34].contains v = true → Command.Obeys (F28_Firewall.cls) firewallLines v :=
  obeys_of obeys_firewallLines_3_object [1] [0, 1, 2, 3, 4, 5, 6, 8, 10, 12, 14, 19, 21] (obeys_firewallLines_3_base _) (all_cons obeys_firewallLines_3_start (List.forall_mem_nil _)) (obeys_firewallLines_3_lines _) (by decide +kernel)

def obeys_firewallLines_4_object (_ : Nat) : Ns := [(c!"enabled", .bool true), (c!"ports", .list []), (c!"trusts", .list [])]

theorem obeys_firewallLines_4_base (n : Str) : Command.FirstBase (FC3_Firewall.cls) n [] obeys_firewallLines_4_object := by
  intro b b' hb hb' line l; kernel_rfl

theorem obeys_firewallLines_4_start : Command.FirstStart (FC3_Firewall.cls) obeys_firewallLines_4_object (firewallLines.start.getD 0 ([], [])).2 := fun _ => .inr ⟨fun _ => rfl, by kernel_rfl⟩

theorem obeys_firewallLines_4_lines (n : Str) : ∀ i ∈ [0, 1, 2, 3, 4, 5, 9, 11, 13, 15, 23, 24, 26], Command.FirstLine (FC3_Firewall.cls) n [] obeys_firewallLines_4_object (firewallLines.lines.getD i noLine) :=
  (all_cons (by intro b b' hb hb' x hx line l; kernel_rfl)
    (all_cons (by intro b b' hb hb' x hx line l; kernel_rfl)
    (all_cons (by intro b b' hb hb' x hx line l; kernel_rfl)
    (all_cons (by intro b b' hb hb' x hx line l; kernel_rfl)
    (all_cons (by intro b b' hb hb' x hx line l; kernel_rfl)
    (all_cons (by intro b b' hb hb' x hx line l; (cases x with | nil => exact absurd rfl hx | cons a x => kernel_rfl))
    (all_cons (by intro b b' hb hb' x hx line l; kernel_rfl)
    (all_cons (by intro b b' hb hb' x hx line l; kernel_rfl)
    (all_cons (by intro b b' hb hb' x hx line l; kernel_rfl)
    (all_cons (by intro b b' hb hb' x hx line l; kernel_rfl)
    (all_cons (by intro b b' hb hb' x hx line l; kernel_rfl)
    (all_cons (by intro b b' hb hb' x hx line l; (cases x with | nil => exact absurd rfl hx | cons a x => kernel_rfl))
    (all_cons (by intro b b' hb hb' x hx line l; (cases x with | nil => exact absurd rfl hx | cons a x => kernel_rfl))
    (List.forall_mem_nil _))))))))))))))

theorem obeys_firewallLines_4 : ∀ v, [Version.RHEL3, Version.FC3, Version.RHEL4, Version.FC4, Version.FC5, Version.FC6, Version.RHEL5, Version.F7, Version.F8].contains v = true → Command.Obeys (FC3_Firewall.cls) firewallLines v :=
  obeys_of obeys_firewallLines_4_object [0] [0, 1, 2, 3, 4, 5, 9, 11, 13, 15, 23, 24, 26] (obeys_firewallLines_4_base _) (all_cons obeys_firewallLines_4_start (List.forall_mem_nil _)) (obeys_firewallLines_4_lines _) (by decide +kernel)

def obeys_firewallLines_5_object (_ : Nat) : Ns := [(c!"enabled", .bool true), (c!"ports", .list []), (c!"trusts", .list [])]

theorem obeys_firewallLines_5_base (n : Str) : Command.FirstBase (F9_Firewall.cls) n [] obeys_firewallLines_5_object := by
  intro b b' hb hb' line l; kernel_rfl

theorem obeys_firewallLines_5_start : Command.FirstStart (F9_Firewall.cls) obeys_firewallLines_5_object (firewallLines.start.getD 0 ([], [])).2 := fun _ => .inr ⟨fun _ => rfl, by kernel_rfl⟩

theorem obeys_firewallLines_5_lines (n : Str) : ∀ i ∈ [0, 1, 2, 3, 4, 5, 7, 9, 11, 13, 15, 17, 23, 25, 27], Command.FirstLine (F9_Firewall.cls) n [] obeys_firewallLines_5_object (firewallLines.lines.getD i noLine) :=
  (all_cons (by intro b b' hb hb' x hx line l; kernel_rfl)
    (all_cons (by intro b b' hb hb' x hx line l; kernel_rfl)
    (all_cons (by intro b b' hb hb' x hx line l; kernel_rfl)
    (all_cons (by intro b b' hb hb' x hx line l; kernel_rfl)
    (all_cons (by intro b b' hb hb' x hx line l; kernel_rfl)
    (all_cons (by intro b b' hb hb' x hx line l; (cases x with | nil => exact absurd rfl hx | cons a x => kernel_rfl))
    (all_cons (by intro b b' hb hb' x hx line l; (cases x with | nil => exact absurd rfl hx | cons a x => kernel_rfl))
    (all_cons (by intro b b' hb hb' x hx line l; kernel_rfl)
    (all_cons (by intro b b' hb hb' x hx line l; kernel_rfl)
    (all_cons (by intro b b' hb hb' x hx line l; kernel_rfl)
    (all_cons (by intro b b' hb hb' x hx line l; kernel_rfl)
    (all_cons (by intro b b' hb hb' x hx line l; (cases x with | nil => exact absurd rfl hx | cons a x => kernel_rfl))
    (all_cons (by intro b b' hb hb' x hx line l; kernel_rfl)
    (all_cons (by intro b b' hb hb' x hx line l; (cases x with | nil => exact absurd rfl hx | cons a x => kernel_rfl))
    (all_cons (by intro b b' hb hb' x hx line l; (cases x with | nil => exact absurd rfl hx | cons a x => kernel_rfl))
    (List.forall_mem_nil _))))))))))))))))

theorem obeys_firewallLines_5 : ∀ v, [Version.F9].contains v = true → Command.Obeys (F9_Firewall.cls) firewallLines v :=
  obeys_of obeys_firewallLines_5_object [0] [0, 1, 2, 3, 4, 5, 7, 9, 11, 13, 15, 17, 23, 25, 27] (obeys_firewallLines_5_base _) (all_cons obeys_firewallLines_5_start (List.forall_mem_nil _)) (obeys_firewallLines_5_lines _) (by decide +kernel)

theorem obeys_firewallLines : firewallLines.Obeyed := by
  unfold CommandLines.Obeyed commandMaps
  exact (all_cons (fun _ c h => by cases h; exact obeys_firewallLines_0 _ rfl)
    (all_cons (fun _ c h => by cases h; exact obeys_firewallLines_0 _ rfl)
    (all_cons (fun _ c h => by cases h; exact obeys_firewallLines_0 _ rfl)
    (all_cons (fun _ c h => by cases h; exact obeys_firewallLines_0 _ rfl)
    (all_cons (fun _ c h => by cases h; exact obeys_firewallLines_1 _ rfl)
    (all_cons (fun _ c h => by cases h; exact obeys_firewallLines_1 _ rfl)
    (all_cons (fun _ c h => by cases h; exact obeys_firewallLines_1 _ rfl)
    (all_cons (fun _ c h => by cases h; exact obeys_firewallLines_1 _ rfl)
    (all_cons (fun _ c h => by cases h; exact obeys_firewallLines_1 _ rfl)
    (all_cons (fun _ c h => by cases h; exact obeys_firewallLines_1 _ rfl)
    (all_cons (fun _ c h => by cases h; exact obeys_firewallLines_2 _ rfl)
    (all_cons (fun _ c h => by cases h; exact obeys_firewallLines_2 _ rfl)
    (all_cons (fun _ c h => by cases h; exact obeys_firewallLines_2 _ rfl)
    (all_cons (fun _ c h => by cases h; exact obeys_firewallLines_2 _ rfl)
    (all_cons (fun _ c h => by cases h; exact obeys_firewallLines_2 _ rfl)
    (all_cons (fun _ c h => by cases h; exact obeys_firewallLines_2 _ rfl)
    (all_cons (fun _ c h => by cases h; exact obeys_firewallLines_2 _ rfl)
    (all_cons (fun _ c h => by cases h; exact obeys_firewallLines_2 _ rfl)
    (all_cons (fun _ c h => by cases h; exact obeys_firewallLines_3 _ rfl)
    (all_cons (fun _ c h => by cases h; exact obeys_firewallLines_3 _ rfl)
    (all_cons (fun _ c h => by cases h; exact obeys_firewallLines_3 _ rfl)
    (all_cons (fun _ c h => by cases h; exact obeys_firewallLines_3 _ rfl)
    (all_cons (fun _ c h => by cases h; exact obeys_firewallLines_3 _ rfl)
    (all_cons (fun _ c h => by cases h; exact obeys_firewallLines_3 _ rfl)
    (all_cons (fun _ c h => by cases h; exact obeys_firewallLines_3 _ rfl)
    (all_cons (fun _ c h => by cases h; exact obeys_firewallLines_4 _ rfl)
    (all_cons (fun _ c h => by cases h; exact obeys_firewallLines_4 _ rfl)
    (all_cons (fun _ c h => by cases h; exact obeys_firewallLines_5 _ rfl)
    (all_cons (fun _ c h => by cases h; exact obeys_firewallLines_4 _ rfl)
    (all_cons (fun _ c h => by cases h; exact obeys_firewallLines_4 _ rfl)
    (all_cons (fun _ c h => by cases h; exact obeys_firewallLines_4 _ rfl)
    (all_cons (fun _ c h => by cases h; exact obeys_firewallLines_4 _ rfl)
    (all_cons (fun _ c h => by cases h; exact obeys_firewallLines_4 _ rfl)
    (all_cons (fun _ c h => by cases h; exact obeys_firewallLines_4 _ rfl)
    (all_cons (fun _ c h => by cases h; exact obeys_firewallLines_4 _ rfl)
    (all_cons (fun _ c h => by cases h; exact obeys_firewallLines_0 _ rfl)
    (all_cons (fun _ c h => by cases h; exact obeys_firewallLines_2 _ rfl)
    (all_cons (fun _ c h => by cases h; exact obeys_firewallLines_3 _ rfl) (List.forall_mem_nil _)))))))))))))))))))))))))))))))))))))))

def obeys_groupLines_0_object (l : Nat) : Ns := [(c!"lineno", .int l), (c!"name", .str c!"g"), (c!"gid", .none)]

theorem obeys_groupLines_0_base (n : Str) : Command.FirstBase (F12_Group.cls F12_GroupData.cls) n [c!"--name=g"] obeys_groupLines_0_object := by
  intro b b' hb hb' line l; kernel_rfl

theorem obeys_groupLines_0_start : Command.FirstStart (F12_Group.cls F12_GroupData.cls) obeys_groupLines_0_object (groupLines.start.getD 0 ([], [])).2 := fun _ => .inl ⟨fun _ => rfl, (all_cons (by kernel_rfl) (List.forall_mem_nil _))⟩

theorem obeys_groupLines_0_lines (n : Str) : ∀ i ∈ [0, 1], Command.FirstLine (F12_Group.cls F12_GroupData.cls) n [c!"--name=g"] obeys_groupLines_0_object (groupLines.lines.getD i noLine) :=
  (all_cons (by intro b b' hb hb' x hx line l; (cases x with | nil => exact absurd rfl hx | cons a x => kernel_rfl))
    (all_cons (by intro b b' hb hb' x hx line l; kernel_rfl)
    (List.forall_mem_nil _)))

theorem obeys_groupLines_0 : ∀ v, [Version.F12, Version.F13, Version.RHEL6, Version.F14, Version.F15, Version.F16, Version.F17, Version.F18, Version.F19, Version.F20, Version.F21, Version.RHEL7, Version.F22, Version.F23, Version.F24, Version.F25, Version.F26, Version.F27, Version.F28, Version.RHEL8, Version.F29, Version.F30, Version.F31, Version.F32, Version.F33, Version.F34].contains v = true → Command.Obeys (F12_Group.cls F12_GroupData.cls) groupLines v :=
  obeys_of obeys_groupLines_0_object [0] [0, 1] (obeys_groupLines_0_base _) (all_cons obeys_groupLines_0_start (List.forall_mem_nil _)) (obeys_groupLines_0_lines _) (by decide +kernel)

theorem obeys_groupLines : groupLines.Obeyed := by
  unfold CommandLines.Obeyed commandMaps
  exact (all_cons (fun hv => absurd hv (by decide))
    (all_cons (fun hv => absurd hv (by decide))
    (all_cons (fun _ c h => by cases h; exact obeys_groupLines_0 _ rfl)
    (all_cons (fun _ c h => by cases h; exact obeys_groupLines_0 _ rfl)
    (all_cons (fun _ c h => by cases h; exact obeys_groupLines_0 _ rfl)
    (all_cons (fun _ c h => by cases h; exact obeys_groupLines_0 _ rfl)
    (all_cons (fun _ c h => by cases h; exact obeys_groupLines_0 _ rfl)
    (all_cons (fun _ c h => by cases h; exact obeys_groupLines_0 _ rfl)
    (all_cons (fun _ c h => by cases h; exact obeys_groupLines_0 _ rfl)
    (all_cons (fun _ c h => by cases h; exact obeys_groupLines_0 _ rfl)
    (all_cons (fun _ c h => by cases h; exact obeys_groupLines_0 _ rfl)
    (all_cons (fun _ c h => by cases h; exact obeys_groupLines_0 _ rfl)
    (all_cons (fun _ c h => by cases h; exact obeys_groupLines_0 _ rfl)
    (all_cons (fun _ c h => by cases h; exact obeys_groupLines_0 _ rfl)
    (all_cons (fun _ c h => by cases h; exact obeys_groupLines_0 _ rfl)
    (all_cons (fun _ c h => by cases h; exact obeys_groupLines_0 _ rfl)
    (all_cons (fun _ c h => by cases h; exact obeys_groupLines_0 _ rfl)
    (all_cons (fun _ c h => by cases h; exact obeys_groupLines_0 _ rfl)
    (all_cons (fun _ c h => by cases h; exact obeys_groupLines_0 _ rfl)
    (all_cons (fun _ c h => by cases h; exact obeys_groupLines_0 _ rfl)
    (all_cons (fun _ c h => by cases h; exact obeys_groupLines_0 _ rfl)
    (all_cons (fun _ c h => by cases h; exact obeys_groupLines_0 _ rfl)
    (all_cons (fun _ c h => by cases h; exact obeys_groupLines_0 _ rfl)
    (all_cons (fun _ c h => by cases h; exact obeys_groupLines_0 _ rfl)
    (all_cons (fun _ c h => by cases h; exact obeys_groupLines_0 _ rfl)
    (all_cons (fun hv => absurd hv (by decide))
    (all_cons (fun hv => absurd hv (by decide))
    (all_cons (fun hv => absurd hv (by decide))
    (all_cons (fun hv => absurd hv (by decide))
    (all_cons (fun hv => absurd hv (by decide))
    (all_cons (fun hv => absurd hv (by decide))
    (all_cons (fun hv => absurd hv (by decide))
    (all_cons (fun hv => absurd hv (by decide))
    (all_cons (fun hv => absurd hv (by decide))
    (all_cons (fun hv => absurd hv (by decide))
    (all_cons (fun _ c h => by cases h; exact obeys_groupLines_0 _ rfl)
    (all_cons (fun _ c h => by cases h; exact obeys_groupLines_0 _ rfl)
    (all_cons (fun _ c h => by cases h; exact obeys_groupLines_0 _ rfl) (List.forall_mem_nil _)))))))))))))))))))))))))))))))))))))))

def obeys_harddriveLines_0_object (_ : Nat) : Ns := [(c!"biospart", .none), (c!"partition", .str c!"p"), (c!"dir", .str c!"d")]

theorem obeys_harddriveLines_0_base (n : Str) : Command.FirstBase (FC3_HardDrive.cls) n [c!"--dir=d", c!"--partition=p"] obeys_harddriveLines_0_object := by
  intro b b' hb hb' line l; kernel_rfl

theorem obeys_harddriveLines_0_start : Command.FirstStart (FC3_HardDrive.cls) obeys_harddriveLines_0_object (harddriveLines.start.getD 0 ([], [])).2 := fun _ => .inr ⟨fun _ => rfl, by kernel_rfl⟩

theorem obeys_harddriveLines_0_lines (n : Str) : ∀ i ∈ [0, 1, 2], Command.FirstLine (FC3_HardDrive.cls) n [c!"--dir=d", c!"--partition=p"] obeys_harddriveLines_0_object (harddriveLines.lines.getD i noLine) :=
  (all_cons (by intro b b' hb hb' x hx line l; (cases x with | nil => exact absurd rfl hx | cons a x => kernel_rfl))
    (all_cons (by intro b b' hb hb' x hx line l; (cases x with | nil => exact absurd rfl hx | cons a x => kernel_rfl))
    (all_cons (by intro b b' hb hb' x hx line l; (cases x with | nil => exact absurd rfl hx | cons a x => kernel_rfl))
    (List.forall_mem_nil _))))

theorem obeys_harddriveLines_0 : ∀ v, [Version.RHEL3, Version.FC3, Version.RHEL4, Version.FC4, Version.FC5, Version.FC6, Version.RHEL5, Version.F7, Version.F8, Version.F9, Version.F10, Version.F11, Version.F12, Version.F13, Version.RHEL6, Version.F14, Version.F15, Version.F16, Version.F17, Version.F18, Version.F19, Version.F20, Version.F21, Version.RHEL7, Version.F22, Version.F23, Version.F24, Version.F25, Version.F26, Version.F27, Version.F28, Version.RHEL8, Version.F29, Version.F30, Version.F31, Version.F32].contains v = true → Command.Obeys (FC3_HardDrive.cls) harddriveLines v :=
  obeys_of obeys_harddriveLines_0_object [0] [0, 1, 2] (obeys_harddriveLines_0_base _) (all_cons obeys_harddriveLines_0_start (List.forall_mem_nil _)) (obeys_harddriveLines_0_lines _) (by decide +kernel)

def obeys_harddriveLines_1_object (_ : Nat) : Ns := [(c!"partition", .str c!"p"), (c!"dir", .str c!"d")]

theorem obeys_harddriveLines_1_base (n : Str) : Command.FirstBase (F33_HardDrive.cls) n [c!"--dir=d", c!"--partition=p"] obeys_harddriveLines_1_object := by
  intro b b' hb hb' line l; kernel_rfl

theorem obeys_harddriveLines_1_start : Command.FirstStart (F33_HardDrive.cls) obeys_harddriveLines_1_object (harddriveLines.start.getD 0 ([], [])).2 := fun _ => .inr ⟨fun _ => rfl, by kernel_rfl⟩

theorem obeys_harddriveLines_1_lines (n : Str) : ∀ i ∈ [0, 1, 2], Command.FirstLine (F33_HardDrive.cls) n [c!"--dir=d", c!"--partition=p"] obeys_harddriveLines_1_object (harddriveLines.lines.getD i noLine) :=
  (all_cons (by intro b b' hb hb' x hx line l; (cases x with | nil => exact absurd rfl hx | cons a x => kernel_rfl))
    (all_cons (by intro b b' hb hb' x hx line l; (cases x with | nil => exact absurd rfl hx | cons a x => kernel_rfl))
    (all_cons (by intro b b' hb hb' x hx line l; (cases x with | nil => exact absurd rfl hx | cons a x => kernel_rfl))
    (List.forall_mem_nil _))))

theorem obeys_harddriveLines_1 : ∀ v, [Version.F33, Version.F34].contains v = true → Command.Obeys (F33_HardDrive.cls) harddriveLines v :=
  obeys_of obeys_harddriveLines_1_object [0] [0, 1, 2] (obeys_harddriveLines_1_base _) (all_cons obeys_harddriveLines_1_start (List.forall_mem_nil _)) (obeys_harddriveLines_1_lines _) (by decide +kernel)

theorem obeys_harddriveLines : harddriveLines.Obeyed := by
  unfold CommandLines.Obeyed commandMaps
  exact (all_cons (fun _ c h => by cases h; exact obeys_harddriveLines_0 _ rfl)
    (all_cons (fun _ c h => by cases h; exact obeys_harddriveLines_0 _ rfl)
    (all_cons (fun _ c h => by cases h; exact obeys_harddriveLines_0 _ rfl)
    (all_cons (fun _ c h => by cases h; exact obeys_harddriveLines_0 _ rfl)
    (all_cons (fun _ c h => by cases h; exact obeys_harddriveLines_0 _ rfl)
    (all_cons (fun _ c h => by cases h; exact obeys_harddriveLines_0 _ rfl)
    (all_cons (fun _ c h => by cases h; exact obeys_harddriveLines_0 _ rfl)
    (all_cons (fun _ c h => by cases h; exact obeys_harddriveLines_0 _ rfl)
    (all_cons (fun _ c h => by cases h; exact obeys_harddriveLines_0 _ rfl)
    (all_cons (fun _ c h => by cases h; exact obeys_harddriveLines_0 _ rfl)
    (all_cons (fun _ c h => by cases h; exact obeys_harddriveLines_0 _ rfl)
    (all_cons (fun _ c h => by cases h; exact obeys_harddriveLines_0 _ rfl)
    (all_cons (fun _ c h => by cases h; exact obeys_harddriveLines_0 _ rfl)
    (all_cons (fun _ c h => by cases h; exact obeys_harddriveLines_0 _ rfl)
    (all_cons (fun _ c h => by cases h; exact obeys_harddriveLines_0 _ rfl)
    (all_cons (fun _ c h => by cases h; exact obeys_harddriveLines_0 _ rfl)
    (all_cons (fun _ c h => by cases h; exact obeys_harddriveLines_0 _ rfl)
    (all_cons (fun _ c h => by cases h; exact obeys_harddriveLines_0 _ rfl)
    (all_cons (fun _ c h => by cases h; exact obeys_harddriveLines_0 _ rfl)
    (all_cons (fun _ c h => by cases h; exact obeys_harddriveLines_0 _ rfl)
    (all_cons (fun _ c h => by cases h; exact obeys_harddriveLines_0 _ rfl)
    (all_cons (fun _ c h => by cases h; exact obeys_harddriveLines_0 _ rfl)
    (all_cons (fun _ c h => by cases h; exact obeys_harddriveLines_0 _ rfl)
    (all_cons (fun _ c h => by cases h; exact obeys_harddriveLines_1 _ rfl)
    (all_cons (fun _ c h => by cases h; exact obeys_harddriveLines_1 _ rfl)
    (all_cons (fun _ c h => by cases h; exact obeys_harddriveLines_0 _ rfl)
    (all_cons (fun _ c h => by cases h; exact obeys_harddriveLines_0 _ rfl)
    (all_cons (fun _ c h => by cases h; exact obeys_harddriveLines_0 _ rfl)
    (all_cons (fun _ c h => by cases h; exact obeys_harddriveLines_0 _ rfl)
    (all_cons (fun _ c h => by cases h; exact obeys_harddriveLines_0 _ rfl)
    (all_cons (fun _ c h => by cases h; exact obeys_harddriveLines_0 _ rfl)
    (all_cons (fun _ c h => by cases h; exact obeys_harddriveLines_0 _ rfl)
    (all_cons (fun _ c h => by cases h; exact obeys_harddriveLines_0 _ rfl)
    (all_cons (fun _ c h => by cases h; exact obeys_harddriveLines_0 _ rfl)
    (all_cons (fun _ c h => by cases h; exact obeys_harddriveLines_0 _ rfl)
    (all_cons (fun _ c h => by cases h; exact obeys_harddriveLines_0 _ rfl)
    (all_cons (fun _ c h => by cases h; exact obeys_harddriveLines_0 _ rfl)
    (all_cons (fun _ c h => by cases h; exact obeys_harddriveLines_0 _ rfl) (List.forall_mem_nil _)))))))))))))))))))))))))))))))))))))))

def obeys_harddriveLines2_0_object (_ : Nat) : Ns := [(c!"biospart", .str c!"b"), (c!"partition", .none), (c!"dir", .str c!"d")]

theorem obeys_harddriveLines2_0_base (n : Str) : Command.FirstBase (FC3_HardDrive.cls) n [c!"--dir=d", c!"--biospart=b"] obeys_harddriveLines2_0_object := by
  intro b b' hb hb' line l; kernel_rfl

theorem obeys_harddriveLines2_0_start : Command.FirstStart (FC3_HardDrive.cls) obeys_harddriveLines2_0_object (harddriveLines2.start.getD 0 ([], [])).2 := fun _ => .inr ⟨fun _ => rfl, by kernel_rfl⟩

theorem obeys_harddriveLines2_0_lines (n : Str) : ∀ i ∈ [0, 1], Command.FirstLine (FC3_HardDrive.cls) n [c!"--dir=d", c!"--biospart=b"] obeys_harddriveLines2_0_object (harddriveLines2.lines.getD i noLine) :=
  (all_cons (by intro b b' hb hb' x hx line l; (cases x with | nil => exact absurd rfl hx | cons a x => kernel_rfl))
    (all_cons (by intro b b' hb hb' x hx line l; (cases x with | nil => exact absurd rfl hx | cons a x => kernel_rfl))
    (List.forall_mem_nil _)))

theorem obeys_harddriveLines2_0 : ∀ v, [Version.RHEL3, Version.FC3, Version.RHEL4, Version.FC4, Version.FC5, Version.FC6, Version.RHEL5, Version.F7, Version.F8, Version.F9, Version.F10, Version.F11, Version.F12, Version.F13, Version.RHEL6, Version.F14, Version.F15, Version.F16, Version.F17, Version.F18, Version.F19, Version.F20, Version.F21, Version.RHEL7, Version.F22, Version.F23, Version.F24, Version.F25, Version.F26, Version.F27, Version.F28, Version.RHEL8, Version.F29, Version.F30, Version.F31, Version.F32].contains v = true → Command.Obeys (FC3_HardDrive.cls) harddriveLines2 v :=
  obeys_of obeys_harddriveLines2_0_object [0] [0, 1] (obeys_harddriveLines2_0_base _) (all_cons obeys_harddriveLines2_0_start (List.forall_mem_nil _)) (obeys_harddriveLines2_0_lines _) (by decide +kernel)

theorem obeys_harddriveLines2 : harddriveLines2.Obeyed := by
  unfold CommandLines.Obeyed commandMaps
  exact (all_cons (fun _ c h => by cases h; exact obeys_harddriveLines2_0 _ rfl)
    (all_cons (fun _ c h => by cases h; exact obeys_harddriveLines2_0 _ rfl)
    (all_cons (fun _ c h => by cases h; exact obeys_harddriveLines2_0 _ rfl)
    (all_cons (fun _ c h => by cases h; exact obeys_harddriveLines2_0 _ rfl)
    (all_cons (fun _ c h => by cases h; exact obeys_harddriveLines2_0 _ rfl)
    (all_cons (fun _ c h => by cases h; exact obeys_harddriveLines2_0 _ rfl)
    (all_cons (fun _ c h => by cases h; exact obeys_harddriveLines2_0 _ rfl)
    (all_cons (fun _ c h => by cases h; exact obeys_harddriveLines2_0 _ rfl)
    (all_cons (fun _ c h => by cases h; exact obeys_harddriveLines2_0 _ rfl)
    (all_cons (fun _ c h => by cases h; exact obeys_harddriveLines2_0 _ rfl)
    (all_cons (fun _ c h => by cases h; exact obeys_harddriveLines2_0 _ rfl)
    (all_cons (fun _ c h => by cases h; exact obeys_harddriveLines2_0 _ rfl)
    (all_cons (fun _ c h => by cases h; exact obeys_harddriveLines2_0 _ rfl)
    (all_cons (fun _ c h => by cases h; exact obeys_harddriveLines2_0 _ rfl)
    (all_cons (fun _ c h => by cases h; exact obeys_harddriveLines2_0 _ rfl)
    (all_cons (fun _ c h => by cases h; exact obeys_harddriveLines2_0 _ rfl)
    (all_cons (fun _ c h => by cases h; exact obeys_harddriveLines2_0 _ rfl)
    (all_cons (fun _ c h => by cases h; exact obeys_harddriveLines2_0 _ rfl)
    (all_cons (fun _ c h => by cases h; exact obeys_harddriveLines2_0 _ rfl)
    (all_cons (fun _ c h => by cases h; exact obeys_harddriveLines2_0 _ rfl)
    (all_cons (fun _ c h => by cases h; exact obeys_harddriveLines2_0 _ rfl)
    (all_cons (fun _ c h => by cases h; exact obeys_harddriveLines2_0 _ rfl)
    (all_cons (fun _ c h => by cases h; exact obeys_harddriveLines2_0 _ rfl)
    (all_cons (fun hv => absurd hv (by decide))
    (all_cons (fun hv => absurd hv (by decide))
    (all_cons (fun _ c h => by cases h; exact obeys_harddriveLines2_0 _ rfl)
    (all_cons (fun _ c h => by cases h; exact obeys_harddriveLines2_0 _ rfl)
    (all_cons (fun _ c h => by cases h; exact obeys_harddriveLines2_0 _ rfl)
    (all_cons (fun _ c h => by cases h; exact obeys_harddriveLines2_0 _ rfl)
    (all_cons (fun _ c h => by cases h; exact obeys_harddriveLines2_0 _ rfl)
    (all_cons (fun _ c h => by cases h; exact obeys_harddriveLines2_0 _ rfl)
    (all_cons (fun _ c h => by cases h; exact obeys_harddriveLines2_0 _ rfl)
    (all_cons (fun _ c h => by cases h; exact obeys_harddriveLines2_0 _ rfl)
    (all_cons (fun _ c h => by cases h; exact obeys_harddriveLines2_0 _ rfl)
    (all_cons (fun _ c h => by cases h; exact obeys_harddriveLines2_0 _ rfl)
    (all_cons (fun _ c h => by cases h; exact obeys_harddriveLines2_0 _ rfl)
    (all_cons (fun _ c h => by cases h; exact obeys_harddriveLines2_0 _ rfl)
    (all_cons (fun _ c h => by cases h; exact obeys_harddriveLines2_0 _ rfl) (List.forall_mem_nil _)))))))))))))))))))))))))))))))))))))))

def obeys_hmcLines_0_object (_ : Nat) : Ns := []

theorem obeys_hmcLines_0_base (n : Str) : Command.FirstBase (F28_Hmc.cls) n [] obeys_hmcLines_0_object := by
  intro b b' hb hb' line l; kernel_rfl

theorem obeys_hmcLines_0_start : Command.FirstStart (F28_Hmc.cls) obeys_hmcLines_0_object (hmcLines.start.getD 0 ([], [])).2 := fun _ => .inr ⟨fun _ => rfl, by kernel_rfl⟩

theorem obeys_hmcLines_0_lines (n : Str) : ∀ i ∈ [0, 1], Command.FirstLine (F28_Hmc.cls) n [] obeys_hmcLines_0_object (hmcLines.lines.getD i noLine) :=
  (all_cons (by intro b b' hb hb' x hx line l; kernel_rfl)
    (all_cons (by intro b b' hb hb' x hx line l; kernel_rfl)
    (List.forall_mem_nil _)))

theorem obeys_hmcLines_0 : ∀ v, [Version.F28, Version.RHEL8, Version.F29, Version.F30, Version.F31, Version.F32, Version.F33, Version.F34].contains v = true → Command.Obeys (F28_Hmc.cls) hmcLines v :=
  obeys_of obeys_hmcLines_0_object [0] [0, 1] (obeys_hmcLines_0_base _) (all_cons obeys_hmcLines_0_start (List.forall_mem_nil _)) (obeys_hmcLines_0_lines _) (by decide +kernel)

def obeys_hmcLines_1_object (_ : Nat) : Ns := []

theorem obeys_hmcLines_1_base (n : Str) : Command.FirstBase (RHEL7_Hmc.cls) n [] obeys_hmcLines_1_object := by
  intro b b' hb hb' line l; kernel_rfl

theorem obeys_hmcLines_1_start : Command.FirstStart (RHEL7_Hmc.cls) obeys_hmcLines_1_object (hmcLines.start.getD 0 ([], [])).2 := fun _ => .inr ⟨fun _ => rfl, by kernel_rfl⟩

theorem obeys_hmcLines_1_lines (n : Str) : ∀ i ∈ [0, 1], Command.FirstLine (RHEL7_Hmc.cls) n [] obeys_hmcLines_1_object (hmcLines.lines.getD i noLine) :=
  (all_cons (by intro b b' hb hb' x hx line l; kernel_rfl)
    (all_cons (by intro b b' hb hb' x hx line l; kernel_rfl)
    (List.forall_mem_nil _)))

theorem obeys_hmcLines_1 : ∀ v, [Version.RHEL7].contains v = true → Command.Obeys (RHEL7_Hmc.cls) hmcLines v :=
  obeys_of obeys_hmcLines_1_object [0] [0, 1] (obeys_hmcLines_1_base _) (all_cons obeys_hmcLines_1_start (List.forall_mem_nil _)) (obeys_hmcLines_1_lines _) (by decide +kernel)

theorem obeys_hmcLines : hmcLines.Obeyed := by
  unfold CommandLines.Obeyed commandMaps
  exact (all_cons (fun hv => absurd hv (by decide))
    (all_cons (fun hv => absurd hv (by decide))
    (all_cons (fun hv => absurd hv (by decide))
    (all_cons (fun hv => absurd hv (by decide))
    (all_cons (fun hv => absurd hv (by decide))
    (all_cons (fun hv => absurd hv (by decide))
    (all_cons (fun hv => absurd hv (by decide))
    (all_cons (fun hv => absurd hv (by decide))
    (all_cons (fun hv => absurd hv (by decide))
    (all_cons (fun hv => absurd hv (by decide))
    (all_cons (fun hv => absurd hv (by decide))
    (all_cons (fun hv => absurd hv (by decide))
    (all_cons (fun hv => absurd hv (by decide))
    (all_cons (fun hv => absurd hv (by decide))
    (all_cons (fun hv => absurd hv (by decide))
    (all_cons (fun hv => absurd hv (by decide))
    (all_cons (fun hv => absurd hv (by decide))
    (all_cons (fun hv => absurd hv (by decide))
    (all_cons (fun _ c h => by cases h; exact obeys_hmcLines_0 _ rfl)
    (all_cons (fun _ c h => by cases h; exact obeys_hmcLines_0 _ rfl)
    (all_cons (fun _ c h => by cases h; exact obeys_hmcLines_0 _ rfl)
    (all_cons (fun _ c h => by cases h; exact obeys_hmcLines_0 _ rfl)
    (all_cons (fun _ c h => by cases h; exact obeys_hmcLines_0 _ rfl)
    (all_cons (fun _ c h => by cases h; exact obeys_hmcLines_0 _ rfl)
    (all_cons (fun _ c h => by cases h; exact obeys_hmcLines_0 _ rfl)
    (all_cons (fun hv => absurd hv (by decide))
    (all_cons (fun hv => absurd hv (by decide))
    (all_cons (fun hv => absurd hv (by decide))
    (all_cons (fun hv => absurd hv (by decide))
    (all_cons (fun hv => absurd hv (by decide))
    (all_cons (fun hv => absurd hv (by decide))
    (all_cons (fun hv => absurd hv (by decide))
    (all_cons (fun hv => absurd hv (by decide))
    (all_cons (fun hv => absurd hv (by decide))
    (all_cons (fun hv => absurd hv (by decide))
    (all_cons (fun hv => absurd hv (by decide))
    (all_cons (fun _ c h => by cases h; exact obeys_hmcLines_1 _ rfl)
    (all_cons (fun _ c h => by cases h; exact obeys_hmcLines_0 _ rfl) (List.forall_mem_nil _)))))))))))))))))))))))))))))))))))))))

def obeys_installLines_0_object (_ : Nat) : Ns := [(c!"upgrade", .bool false)]

theorem obeys_installLines_0_base : Command.FirstBase (FC3_Upgrade.cls) c!"install" [] obeys_installLines_0_object := by
  intro b b' hb hb' line l; kernel_rfl

theorem obeys_installLines_0_start : Command.FirstStart (FC3_Upgrade.cls) obeys_installLines_0_object (installLines.start.getD 0 ([], [])).2 := fun _ => .inr ⟨fun _ => rfl, by kernel_rfl⟩

theorem obeys_installLines_0_lines : ∀ i ∈ [0], Command.FirstLine (FC3_Upgrade.cls) c!"install" [] obeys_installLines_0_object (installLines.lines.getD i noLine) :=
  (all_cons (by intro b b' hb hb' x hx line l; (cases x with | nil => exact absurd rfl hx | cons a x => kernel_rfl))
    (List.forall_mem_nil _))

theorem obeys_installLines_0 : ∀ v, [Version.RHEL3, Version.FC3, Version.RHEL4, Version.FC4, Version.FC5, Version.FC6, Version.RHEL5, Version.F7, Version.F8, Version.F9, Version.F10].contains v = true → Command.Obeys (FC3_Upgrade.cls) installLines v :=
  obeys_of obeys_installLines_0_object [0] [0] (obeys_installLines_0_base) (all_cons obeys_installLines_0_start (List.forall_mem_nil _)) (obeys_installLines_0_lines) (by decide +kernel)

def obeys_installLines_1_object (_ : Nat) : Ns := [(c!"upgrade", .bool false), (c!"root_device", .none)]

theorem obeys_installLines_1_base : Command.FirstBase (F11_Upgrade.cls) c!"install" [] obeys_installLines_1_object := by
  intro b b' hb hb' line l; kernel_rfl

theorem obeys_installLines_1_start : Command.FirstStart (F11_Upgrade.cls) obeys_installLines_1_object (installLines.start.getD 0 ([], [])).2 := fun _ => .inr ⟨fun _ => rfl, by kernel_rfl⟩

theorem obeys_installLines_1_lines : ∀ i ∈ [1], Command.FirstLine (F11_Upgrade.cls) c!"install" [] obeys_installLines_1_object (installLines.lines.getD i noLine) :=
  (all_cons (by intro b b' hb hb' x hx line l; (cases x with | nil => exact absurd rfl hx | cons a x => kernel_rfl))
    (List.forall_mem_nil _))

theorem obeys_installLines_1 : ∀ v, [Version.F11, Version.F12, Version.F13, Version.RHEL6, Version.F14, Version.F15, Version.F16, Version.F17, Version.F18, Version.F19, Version.RHEL7].contains v = true → Command.Obeys (F11_Upgrade.cls) installLines v :=
  obeys_of obeys_installLines_1_object [0] [1] (obeys_installLines_1_base) (all_cons obeys_installLines_1_start (List.forall_mem_nil _)) (obeys_installLines_1_lines) (by decide +kernel)

def obeys_installLines_2_object (_ : Nat) : Ns := [(c!"upgrade", .bool false), (c!"root_device", .none)]

theorem obeys_installLines_2_base : Command.FirstBase (F20_Install.cls) c!"install" [] obeys_installLines_2_object := by
  intro b b' hb hb' line l; kernel_rfl

theorem obeys_installLines_2_start : Command.FirstStart (F20_Install.cls) obeys_installLines_2_object (installLines.start.getD 0 ([], [])).2 := fun _ => .inr ⟨fun _ => rfl, by kernel_rfl⟩

theorem obeys_installLines_2_lines : ∀ i ∈ [1], Command.FirstLine (F20_Install.cls) c!"install" [] obeys_installLines_2_object (installLines.lines.getD i noLine) :=
  (all_cons (by intro b b' hb hb' x hx line l; (cases x with | nil => exact absurd rfl hx | cons a x => kernel_rfl))
    (List.forall_mem_nil _))

theorem obeys_installLines_2 : ∀ v, [Version.F20, Version.F21, Version.F22, Version.F23, Version.F24, Version.F25, Version.F26, Version.F27, Version.F28].contains v = true → Command.Obeys (F20_Install.cls) installLines v :=
  obeys_of obeys_installLines_2_object [0] [1] (obeys_installLines_2_base) (all_cons obeys_installLines_2_start (List.forall_mem_nil _)) (obeys_installLines_2_lines) (by decide +kernel)

theorem obeys_installLines : installLines.Obeyed := by
  unfold CommandLines.Obeyed commandMaps
  exact (all_cons (fun _ c h => by cases h; exact obeys_installLines_0 _ rfl)
    (all_cons (fun _ c h => by cases h; exact obeys_installLines_1 _ rfl)
    (all_cons (fun _ c h => by cases h; exact obeys_installLines_1 _ rfl)
    (all_cons (fun _ c h => by cases h; exact obeys_installLines_1 _ rfl)
    (all_cons (fun _ c h => by cases h; exact obeys_installLines_1 _ rfl)
    (all_cons (fun _ c h => by cases h; exact obeys_installLines_1 _ rfl)
    (all_cons (fun _ c h => by cases h; exact obeys_installLines_1 _ rfl)
    (all_cons (fun _ c h => by cases h; exact obeys_installLines_1 _ rfl)
    (all_cons (fun _ c h => by cases h; exact obeys_installLines_1 _ rfl)
    (all_cons (fun _ c h => by cases h; exact obeys_installLines_1 _ rfl)
    (all_cons (fun _ c h => by cases h; exact obeys_installLines_2 _ rfl)
    (all_cons (fun _ c h => by cases h; exact obeys_installLines_2 _ rfl)
    (all_cons (fun _ c h => by cases h; exact obeys_installLines_2 _ rfl)
    (all_cons (fun _ c h => by cases h; exact obeys_installLines_2 _ rfl)
    (all_cons (fun _ c h => by cases h; exact obeys_installLines_2 _ rfl)
    (all_cons (fun _ c h => by cases h; exact obeys_installLines_2 _ rfl)
    (all_cons (fun _ c h => by cases h; exact obeys_installLines_2 _ rfl)
    (all_cons (fun _ c h => by cases h; exact obeys_installLines_2 _ rfl)
    (all_cons (fun _ c h => by cases h; exact obeys_installLines_2 _ rfl)
    (all_cons (fun hv => absurd hv (by decide))
    (all_cons (fun hv => absurd hv (by decide))
    (all_cons (fun hv => absurd hv (by decide))
    (all_cons (fun hv => absurd hv (by decide))
    (all_cons (fun hv => absurd hv (by decide))
    (all_cons (fun hv => absurd hv (by decide))
    (all_cons (fun _ c h => by cases h; exact obeys_installLines_0 _ rfl)
    (all_cons (fun _ c h => by cases h; exact obeys_installLines_0 _ rfl)
    (all_cons (fun _ c h => by cases h; exact obeys_installLines_0 _ rfl)
    (all_cons (fun _ c h => by cases h; exact obeys_installLines_0 _ rfl)
    (all_cons (fun _ c h => by cases h; exact obeys_installLines_0 _ rfl)
    (all_cons (fun _ c h => by cases h; exact obeys_installLines_0 _ rfl)
    (all_cons (fun _ c h => by cases h; exact obeys_installLines_0 _ rfl)
    (all_cons (fun _ c h => by cases h; exact obeys_installLines_0 _ rfl)
    (all_cons (fun _ c h => by cases h; exact obeys_installLines_0 _ rfl)
    (all_cons (fun _ c h => by cases h; exact obeys_installLines_0 _ rfl)
    (all_cons (fun _ c h => by cases h; exact obeys_installLines_1 _ rfl)
    (all_cons (fun _ c h => by cases h; exact obeys_installLines_1 _ rfl)
    (all_cons (fun hv => absurd hv (by decide)) (List.forall_mem_nil _)))))))))))))))))))))))))))))))))))))))

def obeys_liveimgLines_0_object (_ : Nat) : Ns := [(c!"checksum", .str c!""), (c!"noverifyssl", .bool false), (c!"proxy", .none), (c!"url", .str c!"u")]

theorem obeys_liveimgLines_0_base (n : Str) : Command.FirstBase (F19_Liveimg.cls) n [c!"--url=u"] obeys_liveimgLines_0_object := by
  intro b b' hb hb' line l; kernel_rfl

theorem obeys_liveimgLines_0_start : Command.FirstStart (F19_Liveimg.cls) obeys_liveimgLines_0_object (liveimgLines.start.getD 0 ([], [])).2 := fun _ => .inr ⟨fun _ => rfl, by kernel_rfl⟩

theorem obeys_liveimgLines_0_lines (n : Str) : ∀ i ∈ [0, 1, 2, 3], Command.FirstLine (F19_Liveimg.cls) n [c!"--url=u"] obeys_liveimgLines_0_object (liveimgLines.lines.getD i noLine) :=
  (all_cons (by intro b b' hb hb' x hx line l; (cases x with | nil => exact absurd rfl hx | cons a x => kernel_rfl))
    (all_cons (by intro b b' hb hb' x hx line l; (cases x with | nil => exact absurd rfl hx | cons a x => kernel_rfl))
    (all_cons (by intro b b' hb hb' x hx line l; kernel_rfl)
    (all_cons (by intro b b' hb hb' x hx line l; (cases x with | nil => exact absurd rfl hx | cons a x => kernel_rfl))
    (List.forall_mem_nil _)))))

theorem obeys_liveimgLines_0 : ∀ v, [Version.F19, Version.F20, Version.F21, Version.RHEL7, Version.F22, Version.F23, Version.F24, Version.F25, Version.F26, Version.F27, Version.F28, Version.RHEL8, Version.F29, Version.F30, Version.F31, Version.F32, Version.F33, Version.F34].contains v = true → Command.Obeys (F19_Liveimg.cls) liveimgLines v :=
  obeys_of obeys_liveimgLines_0_object [0] [0, 1, 2, 3] (obeys_liveimgLines_0_base _) (all_cons obeys_liveimgLines_0_start (List.forall_mem_nil _)) (obeys_liveimgLines_0_lines _) (by decide +kernel)

theorem obeys_liveimgLines : liveimgLines.Obeyed := by
  unfold CommandLines.Obeyed commandMaps
  exact (all_cons (fun hv => absurd hv (by decide))
    (all_cons (fun hv => absurd hv (by decide))
    (all_cons (fun hv => absurd hv (by decide))
    (all_cons (fun hv => absurd hv (by decide))
    (all_cons (fun hv => absurd hv (by decide))
    (all_cons (fun hv => absurd hv (by decide))
    (all_cons (fun hv => absurd hv (by decide))
    (all_cons (fun hv => absurd hv (by decide))
    (all_cons (fun hv => absurd hv (by decide))
    (all_cons (fun _ c h => by cases h; exact obeys_liveimgLines_0 _ rfl)
    (all_cons (fun _ c h => by cases h; exact obeys_liveimgLines_0 _ rfl)
    (all_cons (fun _ c h => by cases h; exact obeys_liveimgLines_0 _ rfl)
    (all_cons (fun _ c h => by cases h; exact obeys_liveimgLines_0 _ rfl)
    (all_cons (fun _ c h => by cases h; exact obeys_liveimgLines_0 _ rfl)
    (all_cons (fun _ c h => by cases h; exact obeys_liveimgLines_0 _ rfl)
    (all_cons (fun _ c h => by cases h; exact obeys_liveimgLines_0 _ rfl)
    (all_cons (fun _ c h => by cases h; exact obeys_liveimgLines_0 _ rfl)
    (all_cons (fun _ c h => by cases h; exact obeys_liveimgLines_0 _ rfl)
    (all_cons (fun _ c h => by cases h; exact obeys_liveimgLines_0 _ rfl)
    (all_cons (fun _ c h => by cases h; exact obeys_liveimgLines_0 _ rfl)
    (all_cons (fun _ c h => by cases h; exact obeys_liveimgLines_0 _ rfl)
    (all_cons (fun _ c h => by cases h; exact obeys_liveimgLines_0 _ rfl)
    (all_cons (fun _ c h => by cases h; exact obeys_liveimgLines_0 _ rfl)
    (all_cons (fun _ c h => by cases h; exact obeys_liveimgLines_0 _ rfl)
    (all_cons (fun _ c h => by cases h; exact obeys_liveimgLines_0 _ rfl)
    (all_cons (fun hv => absurd hv (by decide))
    (all_cons (fun hv => absurd hv (by decide))
    (all_cons (fun hv => absurd hv (by decide))
    (all_cons (fun hv => absurd hv (by decide))
    (all_cons (fun hv => absurd hv (by decide))
    (all_cons (fun hv => absurd hv (by decide))
    (all_cons (fun hv => absurd hv (by decide))
    (all_cons (fun hv => absurd hv (by decide))
    (all_cons (fun hv => absurd hv (by decide))
    (all_cons (fun hv => absurd hv (by decide))
    (all_cons (fun hv => absurd hv (by decide))
    (all_cons (fun _ c h => by cases h; exact obeys_liveimgLines_0 _ rfl)
    (all_cons (fun _ c h => by cases h; exact obeys_liveimgLines_0 _ rfl) (List.forall_mem_nil _)))))))))))))))))))))))))))))))))))))))

def obeys_mediacheckLines_0_object (_ : Nat) : Ns := [(c!"mediacheck", .bool true)]

theorem obeys_mediacheckLines_0_base (n : Str) : Command.FirstBase (FC4_MediaCheck.cls) n [] obeys_mediacheckLines_0_object := by
  intro b b' hb hb' line l; kernel_rfl

theorem obeys_mediacheckLines_0_start : Command.FirstStart (FC4_MediaCheck.cls) obeys_mediacheckLines_0_object (mediacheckLines.start.getD 0 ([], [])).2 := fun _ => .inr ⟨fun _ => rfl, by kernel_rfl⟩

theorem obeys_mediacheckLines_0_lines (n : Str) : ∀ i ∈ [0], Command.FirstLine (FC4_MediaCheck.cls) n [] obeys_mediacheckLines_0_object (mediacheckLines.lines.getD i noLine) :=
  (all_cons (by intro b b' hb hb' x hx line l; kernel_rfl)
    (List.forall_mem_nil _))

theorem obeys_mediacheckLines_0 : ∀ v, [Version.FC4, Version.FC5, Version.FC6, Version.RHEL5, Version.F7, Version.F8, Version.F9, Version.F10, Version.F11, Version.F12, Version.F13, Version.RHEL6, Version.F14, Version.F15, Version.F16, Version.F17, Version.F18, Version.F19, Version.F20, Version.F21, Version.RHEL7, Version.F22, Version.F23, Version.F24, Version.F25, Version.F26, Version.F27, Version.F28, Version.RHEL8, Version.F29, Version.F30, Version.F31, Version.F32, Version.F33, Version.F34].contains v = true → Command.Obeys (FC4_MediaCheck.cls) mediacheckLines v :=
  obeys_of obeys_mediacheckLines_0_object [0] [0] (obeys_mediacheckLines_0_base _) (all_cons obeys_mediacheckLines_0_start (List.forall_mem_nil _)) (obeys_mediacheckLines_0_lines _) (by decide +kernel)

theorem obeys_mediacheckLines : mediacheckLines.Obeyed := by
  unfold CommandLines.Obeyed commandMaps
  exact (all_cons (fun _ c h => by cases h; exact obeys_mediacheckLines_0 _ rfl)
    (all_cons (fun _ c h => by cases h; exact obeys_mediacheckLines_0 _ rfl)
    (all_cons (fun _ c h => by cases h; exact obeys_mediacheckLines_0 _ rfl)
    (all_cons (fun _ c h => by cases h; exact obeys_mediacheckLines_0 _ rfl)
    (all_cons (fun _ c h => by cases h; exact obeys_mediacheckLines_0 _ rfl)
    (all_cons (fun _ c h => by cases h; exact obeys_mediacheckLines_0 _ rfl)
    (all_cons (fun _ c h => by cases h; exact obeys_mediacheckLines_0 _ rfl)
    (all_cons (fun _ c h => by cases h; exact obeys_mediacheckLines_0 _ rfl)
    (all_cons (fun _ c h => by cases h; exact obeys_mediacheckLines_0 _ rfl)
    (all_cons (fun _ c h => by cases h; exact obeys_mediacheckLines_0 _ rfl)
    (all_cons (fun _ c h => by cases h; exact obeys_mediacheckLines_0 _ rfl)
    (all_cons (fun _ c h => by cases h; exact obeys_mediacheckLines_0 _ rfl)
    (all_cons (fun _ c h => by cases h; exact obeys_mediacheckLines_0 _ rfl)
    (all_cons (fun _ c h => by cases h; exact obeys_mediacheckLines_0 _ rfl)
    (all_cons (fun _ c h => by cases h; exact obeys_mediacheckLines_0 _ rfl)
    (all_cons (fun _ c h => by cases h; exact obeys_mediacheckLines_0 _ rfl)
    (all_cons (fun _ c h => by cases h; exact obeys_mediacheckLines_0 _ rfl)
    (all_cons (fun _ c h => by cases h; exact obeys_mediacheckLines_0 _ rfl)
    (all_cons (fun _ c h => by cases h; exact obeys_mediacheckLines_0 _ rfl)
    (all_cons (fun _ c h => by cases h; exact obeys_mediacheckLines_0 _ rfl)
    (all_cons (fun _ c h => by cases h; exact obeys_mediacheckLines_0 _ rfl)
    (all_cons (fun _ c h => by cases h; exact obeys_mediacheckLines_0 _ rfl)
    (all_cons (fun _ c h => by cases h; exact obeys_mediacheckLines_0 _ rfl)
    (all_cons (fun _ c h => by cases h; exact obeys_mediacheckLines_0 _ rfl)
    (all_cons (fun _ c h => by cases h; exact obeys_mediacheckLines_0 _ rfl)
    (all_cons (fun _ c h => by cases h; exact obeys_mediacheckLines_0 _ rfl)
    (all_cons (fun _ c h => by cases h; exact obeys_mediacheckLines_0 _ rfl)
    (all_cons (fun _ c h => by cases h; exact obeys_mediacheckLines_0 _ rfl)
    (all_cons (fun hv => absurd hv (by decide))
    (all_cons (fun _ c h => by cases h; exact obeys_mediacheckLines_0 _ rfl)
    (all_cons (fun _ c h => by cases h; exact obeys_mediacheckLines_0 _ rfl)
    (all_cons (fun _ c h => by cases h; exact obeys_mediacheckLines_0 _ rfl)
    (all_cons (fun hv => absurd hv (by decide))
    (all_cons (fun hv => absurd hv (by decide))
    (all_cons (fun _ c h => by cases h; exact obeys_mediacheckLines_0 _ rfl)
    (all_cons (fun _ c h => by cases h; exact obeys_mediacheckLines_0 _ rfl)
    (all_cons (fun _ c h => by cases h; exact obeys_mediacheckLines_0 _ rfl)
    (all_cons (fun _ c h => by cases h; exact obeys_mediacheckLines_0 _ rfl) (List.forall_mem_nil _)))))))))))))))))))))))))))))))))))))))

def obeys_mountLines_0_object (l : Nat) : Ns := [(c!"lineno", .int l), (c!"mount_point", .str c!"/x"), (c!"device", .str c!"a"), (c!"format", .str c!""), (c!"reformat", .bool false), (c!"mkfs_opts", .str c!""), (c!"mount_opts", .str c!""), (c!"mntpoint", .list [c!"/x"])]

theorem obeys_mountLines_0_base (n : Str) : Command.FirstBase (F27_Mount.cls F27_MountData.cls) n [c!"a", c!"/x"] obeys_mountLines_0_object := by
  intro b b' hb hb' line l; rcases hb with rfl | rfl <;> rcases hb' with rfl | rfl <;> kernel_rfl

theorem obeys_mountLines_0_start : Command.FirstStart (F27_Mount.cls F27_MountData.cls) obeys_mountLines_0_object (mountLines.start.getD 0 ([], [])).2 := fun _ => .inl ⟨fun _ => rfl, (all_cons (by kernel_rfl) (all_cons (by kernel_rfl) (all_cons (by kernel_rfl) (List.forall_mem_nil _))))⟩

theorem obeys_mountLines_0_lines (n : Str) : ∀ i ∈ [0, 1, 2], Command.FirstLine (F27_Mount.cls F27_MountData.cls) n [c!"a", c!"/x"] obeys_mountLines_0_object (mountLines.lines.getD i noLine) :=
  (all_cons (by intro b b' hb hb' x hx line l; (cases x with | nil => exact absurd rfl hx | cons a x => rcases hb with rfl | rfl <;> rcases hb' with rfl | rfl <;> kernel_rfl))
    (all_cons (by intro b b' hb hb' x hx line l; (cases x with | nil => exact absurd rfl hx | cons a x => rcases hb with rfl | rfl <;> rcases hb' with rfl | rfl <;> kernel_rfl))
    (all_cons (by intro b b' hb hb' x hx line l; (cases x with | nil => exact absurd rfl hx | cons a x => rcases hb with rfl | rfl <;> rcases hb' with rfl | rfl <;> kernel_rfl))
    (List.forall_mem_nil _))))

theorem obeys_mountLines_0 : ∀ v, [Version.F27, Version.F28, Version.RHEL8, Version.F29, Version.F30, Version.F31, Version.F32, Version.F33, Version.F34].contains v = true → Command.Obeys (F27_Mount.cls F27_MountData.cls) mountLines v :=
  obeys_of obeys_mountLines_0_object [0] [0, 1, 2] (obeys_mountLines_0_base _) (all_cons obeys_mountLines_0_start (List.forall_mem_nil _)) (obeys_mountLines_0_lines _) (by decide +kernel)

theorem obeys_mountLines : mountLines.Obeyed := by
  unfold CommandLines.Obeyed commandMaps
  exact (all_cons (fun hv => absurd hv (by decide))
    (all_cons (fun hv => absurd hv (by decide))
    (all_cons (fun hv => absurd hv (by decide))
    (all_cons (fun hv => absurd hv (by decide))
    (all_cons (fun hv => absurd hv (by decide))
    (all_cons (fun hv => absurd hv (by decide))
    (all_cons (fun hv => absurd hv (by decide))
    (all_cons (fun hv => absurd hv (by decide))
    (all_cons (fun hv => absurd hv (by decide))
    (all_cons (fun hv => absurd hv (by decide))
    (all_cons (fun hv => absurd hv (by decide))
    (all_cons (fun hv => absurd hv (by decide))
    (all_cons (fun hv => absurd hv (by decide))
    (all_cons (fun hv => absurd hv (by decide))
    (all_cons (fun hv => absurd hv (by decide))
    (all_cons (fun hv => absurd hv (by decide))
    (all_cons (fun hv => absurd hv (by decide))
    (all_cons (fun _ c h => by cases h; exact obeys_mountLines_0 _ rfl)
    (all_cons (fun _ c h => by cases h; exact obeys_mountLines_0 _ rfl)
    (all_cons (fun _ c h => by cases h; exact obeys_mountLines_0 _ rfl)
    (all_cons (fun _ c h => by cases h; exact obeys_mountLines_0 _ rfl)
    (all_cons (fun _ c h => by cases h; exact obeys_mountLines_0 _ rfl)
    (all_cons (fun _ c h => by cases h; exact obeys_mountLines_0 _ rfl)
    (all_cons (fun _ c h => by cases h; exact obeys_mountLines_0 _ rfl)
    (all_cons (fun _ c h => by cases h; exact obeys_mountLines_0 _ rfl)
    (all_cons (fun hv => absurd hv (by decide))
    (all_cons (fun hv => absurd hv (by decide))
    (all_cons (fun hv => absurd hv (by decide))
    (all_cons (fun hv => absurd hv (by decide))
    (all_cons (fun hv => absurd hv (by decide))
    (all_cons (fun hv => absurd hv (by decide))
    (all_cons (fun hv => absurd hv (by decide))
    (all_cons (fun hv => absurd hv (by decide))
    (all_cons (fun hv => absurd hv (by decide))
    (all_cons (fun hv => absurd hv (by decide))
    (all_cons (fun hv => absurd hv (by decide))
    (all_cons (fun hv => absurd hv (by decide))
    (all_cons (fun _ c h => by cases h; exact obeys_mountLines_0 _ rfl) (List.forall_mem_nil _)))))))))))))))))))))))))))))))))))))))

def obeys_mountLines2_0_object (l : Nat) : Ns := [(c!"lineno", .int l), (c!"mount_point", .str c!"/x"), (c!"device", .str c!"a"), (c!"format", .str c!"ext4"), (c!"reformat", .bool true), (c!"mkfs_opts", .str c!""), (c!"mount_opts", .str c!""), (c!"mntpoint", .list [c!"/x"])]

theorem obeys_mountLines2_0_base (n : Str) : Command.FirstBase (F27_Mount.cls F27_MountData.cls) n [c!"a", c!"/x", c!"--reformat=ext4"] obeys_mountLines2_0_object := by
  intro b b' hb hb' line l; rcases hb with rfl | rfl <;> rcases hb' with rfl | rfl <;> kernel_rfl

theorem obeys_mountLines2_0_start : Command.FirstStart (F27_Mount.cls F27_MountData.cls) obeys_mountLines2_0_object (mountLines2.start.getD 0 ([], [])).2 := fun _ => .inl ⟨fun _ => rfl, (all_cons (by kernel_rfl) (all_cons (by kernel_rfl) (all_cons (by kernel_rfl) (all_cons (by kernel_rfl) (all_cons (by kernel_rfl) (List.forall_mem_nil _))))))⟩

theorem obeys_mountLines2_0_lines (n : Str) : ∀ i ∈ [0], Command.FirstLine (F27_Mount.cls F27_MountData.cls) n [c!"a", c!"/x", c!"--reformat=ext4"] obeys_mountLines2_0_object (mountLines2.lines.getD i noLine) :=
  (all_cons (by intro b b' hb hb' x hx line l; (cases x with | nil => exact absurd rfl hx | cons a x => rcases hb with rfl | rfl <;> rcases hb' with rfl | rfl <;> kernel_rfl))
    (List.forall_mem_nil _))

theorem obeys_mountLines2_0 : ∀ v, [Version.F27, Version.F28, Version.RHEL8, Version.F29, Version.F30, Version.F31, Version.F32, Version.F33, Version.F34].contains v = true → Command.Obeys (F27_Mount.cls F27_MountData.cls) mountLines2 v :=
  obeys_of obeys_mountLines2_0_object [0] [0] (obeys_mountLines2_0_base _) (all_cons obeys_mountLines2_0_start (List.forall_mem_nil _)) (obeys_mountLines2_0_lines _) (by decide +kernel)

theorem obeys_mountLines2 : mountLines2.Obeyed := by
  unfold CommandLines.Obeyed commandMaps
  exact (all_cons (fun hv => absurd hv (by decide))
    (all_cons (fun hv => absurd hv (by decide))
    (all_cons (fun hv => absurd hv (by decide))
    (all_cons (fun hv => absurd hv (by decide))
    (all_cons (fun hv => absurd hv (by decide))
    (all_cons (fun hv => absurd hv (by decide))
    (all_cons (fun hv => absurd hv (by decide))
    (all_cons (fun hv => absurd hv (by decide))
    (all_cons (fun hv => absurd hv (by decide))
    (all_cons (fun hv => absurd hv (by decide))
    (all_cons (fun hv => absurd hv (by decide))
    (all_cons (fun hv => absurd hv (by decide))
    (all_cons (fun hv => absurd hv (by decide))
    (all_cons (fun hv => absurd hv (by decide))
    (all_cons (fun hv => absurd hv (by decide))
    (all_cons (fun hv => absurd hv (by decide))
    (all_cons (fun hv => absurd hv (by decide))
    (all_cons (fun _ c h => by cases h; exact obeys_mountLines2_0 _ rfl)
    (all_cons (fun _ c h => by cases h; exact obeys_mountLines2_0 _ rfl)
    (all_cons (fun _ c h => by cases h; exact obeys_mountLines2_0 _ rfl)
    (all_cons (fun _ c h => by cases h; exact obeys_mountLines2_0 _ rfl)
    (all_cons (fun _ c h => by cases h; exact obeys_mountLines2_0 _ rfl)
    (all_cons (fun _ c h => by cases h; exact obeys_mountLines2_0 _ rfl)
    (all_cons (fun _ c h => by cases h; exact obeys_mountLines2_0 _ rfl)
    (all_cons (fun _ c h => by cases h; exact obeys_mountLines2_0 _ rfl)
    (all_cons (fun hv => absurd hv (by decide))
    (all_cons (fun hv => absurd hv (by decide))
    (all_cons (fun hv => absurd hv (by decide))
    (all_cons (fun hv => absurd hv (by decide))
    (all_cons (fun hv => absurd hv (by decide))
    (all_cons (fun hv => absurd hv (by decide))
    (all_cons (fun hv => absurd hv (by decide))
    (all_cons (fun hv => absurd hv (by decide))
    (all_cons (fun hv => absurd hv (by decide))
    (all_cons (fun hv => absurd hv (by decide))
    (all_cons (fun hv => absurd hv (by decide))
    (all_cons (fun hv => absurd hv (by decide))
    (all_cons (fun _ c h => by cases h; exact obeys_mountLines2_0 _ rfl) (List.forall_mem_nil _)))))))))))))))))))))))))))))))))))))))

def obeys_poweroffLines_0_object (_ : Nat) : Ns := [(c!"action", .int 2), (c!"eject", .bool false)]

theorem obeys_poweroffLines_0_base : Command.FirstBase (FC6_Reboot.cls) c!"poweroff" [] obeys_poweroffLines_0_object := by
  intro b b' hb hb' line l; kernel_rfl

theorem obeys_poweroffLines_0_start : Command.FirstStart (FC6_Reboot.cls) obeys_poweroffLines_0_object (poweroffLines.start.getD 0 ([], [])).2 := fun _ => .inr ⟨fun _ => rfl, by kernel_rfl⟩

theorem obeys_poweroffLines_0_lines : ∀ i ∈ [0, 2], Command.FirstLine (FC6_Reboot.cls) c!"poweroff" [] obeys_poweroffLines_0_object (poweroffLines.lines.getD i noLine) :=
  (all_cons (by intro b b' hb hb' x hx line l; kernel_rfl)
    (all_cons (by intro b b' hb hb' x hx line l; kernel_rfl)
    (List.forall_mem_nil _)))

theorem obeys_poweroffLines_0 : ∀ v, [Version.FC6, Version.RHEL5, Version.F7, Version.F8, Version.F9, Version.F10, Version.F11, Version.F12, Version.F13, Version.RHEL6, Version.F14, Version.F15, Version.F16, Version.F17].contains v = true → Command.Obeys (FC6_Reboot.cls) poweroffLines v :=
  obeys_of obeys_poweroffLines_0_object [0] [0, 2] (obeys_poweroffLines_0_base) (all_cons obeys_poweroffLines_0_start (List.forall_mem_nil _)) (obeys_poweroffLines_0_lines) (by decide +kernel)

def obeys_poweroffLines_1_object (_ : Nat) : Ns := [(c!"action", .int 2), (c!"eject", .bool false)]

theorem obeys_poweroffLines_1_base : Command.FirstBase (F18_Reboot.cls) c!"poweroff" [] obeys_poweroffLines_1_object := by
  intro b b' hb hb' line l; kernel_rfl

theorem obeys_poweroffLines_1_start : Command.FirstStart (F18_Reboot.cls) obeys_poweroffLines_1_object (poweroffLines.start.getD 0 ([], [])).2 := fun _ => .inr ⟨fun _ => rfl, by kernel_rfl⟩

theorem obeys_poweroffLines_1_lines : ∀ i ∈ [0, 2], Command.FirstLine (F18_Reboot.cls) c!"poweroff" [] obeys_poweroffLines_1_object (poweroffLines.lines.getD i noLine) :=
  (all_cons (by intro b b' hb hb' x hx line l; kernel_rfl)
    (all_cons (by intro b b' hb hb' x hx line l; kernel_rfl)
    (List.forall_mem_nil _)))

theorem obeys_poweroffLines_1 : ∀ v, [Version.F18, Version.F19, Version.F20, Version.F21, Version.RHEL7, Version.F22].contains v = true → Command.Obeys (F18_Reboot.cls) poweroffLines v :=
  obeys_of obeys_poweroffLines_1_object [0] [0, 2] (obeys_poweroffLines_1_base) (all_cons obeys_poweroffLines_1_start (List.forall_mem_nil _)) (obeys_poweroffLines_1_lines) (by decide +kernel)

def obeys_poweroffLines_2_object (_ : Nat) : Ns := [(c!"action", .int 2), (c!"eject", .bool false), (c!"kexec", .bool false)]

theorem obeys_poweroffLines_2_base : Command.FirstBase (F23_Reboot.cls) c!"poweroff" [] obeys_poweroffLines_2_object := by
  intro b b' hb hb' line l; kernel_rfl

theorem obeys_poweroffLines_2_start : Command.FirstStart (F23_Reboot.cls) obeys_poweroffLines_2_object (poweroffLines.start.getD 0 ([], [])).2 := fun _ => .inr ⟨fun _ => rfl, by kernel_rfl⟩

theorem obeys_poweroffLines_2_lines : ∀ i ∈ [0, 3], Command.FirstLine (F23_Reboot.cls) c!"poweroff" [] obeys_poweroffLines_2_object (poweroffLines.lines.getD i noLine) :=
  (all_cons (by intro b b' hb hb' x hx line l; kernel_rfl)
    (all_cons (by intro b b' hb hb' x hx line l; kernel_rfl)
    (List.forall_mem_nil _)))

theorem obeys_poweroffLines_2 : ∀ v, [Version.F23, Version.F24, Version.F25, Version.F26, Version.F27, Version.F28, Version.RHEL8, Version.F29, Version.F30, Version.F31, Version.F32, Version.F33, Version.F34].contains v = true → Command.Obeys (F23_Reboot.cls) poweroffLines v :=
  obeys_of obeys_poweroffLines_2_object [0] [0, 3] (obeys_poweroffLines_2_base) (all_cons obeys_poweroffLines_2_start (List.forall_mem_nil _)) (obeys_poweroffLines_2_lines) (by decide +kernel)

def obeys_poweroffLines_3_object (_ : Nat) : Ns := [(c!"action", .int 2)]

theorem obeys_poweroffLines_3_base : Command.FirstBase (FC3_Reboot.cls) c!"poweroff" [] obeys_poweroffLines_3_object := by
  intro b b' hb hb' line l; kernel_rfl

theorem obeys_poweroffLines_3_start : Command.FirstStart (FC3_Reboot.cls) obeys_poweroffLines_3_object (poweroffLines.start.getD 0 ([], [])).2 := fun _ => .inr ⟨fun _ => rfl, by kernel_rfl⟩

theorem obeys_poweroffLines_3_lines : ∀ i ∈ [1, 4], Command.FirstLine (FC3_Reboot.cls) c!"poweroff" [] obeys_poweroffLines_3_object (poweroffLines.lines.getD i noLine) :=
  (all_cons (by intro b b' hb hb' x hx line l; kernel_rfl)
    (all_cons (by intro b b' hb hb' x hx line l; kernel_rfl)
    (List.forall_mem_nil _)))

theorem obeys_poweroffLines_3 : ∀ v, [Version.RHEL3, Version.FC3, Version.RHEL4, Version.FC4, Version.FC5].contains v = true → Command.Obeys (FC3_Reboot.cls) poweroffLines v :=
  obeys_of obeys_poweroffLines_3_object [0] [1, 4] (obeys_poweroffLines_3_base) (all_cons obeys_poweroffLines_3_start (List.forall_mem_nil _)) (obeys_poweroffLines_3_lines) (by decide +kernel)

theorem obeys_poweroffLines : poweroffLines.Obeyed := by
  unfold CommandLines.Obeyed commandMaps
  exact (all_cons (fun _ c h => by cases h; exact obeys_poweroffLines_0 _ rfl)
    (all_cons (fun _ c h => by cases h; exact obeys_poweroffLines_0 _ rfl)
    (all_cons (fun _ c h => by cases h; exact obeys_poweroffLines_0 _ rfl)
    (all_cons (fun _ c h => by cases h; exact obeys_poweroffLines_0 _ rfl)
    (all_cons (fun _ c h => by cases h; exact obeys_poweroffLines_0 _ rfl)
    (all_cons (fun _ c h => by cases h; exact obeys_poweroffLines_0 _ rfl)
    (all_cons (fun _ c h => by cases h; exact obeys_poweroffLines_0 _ rfl)
    (all_cons (fun _ c h => by cases h; exact obeys_poweroffLines_0 _ rfl)
    (all_cons (fun _ c h => by cases h; exact obeys_poweroffLines_1 _ rfl)
    (all_cons (fun _ c h => by cases h; exact obeys_poweroffLines_1 _ rfl)
    (all_cons (fun _ c h => by cases h; exact obeys_poweroffLines_1 _ rfl)
    (all_cons (fun _ c h => by cases h; exact obeys_poweroffLines_1 _ rfl)
    (all_cons (fun _ c h => by cases h; exact obeys_poweroffLines_1 _ rfl)
    (all_cons (fun _ c h => by cases h; exact obeys_poweroffLines_2 _ rfl)
    (all_cons (fun _ c h => by cases h; exact obeys_poweroffLines_2 _ rfl)
    (all_cons (fun _ c h => by cases h; exact obeys_poweroffLines_2 _ rfl)
    (all_cons (fun _ c h => by cases h; exact obeys_poweroffLines_2 _ rfl)
    (all_cons (fun _ c h => by cases h; exact obeys_poweroffLines_2 _ rfl)
    (all_cons (fun _ c h => by cases h; exact obeys_poweroffLines_2 _ rfl)
    (all_cons (fun _ c h => by cases h; exact obeys_poweroffLines_2 _ rfl)
    (all_cons (fun _ c h => by cases h; exact obeys_poweroffLines_2 _ rfl)
    (all_cons (fun _ c h => by cases h; exact obeys_poweroffLines_2 _ rfl)
    (all_cons (fun _ c h => by cases h; exact obeys_poweroffLines_2 _ rfl)
    (all_cons (fun _ c h => by cases h; exact obeys_poweroffLines_2 _ rfl)
    (all_cons (fun _ c h => by cases h; exact obeys_poweroffLines_2 _ rfl)
    (all_cons (fun _ c h => by cases h; exact obeys_poweroffLines_0 _ rfl)
    (all_cons (fun _ c h => by cases h; exact obeys_poweroffLines_0 _ rfl)
    (all_cons (fun _ c h => by cases h; exact obeys_poweroffLines_0 _ rfl)
    (all_cons (fun _ c h => by cases h; exact obeys_poweroffLines_3 _ rfl)
    (all_cons (fun _ c h => by cases h; exact obeys_poweroffLines_3 _ rfl)
    (all_cons (fun _ c h => by cases h; exact obeys_poweroffLines_3 _ rfl)
    (all_cons (fun _ c h => by cases h; exact obeys_poweroffLines_0 _ rfl)
    (all_cons (fun _ c h => by cases h; exact obeys_poweroffLines_3 _ rfl)
    (all_cons (fun _ c h => by cases h; exact obeys_poweroffLines_3 _ rfl)
    (all_cons (fun _ c h => by cases h; exact obeys_poweroffLines_0 _ rfl)
    (all_cons (fun _ c h => by cases h; exact obeys_poweroffLines_0 _ rfl)
    (all_cons (fun _ c h => by cases h; exact obeys_poweroffLines_1 _ rfl)
    (all_cons (fun _ c h => by cases h; exact obeys_poweroffLines_2 _ rfl) (List.forall_mem_nil _)))))))))))))))))))))))))))))))))))))))

def obeys_urlLines_0_object (_ : Nat) : Ns := [(c!"url", .str c!"U")]

theorem obeys_urlLines_0_base (n : Str) : Command.FirstBase (FC3_Url.cls) n [c!"--url=U"] obeys_urlLines_0_object := by
  intro b b' hb hb' line l; kernel_rfl

theorem obeys_urlLines_0_start : Command.FirstStart (FC3_Url.cls) obeys_urlLines_0_object (urlLines.start.getD 0 ([], [])).2 := fun _ => .inr ⟨fun _ => rfl, by kernel_rfl⟩

theorem obeys_urlLines_0_lines (n : Str) : ∀ i ∈ [0, 1, 5, 6], Command.FirstLine (FC3_Url.cls) n [c!"--url=U"] obeys_urlLines_0_object (urlLines.lines.getD i noLine) :=
  (all_cons (by intro b b' hb hb' x hx line l; (cases x with | nil => exact absurd rfl hx | cons a x => kernel_rfl))
    (all_cons (by intro b b' hb hb' x hx line l; (cases x with | nil => exact absurd rfl hx | cons a x => kernel_rfl))
    (all_cons (by intro b b' hb hb' x hx line l; (cases x with | nil => exact absurd rfl hx | cons a x => kernel_rfl))
    (all_cons (by intro b b' hb hb' x hx line l; (cases x with | nil => exact absurd rfl hx | cons a x => kernel_rfl))
    (List.forall_mem_nil _)))))

theorem obeys_urlLines_0 : ∀ v, [Version.RHEL3, Version.FC3, Version.RHEL4, Version.FC4, Version.FC5, Version.FC6, Version.RHEL5, Version.F7, Version.F8, Version.F9, Version.F10, Version.F11, Version.F12].contains v = true → Command.Obeys (FC3_Url.cls) urlLines v :=
  obeys_of obeys_urlLines_0_object [0] [0, 1, 5, 6] (obeys_urlLines_0_base _) (all_cons obeys_urlLines_0_start (List.forall_mem_nil _)) (obeys_urlLines_0_lines _) (by decide +kernel)

def obeys_urlLines_1_object (_ : Nat) : Ns := [(c!"url", .str c!"U"), (c!"proxy", .str c!"")]

theorem obeys_urlLines_1_base (n : Str) : Command.FirstBase (F13_Url.cls) n [c!"--url=U"] obeys_urlLines_1_object := by
  intro b b' hb hb' line l; kernel_rfl

theorem obeys_urlLines_1_start : Command.FirstStart (F13_Url.cls) obeys_urlLines_1_object (urlLines.start.getD 0 ([], [])).2 := fun _ => .inr ⟨fun _ => rfl, by kernel_rfl⟩

theorem obeys_urlLines_1_lines (n : Str) : ∀ i ∈ [0, 2, 3, 5, 6], Command.FirstLine (F13_Url.cls) n [c!"--url=U"] obeys_urlLines_1_object (urlLines.lines.getD i noLine) :=
  (all_cons (by intro b b' hb hb' x hx line l; (cases x with | nil => exact absurd rfl hx | cons a x => kernel_rfl))
    (all_cons (by intro b b' hb hb' x hx line l; (cases x with | nil => exact absurd rfl hx | cons a x => kernel_rfl))
    (all_cons (by intro b b' hb hb' x hx line l; kernel_rfl)
    (all_cons (by intro b b' hb hb' x hx line l; (cases x with | nil => exact absurd rfl hx | cons a x => kernel_rfl))
    (all_cons (by intro b b' hb hb' x hx line l; (cases x with | nil => exact absurd rfl hx | cons a x => kernel_rfl))
    (List.forall_mem_nil _))))))

theorem obeys_urlLines_1 : ∀ v, [Version.F13].contains v = true → Command.Obeys (F13_Url.cls) urlLines v :=
  obeys_of obeys_urlLines_1_object [0] [0, 2, 3, 5, 6] (obeys_urlLines_1_base _) (all_cons obeys_urlLines_1_start (List.forall_mem_nil _)) (obeys_urlLines_1_lines _) (by decide +kernel)

def obeys_urlLines_2_object (_ : Nat) : Ns := [(c!"url", .str c!"U"), (c!"proxy", .str c!""), (c!"noverifyssl", .bool false)]

theorem obeys_urlLines_2_base (n : Str) : Command.FirstBase (F14_Url.cls) n [c!"--url=U"] obeys_urlLines_2_object := by
  intro b b' hb hb' line l; kernel_rfl

theorem obeys_urlLines_2_start : Command.FirstStart (F14_Url.cls) obeys_urlLines_2_object (urlLines.start.getD 0 ([], [])).2 := fun _ => .inr ⟨fun _ => rfl, by kernel_rfl⟩

theorem obeys_urlLines_2_lines (n : Str) : ∀ i ∈ [0, 2, 4, 5, 6], Command.FirstLine (F14_Url.cls) n [c!"--url=U"] obeys_urlLines_2_object (urlLines.lines.getD i noLine) :=
  (all_cons (by intro b b' hb hb' x hx line l; (cases x with | nil => exact absurd rfl hx | cons a x => kernel_rfl))
    (all_cons (by intro b b' hb hb' x hx line l; (cases x with | nil => exact absurd rfl hx | cons a x => kernel_rfl))
    (all_cons (by intro b b' hb hb' x hx line l; kernel_rfl)
    (all_cons (by intro b b' hb hb' x hx line l; (cases x with | nil => exact absurd rfl hx | cons a x => kernel_rfl))
    (all_cons (by intro b b' hb hb' x hx line l; (cases x with | nil => exact absurd rfl hx | cons a x => kernel_rfl))
    (List.forall_mem_nil _))))))

theorem obeys_urlLines_2 : ∀ v, [Version.F14, Version.F15, Version.F16, Version.F17].contains v = true → Command.Obeys (F14_Url.cls) urlLines v :=
  obeys_of obeys_urlLines_2_object [0] [0, 2, 4, 5, 6] (obeys_urlLines_2_base _) (all_cons obeys_urlLines_2_start (List.forall_mem_nil _)) (obeys_urlLines_2_lines _) (by decide +kernel)

def obeys_urlLines_3_object (_ : Nat) : Ns := [(c!"url", .str c!"U"), (c!"proxy", .str c!""), (c!"noverifyssl", .bool false), (c!"mirrorlist", .none)]

theorem obeys_urlLines_3_base (n : Str) : Command.FirstBase (F18_Url.cls) n [c!"--url=U"] obeys_urlLines_3_object := by
  intro b b' hb hb' line l; kernel_rfl

theorem obeys_urlLines_3_start : Command.FirstStart (F18_Url.cls) obeys_urlLines_3_object (urlLines.start.getD 0 ([], [])).2 := fun _ => .inr ⟨fun _ => rfl, by kernel_rfl⟩

theorem obeys_urlLines_3_lines (n : Str) : ∀ i ∈ [0, 2, 4, 5, 6], Command.FirstLine (F18_Url.cls) n [c!"--url=U"] obeys_urlLines_3_object (urlLines.lines.getD i noLine) :=
  (all_cons (by intro b b' hb hb' x hx line l; (cases x with | nil => exact absurd rfl hx | cons a x => kernel_rfl))
    (all_cons (by intro b b' hb hb' x hx line l; (cases x with | nil => exact absurd rfl hx | cons a x => kernel_rfl))
    (all_cons (by intro b b' hb hb' x hx line l; kernel_rfl)
    (all_cons (by intro b b' hb hb' x hx line l; (cases x with | nil => exact absurd rfl hx | cons a x => kernel_rfl))
    (all_cons (by intro b b' hb hb' x hx line l; (cases x with | nil => exact absurd rfl hx | cons a x => kernel_rfl))
    (List.forall_mem_nil _))))))

theorem obeys_urlLines_3 : ∀ v, [Version.F18, Version.F19, Version.F20, Version.F21, Version.RHEL7, Version.F22, Version.F23, Version.F24, Version.F25, Version.F26].contains v = true → Command.Obeys (F18_Url.cls) urlLines v :=
  obeys_of obeys_urlLines_3_object [0] [0, 2, 4, 5, 6] (obeys_urlLines_3_base _) (all_cons obeys_urlLines_3_start (List.forall_mem_nil _)) (obeys_urlLines_3_lines _) (by decide +kernel)

def obeys_urlLines_4_object (_ : Nat) : Ns := [(c!"url", .str c!"U"), (c!"proxy", .str c!""), (c!"noverifyssl", .bool false), (c!"mirrorlist", .none), (c!"metalink", .none)]

theorem obeys_urlLines_4_base (n : Str) : Command.FirstBase (F27_Url.cls) n [c!"--url=U"] obeys_urlLines_4_object := by
  intro b b' hb hb' line l; kernel_rfl

theorem obeys_urlLines_4_start : Command.FirstStart (F27_Url.cls) obeys_urlLines_4_object (urlLines.start.getD 0 ([], [])).2 := fun _ => .inr ⟨fun _ => rfl, by kernel_rfl⟩

theorem obeys_urlLines_4_lines (n : Str) : ∀ i ∈ [0, 2, 4, 5, 6, 7, 9, 11], Command.FirstLine (F27_Url.cls) n [c!"--url=U"] obeys_urlLines_4_object (urlLines.lines.getD i noLine) :=
  (all_cons (by intro b b' hb hb' x hx line l; (cases x with | nil => exact absurd rfl hx | cons a x => kernel_rfl))
    (all_cons (by intro b b' hb hb' x hx line l; (cases x with | nil => exact absurd rfl hx | cons a x => kernel_rfl))
    (all_cons (by intro b b' hb hb' x hx line l; kernel_rfl)
    (all_cons (by intro b b' hb hb' x hx line l; (cases x with | nil => exact absurd rfl hx | cons a x => kernel_rfl))
    (all_cons (by intro b b' hb hb' x hx line l; (cases x with | nil => exact absurd rfl hx | cons a x => kernel_rfl))
    (all_cons (by intro b b' hb hb' x hx line l; (cases x with | nil => exact absurd rfl hx | cons a x => kernel_rfl))
    (all_cons (by intro b b' hb hb' x hx line l; (cases x with | nil => exact absurd rfl hx | cons a x => kernel_rfl))
    (all_cons (by intro b b' hb hb' x hx line l; (cases x with | nil => exact absurd rfl hx | cons a x => kernel_rfl))
    (List.forall_mem_nil _)))))))))

theorem obeys_urlLines_4 : ∀ v, [Version.F27, Version.F28, Version.F29].contains v = true → Command.Obeys (F27_Url.cls) urlLines v :=
  obeys_of obeys_urlLines_4_object [0] [0, 2, 4, 5, 6, 7, 9, 11] (obeys_urlLines_4_base _) (all_cons obeys_urlLines_4_start (List.forall_mem_nil _)) (obeys_urlLines_4_lines _) (by decide +kernel)

def obeys_urlLines_5_object (_ : Nat) : Ns := [(c!"url", .str c!"U"), (c!"proxy", .str c!""), (c!"noverifyssl", .bool false), (c!"mirrorlist", .none), (c!"metalink", .none), (c!"sslcacert", .none), (c!"sslclientcert", .none), (c!"sslclientkey", .none)]

theorem obeys_urlLines_5_base (n : Str) : Command.FirstBase (F30_Url.cls) n [c!"--url=U"] obeys_urlLines_5_object := by
  intro b b' hb hb' line l; kernel_rfl

theorem obeys_urlLines_5_start : Command.FirstStart (F30_Url.cls) obeys_urlLines_5_object (urlLines.start.getD 0 ([], [])).2 := fun _ => .inr ⟨fun _ => rfl, by kernel_rfl⟩

theorem obeys_urlLines_5_lines (n : Str) : ∀ i ∈ [0, 2, 4, 5, 6, 8, 10, 12], Command.FirstLine (F30_Url.cls) n [c!"--url=U"] obeys_urlLines_5_object (urlLines.lines.getD i noLine) :=
  (all_cons (by intro b b' hb hb' x hx line l; (cases x with | nil => exact absurd rfl hx | cons a x => kernel_rfl))
    (all_cons (by intro b b' hb hb' x hx line l; (cases x with | nil => exact absurd rfl hx | cons a x => kernel_rfl))
    (all_cons (by intro b b' hb hb' x hx line l; kernel_rfl)
    (all_cons (by intro b b' hb hb' x hx line l; (cases x with | nil => exact absurd rfl hx | cons a x => kernel_rfl))
    (all_cons (by intro b b' hb hb' x hx line l; (cases x with | nil => exact absurd rfl hx | cons a x => kernel_rfl))
    (all_cons (by intro b b' hb hb' x hx line l; (cases x with | nil => exact absurd rfl hx | cons a x => kernel_rfl))
    (all_cons (by intro b b' hb hb' x hx line l; (cases x with | nil => exact absurd rfl hx | cons a x => kernel_rfl))
    (all_cons (by intro b b' hb hb' x hx line l; (cases x with | nil => exact absurd rfl hx | cons a x => kernel_rfl))
    (List.forall_mem_nil _)))))))))

theorem obeys_urlLines_5 : ∀ v, [Version.F30, Version.F31, Version.F32, Version.F33, Version.F34].contains v = true → Command.Obeys (F30_Url.cls) urlLines v :=
  obeys_of obeys_urlLines_5_object [0] [0, 2, 4, 5, 6, 8, 10, 12] (obeys_urlLines_5_base _) (all_cons obeys_urlLines_5_start (List.forall_mem_nil _)) (obeys_urlLines_5_lines _) (by decide +kernel)

def obeys_urlLines_6_object (_ : Nat) : Ns := [(c!"url", .str c!"U"), (c!"proxy", .str c!""), (c!"noverifyssl", .bool false)]

theorem obeys_urlLines_6_base (n : Str) : Command.FirstBase (RHEL6_Url.cls) n [c!"--url=U"] obeys_urlLines_6_object := by
  intro b b' hb hb' line l; kernel_rfl

theorem obeys_urlLines_6_start : Command.FirstStart (RHEL6_Url.cls) obeys_urlLines_6_object (urlLines.start.getD 0 ([], [])).2 := fun _ => .inr ⟨fun _ => rfl, by kernel_rfl⟩

theorem obeys_urlLines_6_lines (n : Str) : ∀ i ∈ [0, 2, 4, 5, 6], Command.FirstLine (RHEL6_Url.cls) n [c!"--url=U"] obeys_urlLines_6_object (urlLines.lines.getD i noLine) :=
  (all_cons (by intro b b' hb hb' x hx line l; (cases x with | nil => exact absurd rfl hx | cons a x => kernel_rfl))
    (all_cons (by intro b b' hb hb' x hx line l; (cases x with | nil => exact absurd rfl hx | cons a x => kernel_rfl))
    (all_cons (by intro b b' hb hb' x hx line l; kernel_rfl)
    (all_cons (by intro b b' hb hb' x hx line l; (cases x with | nil => exact absurd rfl hx | cons a x => kernel_rfl))
    (all_cons (by intro b b' hb hb' x hx line l; (cases x with | nil => exact absurd rfl hx | cons a x => kernel_rfl))
    (List.forall_mem_nil _))))))

theorem obeys_urlLines_6 : ∀ v, [Version.RHEL6].contains v = true → Command.Obeys (RHEL6_Url.cls) urlLines v :=
  obeys_of obeys_urlLines_6_object [0] [0, 2, 4, 5, 6] (obeys_urlLines_6_base _) (all_cons obeys_urlLines_6_start (List.forall_mem_nil _)) (obeys_urlLines_6_lines _) (by decide +kernel)

def obeys_urlLines_7_object (_ : Nat) : Ns := [(c!"url", .str c!"U"), (c!"proxy", .str c!""), (c!"noverifyssl", .bool false), (c!"mirrorlist", .none), (c!"metalink", .none), (c!"sslcacert", .none), (c!"sslclientcert", .none), (c!"sslclientkey", .none)]

theorem obeys_urlLines_7_base (n : Str) : Command.FirstBase (RHEL8_Url.cls) n [c!"--url=U"] obeys_urlLines_7_object := by
  intro b b' hb hb' line l; kernel_rfl

theorem obeys_urlLines_7_start : Command.FirstStart (RHEL8_Url.cls) obeys_urlLines_7_object (urlLines.start.getD 0 ([], [])).2 := fun _ => .inr ⟨fun _ => rfl, by kernel_rfl⟩

theorem obeys_urlLines_7_lines (n : Str) : ∀ i ∈ [0, 2, 4, 5, 6, 8, 10, 12], Command.FirstLine (RHEL8_Url.cls) n [c!"--url=U"] obeys_urlLines_7_object (urlLines.lines.getD i noLine) :=
  (all_cons (by intro b b' hb hb' x hx line l; (cases x with | nil => exact absurd rfl hx | cons a x => kernel_rfl))
    (all_cons (by intro b b' hb hb' x hx line l; (cases x with | nil => exact absurd rfl hx | cons a x => kernel_rfl))
    (all_cons (by intro b b' hb hb' x hx line l; kernel_rfl)
    (all_cons (by intro b b' hb hb' x hx line l; (cases x with | nil => exact absurd rfl hx | cons a x => kernel_rfl))
    (all_cons (by intro b b' hb hb' x hx line l; (cases x with | nil => exact absurd rfl hx | cons a x => kernel_rfl))
    (all_cons (by intro b b' hb hb' x hx line l; (cases x with | nil => exact absurd rfl hx | cons a x => kernel_rfl))
    (all_cons (by intro b b' hb hb' x hx line l; (cases x with | nil => exact absurd rfl hx | cons a x => kernel_rfl))
    (all_cons (by intro b b' hb hb' x hx line l; (cases x with | nil => exact absurd rfl hx | cons a x => kernel_rfl))
    (List.forall_mem_nil _)))))))))

theorem obeys_urlLines_7 : ∀ v, [Version.RHEL8].contains v = true → Command.Obeys (RHEL8_Url.cls) urlLines v :=
  obeys_of obeys_urlLines_7_object [0] [0, 2, 4, 5, 6, 8, 10, 12] (obeys_urlLines_7_base _) (all_cons obeys_urlLines_7_start (List.forall_mem_nil _)) (obeys_urlLines_7_lines _) (by decide +kernel)

theorem obeys_urlLines : urlLines.Obeyed := by
  unfold CommandLines.Obeyed commandMaps
  exact (all_cons (fun _ c h => by cases h; exact obeys_urlLines_0 _ rfl)
    (all_cons (fun _ c h => by cases h; exact obeys_urlLines_0 _ rfl)
    (all_cons (fun _ c h => by cases h; exact obeys_urlLines_0 _ rfl)
    (all_cons (fun _ c h => by cases h; exact obeys_urlLines_1 _ rfl)
    (all_cons (fun _ c h => by cases h; exact obeys_urlLines_2 _ rfl)
    (all_cons (fun _ c h => by cases h; exact obeys_urlLines_2 _ rfl)
    (all_cons (fun _ c h => by cases h; exact obeys_urlLines_2 _ rfl)
    (all_cons (fun _ c h => by cases h; exact obeys_urlLines_2 _ rfl)
    (all_cons (fun _ c h => by cases h; exact obeys_urlLines_3 _ rfl)
    (all_cons (fun _ c h => by cases h; exact obeys_urlLines_3 _ rfl)
    (all_cons (fun _ c h => by cases h; exact obeys_urlLines_3 _ rfl)
    (all_cons (fun _ c h => by cases h; exact obeys_urlLines_3 _ rfl)
    (all_cons (fun _ c h => by cases h; exact obeys_urlLines_3 _ rfl)
    (all_cons (fun _ c h => by cases h; exact obeys_urlLines_3 _ rfl)
    (all_cons (fun _ c h => by cases h; exact obeys_urlLines_3 _ rfl)
    (all_cons (fun _ c h => by cases h; exact obeys_urlLines_3 _ rfl)
    (all_cons (fun _ c h => by cases h; exact obeys_urlLines_3 _ rfl)
    (all_cons (fun _ c h => by cases h; exact obeys_urlLines_4 _ rfl)
    (all_cons (fun _ c h => by cases h; exact obeys_urlLines_4 _ rfl)
    (all_cons (fun _ c h => by cases h; exact obeys_urlLines_4 _ rfl)
    (all_cons (fun _ c h => by cases h; exact obeys_urlLines_5 _ rfl)
    (all_cons (fun _ c h => by cases h; exact obeys_urlLines_5 _ rfl)
    (all_cons (fun _ c h => by cases h; exact obeys_urlLines_5 _ rfl)
    (all_cons (fun _ c h => by cases h; exact obeys_urlLines_5 _ rfl)
    (all_cons (fun _ c h => by cases h; exact obeys_urlLines_5 _ rfl)
    (all_cons (fun _ c h => by cases h; exact obeys_urlLines_0 _ rfl)
    (all_cons (fun _ c h => by cases h; exact obeys_urlLines_0 _ rfl)
    (all_cons (fun _ c h => by cases h; exact obeys_urlLines_0 _ rfl)
    (all_cons (fun _ c h => by cases h; exact obeys_urlLines_0 _ rfl)
    (all_cons (fun _ c h => by cases h; exact obeys_urlLines_0 _ rfl)
    (all_cons (fun _ c h => by cases h; exact obeys_urlLines_0 _ rfl)
    (all_cons (fun _ c h => by cases h; exact obeys_urlLines_0 _ rfl)
    (all_cons (fun _ c h => by cases h; exact obeys_urlLines_0 _ rfl)
    (all_cons (fun _ c h => by cases h; exact obeys_urlLines_0 _ rfl)
    (all_cons (fun _ c h => by cases h; exact obeys_urlLines_0 _ rfl)
    (all_cons (fun _ c h => by cases h; exact obeys_urlLines_6 _ rfl)
    (all_cons (fun _ c h => by cases h; exact obeys_urlLines_3 _ rfl)
    (all_cons (fun _ c h => by cases h; exact obeys_urlLines_7 _ rfl) (List.forall_mem_nil _)))))))))))))))))))))))))))))))))))))))

def obeys_urlLines2_0_object (_ : Nat) : Ns := [(c!"url", .none), (c!"proxy", .str c!""), (c!"noverifyssl", .bool false), (c!"mirrorlist", .str c!"M")]

theorem obeys_urlLines2_0_base (n : Str) : Command.FirstBase (F18_Url.cls) n [c!"--mirrorlist=M"] obeys_urlLines2_0_object := by
  intro b b' hb hb' line l; kernel_rfl

theorem obeys_urlLines2_0_start : Command.FirstStart (F18_Url.cls) obeys_urlLines2_0_object (urlLines2.start.getD 0 ([], [])).2 := fun _ => .inr ⟨fun _ => rfl, by kernel_rfl⟩

theorem obeys_urlLines2_0_lines (n : Str) : ∀ i ∈ [0, 1, 2], Command.FirstLine (F18_Url.cls) n [c!"--mirrorlist=M"] obeys_urlLines2_0_object (urlLines2.lines.getD i noLine) :=
  (all_cons (by intro b b' hb hb' x hx line l; (cases x with | nil => exact absurd rfl hx | cons a x => kernel_rfl))
    (all_cons (by intro b b' hb hb' x hx line l; (cases x with | nil => exact absurd rfl hx | cons a x => kernel_rfl))
    (all_cons (by intro b b' hb hb' x hx line l; (cases x with | nil => exact absurd rfl hx | cons a x => kernel_rfl))
    (List.forall_mem_nil _))))

theorem obeys_urlLines2_0 : ∀ v, [Version.F18, Version.F19, Version.F20, Version.F21, Version.RHEL7, Version.F22, Version.F23, Version.F24, Version.F25, Version.F26].contains v = true → Command.Obeys (F18_Url.cls) urlLines2 v :=
  obeys_of obeys_urlLines2_0_object [0] [0, 1, 2] (obeys_urlLines2_0_base _) (all_cons obeys_urlLines2_0_start (List.forall_mem_nil _)) (obeys_urlLines2_0_lines _) (by decide +kernel)

def obeys_urlLines2_1_object (_ : Nat) : Ns := [(c!"url", .none), (c!"proxy", .str c!""), (c!"noverifyssl", .bool false), (c!"mirrorlist", .str c!"M"), (c!"metalink", .none)]

theorem obeys_urlLines2_1_base (n : Str) : Command.FirstBase (F27_Url.cls) n [c!"--mirrorlist=M"] obeys_urlLines2_1_object := by
  intro b b' hb hb' line l; kernel_rfl

theorem obeys_urlLines2_1_start : Command.FirstStart (F27_Url.cls) obeys_urlLines2_1_object (urlLines2.start.getD 0 ([], [])).2 := fun _ => .inr ⟨fun _ => rfl, by kernel_rfl⟩

theorem obeys_urlLines2_1_lines (n : Str) : ∀ i ∈ [0, 1, 2], Command.FirstLine (F27_Url.cls) n [c!"--mirrorlist=M"] obeys_urlLines2_1_object (urlLines2.lines.getD i noLine) :=
  (all_cons (by intro b b' hb hb' x hx line l; (cases x with | nil => exact absurd rfl hx | cons a x => kernel_rfl))
    (all_cons (by intro b b' hb hb' x hx line l; (cases x with | nil => exact absurd rfl hx | cons a x => kernel_rfl))
    (all_cons (by intro b b' hb hb' x hx line l; (cases x with | nil => exact absurd rfl hx | cons a x => kernel_rfl))
    (List.forall_mem_nil _))))

theorem obeys_urlLines2_1 : ∀ v, [Version.F27, Version.F28, Version.F29].contains v = true → Command.Obeys (F27_Url.cls) urlLines2 v :=
  obeys_of obeys_urlLines2_1_object [0] [0, 1, 2] (obeys_urlLines2_1_base _) (all_cons obeys_urlLines2_1_start (List.forall_mem_nil _)) (obeys_urlLines2_1_lines _) (by decide +kernel)

def obeys_urlLines2_2_object (_ : Nat) : Ns := [(c!"url", .none), (c!"proxy", .str c!""), (c!"noverifyssl", .bool false), (c!"mirrorlist", .str c!"M"), (c!"metalink", .none), (c!"sslcacert", .none), (c!"sslclientcert", .none), (c!"sslclientkey", .none)]

theorem obeys_urlLines2_2_base (n : Str) : Command.FirstBase (F30_Url.cls) n [c!"--mirrorlist=M"] obeys_urlLines2_2_object := by
  intro b b' hb hb' line l; kernel_rfl

theorem obeys_urlLines2_2_start : Command.FirstStart (F30_Url.cls) obeys_urlLines2_2_object (urlLines2.start.getD 0 ([], [])).2 := fun _ => .inr ⟨fun _ => rfl, by kernel_rfl⟩

theorem obeys_urlLines2_2_lines (n : Str) : ∀ i ∈ [0, 1, 2], Command.FirstLine (F30_Url.cls) n [c!"--mirrorlist=M"] obeys_urlLines2_2_object (urlLines2.lines.getD i noLine) :=
  (all_cons (by intro b b' hb hb' x hx line l; (cases x with | nil => exact absurd rfl hx | cons a x => kernel_rfl))
    (all_cons (by intro b b' hb hb' x hx line l; (cases x with | nil => exact absurd rfl hx | cons a x => kernel_rfl))
    (all_cons (by intro b b' hb hb' x hx line l; (cases x with | nil => exact absurd rfl hx | cons a x => kernel_rfl))
    (List.forall_mem_nil _))))

theorem obeys_urlLines2_2 : ∀ v, [Version.F30, Version.F31, Version.F32, Version.F33, Version.F34].contains v = true → Command.Obeys (F30_Url.cls) urlLines2 v :=
  obeys_of obeys_urlLines2_2_object [0] [0, 1, 2] (obeys_urlLines2_2_base _) (all_cons obeys_urlLines2_2_start (List.forall_mem_nil _)) (obeys_urlLines2_2_lines _) (by decide +kernel)

def obeys_urlLines2_3_object (_ : Nat) : Ns := [(c!"url", .none), (c!"proxy", .str c!""), (c!"noverifyssl", .bool false), (c!"mirrorlist", .str c!"M"), (c!"metalink", .none), (c!"sslcacert", .none), (c!"sslclientcert", .none), (c!"sslclientkey", .none)]

theorem obeys_urlLines2_3_base (n : Str) : Command.FirstBase (RHEL8_Url.cls) n [c!"--mirrorlist=M"] obeys_urlLines2_3_object := by
  intro b b' hb hb' line l; kernel_rfl

theorem obeys_urlLines2_3_start : Command.FirstStart (RHEL8_Url.cls) obeys_urlLines2_3_object (urlLines2.start.getD 0 ([], [])).2 := fun _ => .inr ⟨fun _ => rfl, by kernel_rfl⟩

theorem obeys_urlLines2_3_lines (n : Str) : ∀ i ∈ [0, 1, 2], Command.FirstLine (RHEL8_Url.cls) n [c!"--mirrorlist=M"] obeys_urlLines2_3_object (urlLines2.lines.getD i noLine) :=
  (all_cons (by intro b b' hb hb' x hx line l; (cases x with | nil => exact absurd rfl hx | cons a x => kernel_rfl))
    (all_cons (by intro b b' hb hb' x hx line l; (cases x with | nil => exact absurd rfl hx | cons a x => kernel_rfl))
    (all_cons (by intro b b' hb hb' x hx line l; (cases x with | nil => exact absurd rfl hx | cons a x => kernel_rfl))
    (List.forall_mem_nil _))))

theorem obeys_urlLines2_3 : ∀ v, [Version.RHEL8].contains v = true → Command.Obeys (RHEL8_Url.cls) urlLines2 v :=
  obeys_of obeys_urlLines2_3_object [0] [0, 1, 2] (obeys_urlLines2_3_base _) (all_cons obeys_urlLines2_3_start (List.forall_mem_nil _)) (obeys_urlLines2_3_lines _) (by decide +kernel)

theorem obeys_urlLines2 : urlLines2.Obeyed := by
  unfold CommandLines.Obeyed commandMaps
  exact (all_cons (fun hv => absurd hv (by decide))
    (all_cons (fun hv => absurd hv (by decide))
    (all_cons (fun hv => absurd hv (by decide))
    (all_cons (fun hv => absurd hv (by decide))
    (all_cons (fun hv => absurd hv (by decide))
    (all_cons (fun hv => absurd hv (by decide))
    (all_cons (fun hv => absurd hv (by decide))
    (all_cons (fun hv => absurd hv (by decide))
    (all_cons (fun _ c h => by cases h; exact obeys_urlLines2_0 _ rfl)
    (all_cons (fun _ c h => by cases h; exact obeys_urlLines2_0 _ rfl)
    (all_cons (fun _ c h => by cases h; exact obeys_urlLines2_0 _ rfl)
    (all_cons (fun _ c h => by cases h; exact obeys_urlLines2_0 _ rfl)
    (all_cons (fun _ c h => by cases h; exact obeys_urlLines2_0 _ rfl)
    (all_cons (fun _ c h => by cases h; exact obeys_urlLines2_0 _ rfl)
    (all_cons (fun _ c h => by cases h; exact obeys_urlLines2_0 _ rfl)
    (all_cons (fun _ c h => by cases h; exact obeys_urlLines2_0 _ rfl)
    (all_cons (fun _ c h => by cases h; exact obeys_urlLines2_0 _ rfl)
    (all_cons (fun _ c h => by cases h; exact obeys_urlLines2_1 _ rfl)
    (all_cons (fun _ c h => by cases h; exact obeys_urlLines2_1 _ rfl)
    (all_cons (fun _ c h => by cases h; exact obeys_urlLines2_1 _ rfl)
    (all_cons (fun _ c h => by cases h; exact obeys_urlLines2_2 _ rfl)
    (all_cons (fun _ c h => by cases h; exact obeys_urlLines2_2 _ rfl)
    (all_cons (fun _ c h => by cases h; exact obeys_urlLines2_2 _ rfl)
    (all_cons (fun _ c h => by cases h; exact obeys_urlLines2_2 _ rfl)
    (all_cons (fun _ c h => by cases h; exact obeys_urlLines2_2 _ rfl)
    (all_cons (fun hv => absurd hv (by decide))
    (all_cons (fun hv => absurd hv (by decide))
    (all_cons (fun hv => absurd hv (by decide))
    (all_cons (fun hv => absurd hv (by decide))
    (all_cons (fun hv => absurd hv (by decide))
    (all_cons (fun hv => absurd hv (by decide))
    (all_cons (fun hv => absurd hv (by decide))
    (all_cons (fun hv => absurd hv (by decide))
    (all_cons (fun hv => absurd hv (by decide))
    (all_cons (fun hv => absurd hv (by decide))
    (all_cons (fun hv => absurd hv (by decide))
    (all_cons (fun _ c h => by cases h; exact obeys_urlLines2_0 _ rfl)
    (all_cons (fun _ c h => by cases h; exact obeys_urlLines2_3 _ rfl) (List.forall_mem_nil _)))))))))))))))))))))))))))))))))))))))

def obeys_urlLines3_0_object (_ : Nat) : Ns := [(c!"url", .none), (c!"proxy", .str c!""), (c!"noverifyssl", .bool false), (c!"mirrorlist", .none), (c!"metalink", .str c!"M")]

theorem obeys_urlLines3_0_base (n : Str) : Command.FirstBase (F27_Url.cls) n [c!"--metalink=M"] obeys_urlLines3_0_object := by
  intro b b' hb hb' line l; kernel_rfl

theorem obeys_urlLines3_0_start : Command.FirstStart (F27_Url.cls) obeys_urlLines3_0_object (urlLines3.start.getD 0 ([], [])).2 := fun _ => .inr ⟨fun _ => rfl, by kernel_rfl⟩

theorem obeys_urlLines3_0_lines (n : Str) : ∀ i ∈ [0], Command.FirstLine (F27_Url.cls) n [c!"--metalink=M"] obeys_urlLines3_0_object (urlLines3.lines.getD i noLine) :=
  (all_cons (by intro b b' hb hb' x hx line l; (cases x with | nil => exact absurd rfl hx | cons a x => kernel_rfl))
    (List.forall_mem_nil _))

theorem obeys_urlLines3_0 : ∀ v, [Version.F27, Version.F28, Version.F29].contains v = true → Command.Obeys (F27_Url.cls) urlLines3 v :=
  obeys_of obeys_urlLines3_0_object [0] [0] (obeys_urlLines3_0_base _) (all_cons obeys_urlLines3_0_start (List.forall_mem_nil _)) (obeys_urlLines3_0_lines _) (by decide +kernel)

def obeys_urlLines3_1_object (_ : Nat) : Ns := [(c!"url", .none), (c!"proxy", .str c!""), (c!"noverifyssl", .bool false), (c!"mirrorlist", .none), (c!"metalink", .str c!"M"), (c!"sslcacert", .none), (c!"sslclientcert", .none), (c!"sslclientkey", .none)]

theorem obeys_urlLines3_1_base (n : Str) : Command.FirstBase (F30_Url.cls) n [c!"--metalink=M"] obeys_urlLines3_1_object := by
  intro b b' hb hb' line l; kernel_rfl

theorem obeys_urlLines3_1_start : Command.FirstStart (F30_Url.cls) obeys_urlLines3_1_object (urlLines3.start.getD 0 ([], [])).2 := fun _ => .inr ⟨fun _ => rfl, by kernel_rfl⟩

theorem obeys_urlLines3_1_lines (n : Str) : ∀ i ∈ [0], Command.FirstLine (F30_Url.cls) n [c!"--metalink=M"] obeys_urlLines3_1_object (urlLines3.lines.getD i noLine) :=
  (all_cons (by intro b b' hb hb' x hx line l; (cases x with | nil => exact absurd rfl hx | cons a x => kernel_rfl))
    (List.forall_mem_nil _))

theorem obeys_urlLines3_1 : ∀ v, [Version.F30, Version.F31, Version.F32, Version.F33, Version.F34].contains v = true → Command.Obeys (F30_Url.cls) urlLines3 v :=
  obeys_of obeys_urlLines3_1_object [0] [0] (obeys_urlLines3_1_base _) (all_cons obeys_urlLines3_1_start (List.forall_mem_nil _)) (obeys_urlLines3_1_lines _) (by decide +kernel)

def obeys_urlLines3_2_object (_ : Nat) : Ns := [(c!"url", .none), (c!"proxy", .str c!""), (c!"noverifyssl", .bool false), (c!"mirrorlist", .none), (c!"metalink", .str c!"M"), (c!"sslcacert", .none), (c!"sslclientcert", .none), (c!"sslclientkey", .none)]

theorem obeys_urlLines3_2_base (n : Str) : Command.FirstBase (RHEL8_Url.cls) n [c!"--metalink=M"] obeys_urlLines3_2_object := by
  intro b b' hb hb' line l; kernel_rfl

theorem obeys_urlLines3_2_start : Command.FirstStart (RHEL8_Url.cls) obeys_urlLines3_2_object (urlLines3.start.getD 0 ([], [])).2 := fun _ => .inr ⟨fun _ => rfl, by kernel_rfl⟩

theorem obeys_urlLines3_2_lines (n : Str) : ∀ i ∈ [0], Command.FirstLine (RHEL8_Url.cls) n [c!"--metalink=M"] obeys_urlLines3_2_object (urlLines3.lines.getD i noLine) :=
  (all_cons (by intro b b' hb hb' x hx line l; (cases x with | nil => exact absurd rfl hx | cons a x => kernel_rfl))
    (List.forall_mem_nil _))

theorem obeys_urlLines3_2 : ∀ v, [Version.RHEL8].contains v = true → Command.Obeys (RHEL8_Url.cls) urlLines3 v :=
  obeys_of obeys_urlLines3_2_object [0] [0] (obeys_urlLines3_2_base _) (all_cons obeys_urlLines3_2_start (List.forall_mem_nil _)) (obeys_urlLines3_2_lines _) (by decide +kernel)

theorem obeys_urlLines3 : urlLines3.Obeyed := by
  unfold CommandLines.Obeyed commandMaps
  exact (all_cons (fun hv => absurd hv (by decide))
    (all_cons (fun hv => absurd hv (by decide))
    (all_cons (fun hv => absurd hv (by decide))
    (all_cons (fun hv => absurd hv (by decide))
    (all_cons (fun hv => absurd hv (by decide))
    (all_cons (fun hv => absurd hv (by decide))
    (all_cons (fun hv => absurd hv (by decide))
    (all_cons (fun hv => absurd hv (by decide))
    (all_cons (fun hv => absurd hv (by decide))
    (all_cons (fun hv => absurd hv (by decide))
    (all_cons (fun hv => absurd hv (by decide))
    (all_cons (fun hv => absurd hv (by decide))
    (all_cons (fun hv => absurd hv (by decide))
    (all_cons (fun hv => absurd hv (by decide))
    (all_cons (fun hv => absurd hv (by decide))
    (all_cons (fun hv => absurd hv (by decide))
    (all_cons (fun hv => absurd hv (by decide))
    (all_cons (fun _ c h => by cases h; exact obeys_urlLines3_0 _ rfl)
    (all_cons (fun _ c h => by cases h; exact obeys_urlLines3_0 _ rfl)
    (all_cons (fun _ c h => by cases h; exact obeys_urlLines3_0 _ rfl)
    (all_cons (fun _ c h => by cases h; exact obeys_urlLines3_1 _ rfl)
    (all_cons (fun _ c h => by cases h; exact obeys_urlLines3_1 _ rfl)
    (all_cons (fun _ c h => by cases h; exact obeys_urlLines3_1 _ rfl)
    (all_cons (fun _ c h => by cases h; exact obeys_urlLines3_1 _ rfl)
    (all_cons (fun _ c h => by cases h; exact obeys_urlLines3_1 _ rfl)
    (all_cons (fun hv => absurd hv (by decide))
    (all_cons (fun hv => absurd hv (by decide))
    (all_cons (fun hv => absurd hv (by decide))
    (all_cons (fun hv => absurd hv (by decide))
    (all_cons (fun hv => absurd hv (by decide))
    (all_cons (fun hv => absurd hv (by decide))
    (all_cons (fun hv => absurd hv (by decide))
    (all_cons (fun hv => absurd hv (by decide))
    (all_cons (fun hv => absurd hv (by decide))
    (all_cons (fun hv => absurd hv (by decide))
    (all_cons (fun hv => absurd hv (by decide))
    (all_cons (fun hv => absurd hv (by decide))
    (all_cons (fun _ c h => by cases h; exact obeys_urlLines3_2 _ rfl) (List.forall_mem_nil _)))))))))))))))))))))))))))))))))))))))

def obeys_userLines_0_object (l : Nat) : Ns := [(c!"lineno", .int l), (c!"groups", .list []), (c!"homedir", .str c!""), (c!"isCrypted", .bool false), (c!"name", .str c!"u"), (c!"password", .str c!""), (c!"shell", .str c!""), (c!"uid", .none), (c!"lock", .bool false)]

theorem obeys_userLines_0_base (n : Str) : Command.FirstBase (F8_User.cls F8_UserData.cls) n [c!"--name=u"] obeys_userLines_0_object := by
  intro b b' hb hb' line l; kernel_rfl

theorem obeys_userLines_0_start : Command.FirstStart (F8_User.cls F8_UserData.cls) obeys_userLines_0_object (userLines.start.getD 0 ([], [])).2 := fun _ => .inl ⟨fun _ => rfl, (all_cons (by kernel_rfl) (List.forall_mem_nil _))⟩

theorem obeys_userLines_0_lines (n : Str) : ∀ i ∈ [0, 1, 2, 3, 4, 5, 6, 7, 9, 11], Command.FirstLine (F8_User.cls F8_UserData.cls) n [c!"--name=u"] obeys_userLines_0_object (userLines.lines.getD i noLine) :=
  (all_cons (by intro b b' hb hb' x hx line l; (cases x with | nil => exact absurd rfl hx | cons a x => kernel_rfl))
    (all_cons (by intro b b' hb hb' x hx line l; (cases x with | nil => exact absurd rfl hx | cons a x => kernel_rfl))
    (all_cons (by intro b b' hb hb' x hx line l; kernel_rfl)
    (all_cons (by intro b b' hb hb' x hx line l; (cases x with | nil => exact absurd rfl hx | cons a x => kernel_rfl))
    (all_cons (by intro b b' hb hb' x hx line l; (cases x with | nil => exact absurd rfl hx | cons a x => kernel_rfl))
    (all_cons (by intro b b' hb hb' x hx line l; (cases x with | nil => exact absurd rfl hx | cons a x => kernel_rfl))
    (all_cons (by intro b b' hb hb' x hx line l; kernel_rfl)
    (all_cons (by intro b b' hb hb' x hx line l; kernel_rfl)
    (all_cons (by intro b b' hb hb' x hx line l; kernel_rfl)
    (all_cons (by intro b b' hb hb' x hx line l; (cases x with | nil => exact absurd rfl hx | cons a x => kernel_rfl))
    (List.forall_mem_nil _)))))))))))

theorem obeys_userLines_0 : ∀ v, [Version.F8, Version.F9, Version.F10, Version.F11].contains v = true → Command.Obeys (F8_User.cls F8_UserData.cls) userLines v :=
  obeys_of obeys_userLines_0_object [0] [0, 1, 2, 3, 4, 5, 6, 7, 9, 11] (obeys_userLines_0_base _) (all_cons obeys_userLines_0_start (List.forall_mem_nil _)) (obeys_userLines_0_lines _) (by decide +kernel)

def obeys_userLines_1_object (l : Nat) : Ns := [(c!"lineno", .int l), (c!"groups", .list []), (c!"homedir", .str c!""), (c!"isCrypted", .bool false), (c!"name", .str c!"u"), (c!"password", .str c!""), (c!"shell", .str c!""), (c!"uid", .none), (c!"lock", .bool false), (c!"gecos", .str c!"")]

theorem obeys_userLines_1_base (n : Str) : Command.FirstBase (F12_User.cls F12_UserData.cls) n [c!"--name=u"] obeys_userLines_1_object := by
  intro b b' hb hb' line l; kernel_rfl

theorem obeys_userLines_1_start : Command.FirstStart (F12_User.cls F12_UserData.cls) obeys_userLines_1_object (userLines.start.getD 0 ([], [])).2 := fun _ => .inl ⟨fun _ => rfl, (all_cons (by kernel_rfl) (List.forall_mem_nil _))⟩

theorem obeys_userLines_1_lines (n : Str) : ∀ i ∈ [0, 1, 2, 3, 4, 5, 6, 7, 9, 12, 13], Command.FirstLine (F12_User.cls F12_UserData.cls) n [c!"--name=u"] obeys_userLines_1_object (userLines.lines.getD i noLine) :=
  (all_cons (by intro b b' hb hb' x hx line l; (cases x with | nil => exact absurd rfl hx | cons a x => kernel_rfl))
    (all_cons (by intro b b' hb hb' x hx line l; (cases x with | nil => exact absurd rfl hx | cons a x => kernel_rfl))
    (all_cons (by intro b b' hb hb' x hx line l; kernel_rfl)
    (all_cons (by intro b b' hb hb' x hx line l; (cases x with | nil => exact absurd rfl hx | cons a x => kernel_rfl))
    (all_cons (by intro b b' hb hb' x hx line l; (cases x with | nil => exact absurd rfl hx | cons a x => kernel_rfl))
    (all_cons (by intro b b' hb hb' x hx line l; (cases x with | nil => exact absurd rfl hx | cons a x => kernel_rfl))
    (all_cons (by intro b b' hb hb' x hx line l; kernel_rfl)
    (all_cons (by intro b b' hb hb' x hx line l; kernel_rfl)
    (all_cons (by intro b b' hb hb' x hx line l; kernel_rfl)
    (all_cons (by intro b b' hb hb' x hx line l; (cases x with | nil => exact absurd rfl hx | cons a x => kernel_rfl))
    (all_cons (by intro b b' hb hb' x hx line l; kernel_rfl)
    (List.forall_mem_nil _))))))))))))

theorem obeys_userLines_1 : ∀ v, [Version.F12, Version.F13, Version.RHEL6, Version.F14, Version.F15, Version.F16, Version.F17, Version.F18].contains v = true → Command.Obeys (F12_User.cls F12_UserData.cls) userLines v :=
  obeys_of obeys_userLines_1_object [0] [0, 1, 2, 3, 4, 5, 6, 7, 9, 12, 13] (obeys_userLines_1_base _) (all_cons obeys_userLines_1_start (List.forall_mem_nil _)) (obeys_userLines_1_lines _) (by decide +kernel)

def obeys_userLines_2_object (l : Nat) : Ns := [(c!"lineno", .int l), (c!"groups", .list []), (c!"homedir", .str c!""), (c!"isCrypted", .bool false), (c!"name", .str c!"u"), (c!"password", .str c!""), (c!"shell", .str c!""), (c!"uid", .none), (c!"lock", .bool false), (c!"gecos", .str c!""), (c!"gid", .none)]

theorem obeys_userLines_2_base (n : Str) : Command.FirstBase (F19_User.cls F19_UserData.cls) n [c!"--name=u"] obeys_userLines_2_object := by
  intro b b' hb hb' line l; kernel_rfl

theorem obeys_userLines_2_start : Command.FirstStart (F19_User.cls F19_UserData.cls) obeys_userLines_2_object (userLines.start.getD 0 ([], [])).2 := fun _ => .inl ⟨fun _ => rfl, (all_cons (by kernel_rfl) (List.forall_mem_nil _))⟩

theorem obeys_userLines_2_lines (n : Str) : ∀ i ∈ [0, 1, 2, 3, 4, 5, 6, 7, 9, 12, 14], Command.FirstLine (F19_User.cls F19_UserData.cls) n [c!"--name=u"] obeys_userLines_2_object (userLines.lines.getD i noLine) :=
  (all_cons (by intro b b' hb hb' x hx line l; (cases x with | nil => exact absurd rfl hx | cons a x => kernel_rfl))
    (all_cons (by intro b b' hb hb' x hx line l; (cases x with | nil => exact absurd rfl hx | cons a x => kernel_rfl))
    (all_cons (by intro b b' hb hb' x hx line l; kernel_rfl)
    (all_cons (by intro b b' hb hb' x hx line l; (cases x with | nil => exact absurd rfl hx | cons a x => kernel_rfl))
    (all_cons (by intro b b' hb hb' x hx line l; (cases x with | nil => exact absurd rfl hx | cons a x => kernel_rfl))
    (all_cons (by intro b b' hb hb' x hx line l; (cases x with | nil => exact absurd rfl hx | cons a x => kernel_rfl))
    (all_cons (by intro b b' hb hb' x hx line l; kernel_rfl)
    (all_cons (by intro b b' hb hb' x hx line l; kernel_rfl)
    (all_cons (by intro b b' hb hb' x hx line l; kernel_rfl)
    (all_cons (by intro b b' hb hb' x hx line l; (cases x with | nil => exact absurd rfl hx | cons a x => kernel_rfl))
    (all_cons (by intro b b' hb hb' x hx line l; kernel_rfl)
    (List.forall_mem_nil _))))))))))))

theorem obeys_userLines_2 : ∀ v, [Version.F19, Version.F20, Version.F21, Version.RHEL7, Version.F22, Version.F23].contains v = true → Command.Obeys (F19_User.cls F19_UserData.cls) userLines v :=
  obeys_of obeys_userLines_2_object [0] [0, 1, 2, 3, 4, 5, 6, 7, 9, 12, 14] (obeys_userLines_2_base _) (all_cons obeys_userLines_2_start (List.forall_mem_nil _)) (obeys_userLines_2_lines _) (by decide +kernel)

def obeys_userLines_3_object (l : Nat) : Ns := [(c!"lineno", .int l), (c!"groups", .list []), (c!"homedir", .str c!""), (c!"isCrypted", .bool false), (c!"name", .str c!"u"), (c!"password", .str c!""), (c!"shell", .str c!""), (c!"uid", .none), (c!"lock", .bool false), (c!"gecos", .str c!""), (c!"gid", .none)]

theorem obeys_userLines_3_base (n : Str) : Command.FirstBase (F24_User.cls F19_UserData.cls) n [c!"--name=u"] obeys_userLines_3_object := by
  intro b b' hb hb' line l; kernel_rfl

theorem obeys_userLines_3_start : Command.FirstStart (F24_User.cls F19_UserData.cls) obeys_userLines_3_object (userLines.start.getD 0 ([], [])).2 := fun _ => .inl ⟨fun _ => rfl, (all_cons (by kernel_rfl) (List.forall_mem_nil _))⟩

theorem obeys_userLines_3_lines (n : Str) : ∀ i ∈ [0, 1, 2, 3, 4, 5, 6, 7, 9, 12, 14], Command.FirstLine (F24_User.cls F19_UserData.cls) n [c!"--name=u"] obeys_userLines_3_object (userLines.lines.getD i noLine) :=
  (all_cons (by intro b b' hb hb' x hx line l; (cases x with | nil => exact absurd rfl hx | cons a x => kernel_rfl))
    (all_cons (by intro b b' hb hb' x hx line l; (cases x with | nil => exact absurd rfl hx | cons a x => kernel_rfl))
    (all_cons (by intro b b' hb hb' x hx line l; kernel_rfl)
    (all_cons (by intro b b' hb hb' x hx line l; (cases x with | nil => exact absurd rfl hx | cons a x => kernel_rfl))
    (all_cons (by intro b b' hb hb' x hx line l; (cases x with | nil => exact absurd rfl hx | cons a x => kernel_rfl))
    (all_cons (by intro b b' hb hb' x hx line l; (cases x with | nil => exact absurd rfl hx | cons a x => kernel_rfl))
    (all_cons (by intro b b' hb hb' x hx line l; kernel_rfl)
    (all_cons (by intro b b' hb hb' x hx line l; kernel_rfl)
    (all_cons (by intro b b' hb hb' x hx line l; kernel_rfl)
    (all_cons (by intro b b' hb hb' x hx line l; (cases x with | nil => exact absurd rfl hx | cons a x => kernel_rfl))
    (all_cons (by intro b b' hb hb' x hx line l; kernel_rfl)
    (List.forall_mem_nil _))))))))))))

theorem obeys_userLines_3 : ∀ v, [Version.F24, Version.F25, Version.F26, Version.F27, Version.F28, Version.RHEL8, Version.F29, Version.F30, Version.F31, Version.F32, Version.F33, Version.F34].contains v = true → Command.Obeys (F24_User.cls F19_UserData.cls) userLines v :=
  obeys_of obeys_userLines_3_object [0] [0, 1, 2, 3, 4, 5, 6, 7, 9, 12, 14] (obeys_userLines_3_base _) (all_cons obeys_userLines_3_start (List.forall_mem_nil _)) (obeys_userLines_3_lines _) (by decide +kernel)

def obeys_userLines_4_object (l : Nat) : Ns := [(c!"lineno", .int l), (c!"groups", .list []), (c!"homedir", .str c!""), (c!"isCrypted", .bool false), (c!"name", .str c!"u"), (c!"password", .str c!""), (c!"shell", .str c!""), (c!"uid", .none)]

theorem obeys_userLines_4_base (n : Str) : Command.FirstBase (FC6_User.cls FC6_UserData.cls) n [c!"--name=u"] obeys_userLines_4_object := by
  intro b b' hb hb' line l; kernel_rfl

theorem obeys_userLines_4_start : Command.FirstStart (FC6_User.cls FC6_UserData.cls) obeys_userLines_4_object (userLines.start.getD 0 ([], [])).2 := fun _ => .inl ⟨fun _ => rfl, (all_cons (by kernel_rfl) (List.forall_mem_nil _))⟩

theorem obeys_userLines_4_lines (n : Str) : ∀ i ∈ [0, 1, 2, 3, 4, 5, 6, 8, 10], Command.FirstLine (FC6_User.cls FC6_UserData.cls) n [c!"--name=u"] obeys_userLines_4_object (userLines.lines.getD i noLine) :=
  (all_cons (by intro b b' hb hb' x hx line l; (cases x with | nil => exact absurd rfl hx | cons a x => kernel_rfl))
    (all_cons (by intro b b' hb hb' x hx line l; (cases x with | nil => exact absurd rfl hx | cons a x => kernel_rfl))
    (all_cons (by intro b b' hb hb' x hx line l; kernel_rfl)
    (all_cons (by intro b b' hb hb' x hx line l; (cases x with | nil => exact absurd rfl hx | cons a x => kernel_rfl))
    (all_cons (by intro b b' hb hb' x hx line l; (cases x with | nil => exact absurd rfl hx | cons a x => kernel_rfl))
    (all_cons (by intro b b' hb hb' x hx line l; (cases x with | nil => exact absurd rfl hx | cons a x => kernel_rfl))
    (all_cons (by intro b b' hb hb' x hx line l; kernel_rfl)
    (all_cons (by intro b b' hb hb' x hx line l; kernel_rfl)
    (all_cons (by intro b b' hb hb' x hx line l; kernel_rfl)
    (List.forall_mem_nil _))))))))))

theorem obeys_userLines_4 : ∀ v, [Version.FC6, Version.RHEL5, Version.F7].contains v = true → Command.Obeys (FC6_User.cls FC6_UserData.cls) userLines v :=
  obeys_of obeys_userLines_4_object [0] [0, 1, 2, 3, 4, 5, 6, 8, 10] (obeys_userLines_4_base _) (all_cons obeys_userLines_4_start (List.forall_mem_nil _)) (obeys_userLines_4_lines _) (by decide +kernel)

theorem obeys_userLines : userLines.Obeyed := by
  unfold CommandLines.Obeyed commandMaps
  exact (all_cons (fun _ c h => by cases h; exact obeys_userLines_0 _ rfl)
    (all_cons (fun _ c h => by cases h; exact obeys_userLines_0 _ rfl)
    (all_cons (fun _ c h => by cases h; exact obeys_userLines_1 _ rfl)
    (all_cons (fun _ c h => by cases h; exact obeys_userLines_1 _ rfl)
    (all_cons (fun _ c h => by cases h; exact obeys_userLines_1 _ rfl)
    (all_cons (fun _ c h => by cases h; exact obeys_userLines_1 _ rfl)
    (all_cons (fun _ c h => by cases h; exact obeys_userLines_1 _ rfl)
    (all_cons (fun _ c h => by cases h; exact obeys_userLines_1 _ rfl)
    (all_cons (fun _ c h => by cases h; exact obeys_userLines_1 _ rfl)
    (all_cons (fun _ c h => by cases h; exact obeys_userLines_2 _ rfl)
    (all_cons (fun _ c h => by cases h; exact obeys_userLines_2 _ rfl)
    (all_cons (fun _ c h => by cases h; exact obeys_userLines_2 _ rfl)
    (all_cons (fun _ c h => by cases h; exact obeys_userLines_2 _ rfl)
    (all_cons (fun _ c h => by cases h; exact obeys_userLines_2 _ rfl)
    (all_cons (fun _ c h => by cases h; exact obeys_userLines_3 _ rfl)
    (all_cons (fun _ c h => by cases h; exact obeys_userLines_3 _ rfl)
    (all_cons (fun _ c h => by cases h; exact obeys_userLines_3 _ rfl)
    (all_cons (fun _ c h => by cases h; exact obeys_userLines_3 _ rfl)
    (all_cons (fun _ c h => by cases h; exact obeys_userLines_3 _ rfl)
    (all_cons (fun _ c h => by cases h; exact obeys_userLines_3 _ rfl)
    (all_cons (fun _ c h => by cases h; exact obeys_userLines_3 _ rfl)
    (all_cons (fun _ c h => by cases h; exact obeys_userLines_3 _ rfl)
    (all_cons (fun _ c h => by cases h; exact obeys_userLines_3 _ rfl)
    (all_cons (fun _ c h => by cases h; exact obeys_userLines_3 _ rfl)
    (all_cons (fun _ c h => by cases h; exact obeys_userLines_3 _ rfl)
    (all_cons (fun _ c h => by cases h; exact obeys_userLines_4 _ rfl)
    (all_cons (fun _ c h => by cases h; exact obeys_userLines_0 _ rfl)
    (all_cons (fun _ c h => by cases h; exact obeys_userLines_0 _ rfl)
    (all_cons (fun hv => absurd hv (by decide))
    (all_cons (fun hv => absurd hv (by decide))
    (all_cons (fun hv => absurd hv (by decide))
    (all_cons (fun _ c h => by cases h; exact obeys_userLines_4 _ rfl)
    (all_cons (fun hv => absurd hv (by decide))
    (all_cons (fun hv => absurd hv (by decide))
    (all_cons (fun _ c h => by cases h; exact obeys_userLines_4 _ rfl)
    (all_cons (fun _ c h => by cases h; exact obeys_userLines_1 _ rfl)
    (all_cons (fun _ c h => by cases h; exact obeys_userLines_2 _ rfl)
    (all_cons (fun _ c h => by cases h; exact obeys_userLines_3 _ rfl) (List.forall_mem_nil _)))))))))))))))))))))))))))))))))))))))

end Ks.Cmd
