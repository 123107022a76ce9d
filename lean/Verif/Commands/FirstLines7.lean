import Verif.Commands.LineLogic
import Verif.Commands.LineTable
/-!
# The classes of the command maps do what the table of first lines says

Written by `scripts/gen_lines.py`.
-/
namespace Ks.Cmd

set_option linter.unusedVariables false

def obeys_btrfsLines_0_object (l : Nat) : Ns := [(c!"lineno", .int l), (c!"format", .bool true), (c!"preexist", .bool false), (c!"label", .str c!""), (c!"mountpoint", .str c!"/x"), (c!"devices", .list [c!"a"]), (c!"dataLevel", .none), (c!"metaDataLevel", .none), (c!"subvol", .bool false), (c!"parent", .str c!""), (c!"name", .str c!"")]

theorem obeys_btrfsLines_0_base (n : Str) : Command.FirstBase (F17_BTRFS.cls F17_BTRFSData.cls) n [c!"/x", c!"a"] obeys_btrfsLines_0_object := by
  intro b b' hb hb' line l; kernel_rfl

theorem obeys_btrfsLines_0_start : Command.FirstStart (F17_BTRFS.cls F17_BTRFSData.cls) obeys_btrfsLines_0_object (btrfsLines.start.getD 0 ([], [])).2 := fun _ => .inl ⟨fun _ => rfl, (all_cons (by kernel_rfl) (all_cons (by kernel_rfl) (all_cons (by kernel_rfl) (List.forall_mem_nil _))))⟩

theorem obeys_btrfsLines_0_lines (n : Str) : ∀ i ∈ [0, 1, 2, 3, 4, 5, 6, 7, 8, 9, 10, 11, 12, 13, 14, 15, 16, 17, 18, 19, 20], Command.FirstLine (F17_BTRFS.cls F17_BTRFSData.cls) n [c!"/x", c!"a"] obeys_btrfsLines_0_object (btrfsLines.lines.getD i noLine) :=
  (all_cons (by intro b b' hb hb' x hx line l; kernel_rfl)
    (all_cons (by intro b b' hb hb' x hx line l; kernel_rfl)
    (all_cons (by intro b b' hb hb' x hx line l; (cases x with | nil => exact absurd rfl hx | cons a x => kernel_rfl))
    (all_cons (by intro b b' hb hb' x hx line l; kernel_rfl)
    (all_cons (by intro b b' hb hb' x hx line l; kernel_rfl)
    (all_cons (by intro b b' hb hb' x hx line l; kernel_rfl)
    (all_cons (by intro b b' hb hb' x hx line l; kernel_rfl)
    (all_cons (by intro b b' hb hb' x hx line l; kernel_rfl)
    (all_cons (by intro b b' hb hb' x hx line l; kernel_rfl)
    (all_cons (by intro b b' hb hb' x hx line l; kernel_rfl)
    (all_cons (by intro b b' hb hb' x hx line l; kernel_rfl)
    (all_cons (by intro b b' hb hb' x hx line l; kernel_rfl)
    (all_cons (by intro b b' hb hb' x hx line l; kernel_rfl)
    (all_cons (by intro b b' hb hb' x hx line l; kernel_rfl)
    (all_cons (by intro b b' hb hb' x hx line l; kernel_rfl)
    (all_cons (by intro b b' hb hb' x hx line l; kernel_rfl)
    (all_cons (by intro b b' hb hb' x hx line l; kernel_rfl)
    (all_cons (by intro b b' hb hb' x hx line l; kernel_rfl)
    (all_cons (by intro b b' hb hb' x hx line l; (cases x with | nil => exact absurd rfl hx | cons a x => kernel_rfl))
    (all_cons (by intro b b' hb hb' x hx line l; (cases x with | nil => exact absurd rfl hx | cons a x => kernel_rfl))
    (all_cons (by intro b b' hb hb' x hx line l; (cases x with | nil => exact absurd rfl hx | cons a x => kernel_rfl))
    (List.forall_mem_nil _))))))))))))))))))))))

theorem obeys_btrfsLines_0 : ∀ v, [Version.F17, Version.F18, Version.F19, Version.F20, Version.F21, Version.F22].contains v = true → Command.Obeys (F17_BTRFS.cls F17_BTRFSData.cls) btrfsLines v :=
  obeys_of obeys_btrfsLines_0_object [0] [0, 1, 2, 3, 4, 5, 6, 7, 8, 9, 10, 11, 12, 13, 14, 15, 16, 17, 18, 19, 20] (obeys_btrfsLines_0_base _) (all_cons obeys_btrfsLines_0_start (List.forall_mem_nil _)) (obeys_btrfsLines_0_lines _) (by decide +kernel)

def obeys_btrfsLines_1_object (l : Nat) : Ns := [(c!"lineno", .int l), (c!"format", .bool true), (c!"preexist", .bool false), (c!"label", .str c!""), (c!"mountpoint", .str c!"/x"), (c!"devices", .list [c!"a"]), (c!"dataLevel", .none), (c!"metaDataLevel", .none), (c!"subvol", .bool false), (c!"parent", .str c!""), (c!"name", .str c!""), (c!"mkfsopts", .str c!"")]

theorem obeys_btrfsLines_1_base (n : Str) : Command.FirstBase (F23_BTRFS.cls F23_BTRFSData.cls) n [c!"/x", c!"a"] obeys_btrfsLines_1_object := by
  intro b b' hb hb' line l; kernel_rfl

theorem obeys_btrfsLines_1_start : Command.FirstStart (F23_BTRFS.cls F23_BTRFSData.cls) obeys_btrfsLines_1_object (btrfsLines.start.getD 0 ([], [])).2 := fun _ => .inl ⟨fun _ => rfl, (all_cons (by kernel_rfl) (all_cons (by kernel_rfl) (all_cons (by kernel_rfl) (List.forall_mem_nil _))))⟩

theorem obeys_btrfsLines_1_lines (n : Str) : ∀ i ∈ [0, 1, 2, 3, 4, 5, 6, 7, 8, 9, 10, 11, 12, 13, 14, 15, 16, 17, 18, 19, 21], Command.FirstLine (F23_BTRFS.cls F23_BTRFSData.cls) n [c!"/x", c!"a"] obeys_btrfsLines_1_object (btrfsLines.lines.getD i noLine) :=
  (all_cons (by intro b b' hb hb' x hx line l; kernel_rfl)
    (all_cons (by intro b b' hb hb' x hx line l; kernel_rfl)
    (all_cons (by intro b b' hb hb' x hx line l; (cases x with | nil => exact absurd rfl hx | cons a x => kernel_rfl))
    (all_cons (by intro b b' hb hb' x hx line l; kernel_rfl)
    (all_cons (by intro b b' hb hb' x hx line l; kernel_rfl)
    (all_cons (by intro b b' hb hb' x hx line l; kernel_rfl)
    (all_cons (by intro b b' hb hb' x hx line l; kernel_rfl)
    (all_cons (by intro b b' hb hb' x hx line l; kernel_rfl)
    (all_cons (by intro b b' hb hb' x hx line l; kernel_rfl)
    (all_cons (by intro b b' hb hb' x hx line l; kernel_rfl)
    (all_cons (by intro b b' hb hb' x hx line l; kernel_rfl)
    (all_cons (by intro b b' hb hb' x hx line l; kernel_rfl)
    (all_cons (by intro b b' hb hb' x hx line l; kernel_rfl)
    (all_cons (by intro b b' hb hb' x hx line l; kernel_rfl)
    (all_cons (by intro b b' hb hb' x hx line l; kernel_rfl)
    (all_cons (by intro b b' hb hb' x hx line l; kernel_rfl)
    (all_cons (by intro b b' hb hb' x hx line l; kernel_rfl)
    (all_cons (by intro b b' hb hb' x hx line l; kernel_rfl)
    (all_cons (by intro b b' hb hb' x hx line l; (cases x with | nil => exact absurd rfl hx | cons a x => kernel_rfl))
    (all_cons (by intro b b' hb hb' x hx line l; (cases x with | nil => exact absurd rfl hx | cons a x => kernel_rfl))
    (all_cons (by intro b b' hb hb' x hx line l; (cases x with | nil => exact absurd rfl hx | cons a x => kernel_rfl))
    (List.forall_mem_nil _))))))))))))))))))))))

theorem obeys_btrfsLines_1 : ∀ v, [Version.F23, Version.F24, Version.F25, Version.F26, Version.F27, Version.F28, Version.F29, Version.F30, Version.F31, Version.F32, Version.F33, Version.F34].contains v = true → Command.Obeys (F23_BTRFS.cls F23_BTRFSData.cls) btrfsLines v :=
  obeys_of obeys_btrfsLines_1_object [0] [0, 1, 2, 3, 4, 5, 6, 7, 8, 9, 10, 11, 12, 13, 14, 15, 16, 17, 18, 19, 21] (obeys_btrfsLines_1_base _) (all_cons obeys_btrfsLines_1_start (List.forall_mem_nil _)) (obeys_btrfsLines_1_lines _) (by decide +kernel)

def obeys_btrfsLines_2_object (l : Nat) : Ns := [(c!"lineno", .int l), (c!"format", .bool true), (c!"preexist", .bool false), (c!"label", .str c!""), (c!"mountpoint", .str c!"/x"), (c!"devices", .list [c!"a"]), (c!"dataLevel", .none), (c!"metaDataLevel", .none), (c!"subvol", .bool false), (c!"parent", .str c!""), (c!"name", .str c!""), (c!"mkfsopts", .str c!"")]

theorem obeys_btrfsLines_2_base (n : Str) : Command.FirstBase (RHEL7_BTRFS.cls RHEL7_BTRFSData.cls) n [c!"/x", c!"a"] obeys_btrfsLines_2_object := by
  intro b b' hb hb' line l; kernel_rfl

theorem obeys_btrfsLines_2_start : Command.FirstStart (RHEL7_BTRFS.cls RHEL7_BTRFSData.cls) obeys_btrfsLines_2_object (btrfsLines.start.getD 0 ([], [])).2 := fun _ => .inl ⟨fun _ => rfl, (all_cons (by kernel_rfl) (all_cons (by kernel_rfl) (all_cons (by kernel_rfl) (List.forall_mem_nil _))))⟩

theorem obeys_btrfsLines_2_lines (n : Str) : ∀ i ∈ [0, 1, 2, 3, 4, 5, 6, 7, 8, 9, 10, 11, 12, 13, 14, 15, 16, 17, 18, 19, 21], Command.FirstLine (RHEL7_BTRFS.cls RHEL7_BTRFSData.cls) n [c!"/x", c!"a"] obeys_btrfsLines_2_object (btrfsLines.lines.getD i noLine) :=
  (all_cons (by intro b b' hb hb' x hx line l; kernel_rfl)
    (all_cons (by intro b b' hb hb' x hx line l; kernel_rfl)
    (all_cons (by intro b b' hb hb' x hx line l; (cases x with | nil => exact absurd rfl hx | cons a x => kernel_rfl))
    (all_cons (by intro b b' hb hb' x hx line l; kernel_rfl)
    (all_cons (by intro b b' hb hb' x hx line l; kernel_rfl)
    (all_cons (by intro b b' hb hb' x hx line l; kernel_rfl)
    (all_cons (by intro b b' hb hb' x hx line l; kernel_rfl)
    (all_cons (by intro b b' hb hb' x hx line l; kernel_rfl)
    (all_cons (by intro b b' hb hb' x hx line l; kernel_rfl)
    (all_cons (by intro b b' hb hb' x hx line l; kernel_rfl)
    (all_cons (by intro b b' hb hb' x hx line l; kernel_rfl)
    (all_cons (by intro b b' hb hb' x hx line l; kernel_rfl)
    (all_cons (by intro b b' hb hb' x hx line l; kernel_rfl)
    (all_cons (by intro b b' hb hb' x hx line l; kernel_rfl)
    (all_cons (by intro b b' hb hb' x hx line l; kernel_rfl)
    (all_cons (by intro b b' hb hb' x hx line l; kernel_rfl)
    (all_cons (by intro b b' hb hb' x hx line l; kernel_rfl)
    (all_cons (by intro b b' hb hb' x hx line l; kernel_rfl)
    (all_cons (by intro b b' hb hb' x hx line l; (cases x with | nil => exact absurd rfl hx | cons a x => kernel_rfl))
    (all_cons (by intro b b' hb hb' x hx line l; (cases x with | nil => exact absurd rfl hx | cons a x => kernel_rfl))
    (all_cons (by intro b b' hb hb' x hx line l; (cases x with | nil => exact absurd rfl hx | cons a x => kernel_rfl))
    (List.forall_mem_nil _))))))))))))))))))))))

theorem obeys_btrfsLines_2 : ∀ v, [Version.RHEL7].contains v = true → Command.Obeys (RHEL7_BTRFS.cls RHEL7_BTRFSData.cls) btrfsLines v :=
  obeys_of obeys_btrfsLines_2_object [0] [0, 1, 2, 3, 4, 5, 6, 7, 8, 9, 10, 11, 12, 13, 14, 15, 16, 17, 18, 19, 21] (obeys_btrfsLines_2_base _) (all_cons obeys_btrfsLines_2_start (List.forall_mem_nil _)) (obeys_btrfsLines_2_lines _) (by decide +kernel)

theorem obeys_btrfsLines : btrfsLines.Obeyed := by
  unfold CommandLines.Obeyed commandMaps
  exact (all_cons (fun hv => absurd hv (by decide))
    (all_cons (fun hv => absurd hv (by decide))
    (all_cons (fun hv => absurd hv (by decide))
    (all_cons (fun hv => absurd hv (by decide))
    (all_cons (fun hv => absurd hv (by decide))
    (all_cons (fun hv => absurd hv (by decide))
    (all_cons (fun hv => absurd hv (by decide))
    (all_cons (fun _ c h => by cases h; exact obeys_btrfsLines_0 _ rfl)
    (all_cons (fun _ c h => by cases h; exact obeys_btrfsLines_0 _ rfl)
    (all_cons (fun _ c h => by cases h; exact obeys_btrfsLines_0 _ rfl)
    (all_cons (fun _ c h => by cases h; exact obeys_btrfsLines_0 _ rfl)
    (all_cons (fun _ c h => by cases h; exact obeys_btrfsLines_0 _ rfl)
    (all_cons (fun _ c h => by cases h; exact obeys_btrfsLines_0 _ rfl)
    (all_cons (fun _ c h => by cases h; exact obeys_btrfsLines_1 _ rfl)
    (all_cons (fun _ c h => by cases h; exact obeys_btrfsLines_1 _ rfl)
    (all_cons (fun _ c h => by cases h; exact obeys_btrfsLines_1 _ rfl)
    (all_cons (fun _ c h => by cases h; exact obeys_btrfsLines_1 _ rfl)
    (all_cons (fun _ c h => by cases h; exact obeys_btrfsLines_1 _ rfl)
    (all_cons (fun _ c h => by cases h; exact obeys_btrfsLines_1 _ rfl)
    (all_cons (fun _ c h => by cases h; exact obeys_btrfsLines_1 _ rfl)
    (all_cons (fun _ c h => by cases h; exact obeys_btrfsLines_1 _ rfl)
    (all_cons (fun _ c h => by cases h; exact obeys_btrfsLines_1 _ rfl)
    (all_cons (fun _ c h => by cases h; exact obeys_btrfsLines_1 _ rfl)
    (all_cons (fun _ c h => by cases h; exact obeys_btrfsLines_1 _ rfl)
    (all_cons (fun _ c h => by cases h; exact obeys_btrfsLines_1 _ rfl)
    (all_cons (fun hv => absurd hv (by decide))
    (all_cons (fun hv => absurd hv (by decide))
    (all_cons (fun hv => absurd hv (by decide))
    (all_cons (fun hv => absurd hv (by decide))
    (all_cons (fun hv => absurd hv (by decide))
    (all_cons (fun hv => absurd hv (by decide))
    (all_cons (fun hv => absurd hv (by decide))
    (all_cons (fun hv => absurd hv (by decide))
    (all_cons (fun hv => absurd hv (by decide))
    (all_cons (fun hv => absurd hv (by decide))
    (all_cons (fun hv => absurd hv (by decide))
    (all_cons (fun _ c h => by cases h; exact obeys_btrfsLines_2 _ rfl)
    (all_cons (fun hv => absurd hv (by decide)) (List.forall_mem_nil _)))))))))))))))))))))))))))))))))))))))

def obeys_btrfsLines2_0_object (l : Nat) : Ns := [(c!"lineno", .int l), (c!"format", .bool true), (c!"preexist", .bool false), (c!"label", .str c!""), (c!"mountpoint", .str c!"/x"), (c!"devices", .list [c!"LABEL=l"]), (c!"dataLevel", .none), (c!"metaDataLevel", .none), (c!"subvol", .bool true), (c!"parent", .str c!""), (c!"name", .str c!"s")]

theorem obeys_btrfsLines2_0_base (n : Str) : Command.FirstBase (F17_BTRFS.cls F17_BTRFSData.cls) n [c!"/x", c!"--subvol", c!"--name=s", c!"LABEL=l"] obeys_btrfsLines2_0_object := by
  intro b b' hb hb' line l; kernel_rfl

theorem obeys_btrfsLines2_0_start : Command.FirstStart (F17_BTRFS.cls F17_BTRFSData.cls) obeys_btrfsLines2_0_object (btrfsLines2.start.getD 0 ([], [])).2 := fun _ => .inl ⟨fun _ => rfl, (all_cons (by kernel_rfl) (all_cons (by kernel_rfl) (all_cons (by kernel_rfl) (all_cons (by kernel_rfl) (all_cons (by kernel_rfl) (List.forall_mem_nil _))))))⟩

theorem obeys_btrfsLines2_0_lines (n : Str) : ∀ i ∈ [0], Command.FirstLine (F17_BTRFS.cls F17_BTRFSData.cls) n [c!"/x", c!"--subvol", c!"--name=s", c!"LABEL=l"] obeys_btrfsLines2_0_object (btrfsLines2.lines.getD i noLine) :=
  (all_cons (by intro b b' hb hb' x hx line l; (cases x with | nil => exact absurd rfl hx | cons a x => kernel_rfl))
    (List.forall_mem_nil _))

theorem obeys_btrfsLines2_0 : ∀ v, [Version.F17, Version.F18, Version.F19, Version.F20, Version.F21, Version.F22].contains v = true → Command.Obeys (F17_BTRFS.cls F17_BTRFSData.cls) btrfsLines2 v :=
  obeys_of obeys_btrfsLines2_0_object [0] [0] (obeys_btrfsLines2_0_base _) (all_cons obeys_btrfsLines2_0_start (List.forall_mem_nil _)) (obeys_btrfsLines2_0_lines _) (by decide +kernel)

def obeys_btrfsLines2_1_object (l : Nat) : Ns := [(c!"lineno", .int l), (c!"format", .bool true), (c!"preexist", .bool false), (c!"label", .str c!""), (c!"mountpoint", .str c!"/x"), (c!"devices", .list [c!"LABEL=l"]), (c!"dataLevel", .none), (c!"metaDataLevel", .none), (c!"subvol", .bool true), (c!"parent", .str c!""), (c!"name", .str c!"s"), (c!"mkfsopts", .str c!"")]

theorem obeys_btrfsLines2_1_base (n : Str) : Command.FirstBase (F23_BTRFS.cls F23_BTRFSData.cls) n [c!"/x", c!"--subvol", c!"--name=s", c!"LABEL=l"] obeys_btrfsLines2_1_object := by
  intro b b' hb hb' line l; kernel_rfl

theorem obeys_btrfsLines2_1_start : Command.FirstStart (F23_BTRFS.cls F23_BTRFSData.cls) obeys_btrfsLines2_1_object (btrfsLines2.start.getD 0 ([], [])).2 := fun _ => .inl ⟨fun _ => rfl, (all_cons (by kernel_rfl) (all_cons (by kernel_rfl) (all_cons (by kernel_rfl) (all_cons (by kernel_rfl) (all_cons (by kernel_rfl) (List.forall_mem_nil _))))))⟩

theorem obeys_btrfsLines2_1_lines (n : Str) : ∀ i ∈ [0], Command.FirstLine (F23_BTRFS.cls F23_BTRFSData.cls) n [c!"/x", c!"--subvol", c!"--name=s", c!"LABEL=l"] obeys_btrfsLines2_1_object (btrfsLines2.lines.getD i noLine) :=
  (all_cons (by intro b b' hb hb' x hx line l; (cases x with | nil => exact absurd rfl hx | cons a x => kernel_rfl))
    (List.forall_mem_nil _))

theorem obeys_btrfsLines2_1 : ∀ v, [Version.F23, Version.F24, Version.F25, Version.F26, Version.F27, Version.F28, Version.F29, Version.F30, Version.F31, Version.F32, Version.F33, Version.F34].contains v = true → Command.Obeys (F23_BTRFS.cls F23_BTRFSData.cls) btrfsLines2 v :=
  obeys_of obeys_btrfsLines2_1_object [0] [0] (obeys_btrfsLines2_1_base _) (all_cons obeys_btrfsLines2_1_start (List.forall_mem_nil _)) (obeys_btrfsLines2_1_lines _) (by decide +kernel)

def obeys_btrfsLines2_2_object (l : Nat) : Ns := [(c!"lineno", .int l), (c!"format", .bool true), (c!"preexist", .bool false), (c!"label", .str c!""), (c!"mountpoint", .str c!"/x"), (c!"devices", .list [c!"LABEL=l"]), (c!"dataLevel", .none), (c!"metaDataLevel", .none), (c!"subvol", .bool true), (c!"parent", .str c!""), (c!"name", .str c!"s"), (c!"mkfsopts", .str c!"")]

theorem obeys_btrfsLines2_2_base (n : Str) : Command.FirstBase (RHEL7_BTRFS.cls RHEL7_BTRFSData.cls) n [c!"/x", c!"--subvol", c!"--name=s", c!"LABEL=l"] obeys_btrfsLines2_2_object := by
  intro b b' hb hb' line l; kernel_rfl

theorem obeys_btrfsLines2_2_start : Command.FirstStart (RHEL7_BTRFS.cls RHEL7_BTRFSData.cls) obeys_btrfsLines2_2_object (btrfsLines2.start.getD 0 ([], [])).2 := fun _ => .inl ⟨fun _ => rfl, (all_cons (by kernel_rfl) (all_cons (by kernel_rfl) (all_cons (by kernel_rfl) (all_cons (by kernel_rfl) (all_cons (by kernel_rfl) (List.forall_mem_nil _))))))⟩

theorem obeys_btrfsLines2_2_lines (n : Str) : ∀ i ∈ [0], Command.FirstLine (RHEL7_BTRFS.cls RHEL7_BTRFSData.cls) n [c!"/x", c!"--subvol", c!"--name=s", c!"LABEL=l"] obeys_btrfsLines2_2_object (btrfsLines2.lines.getD i noLine) :=
  (all_cons (by intro b b' hb hb' x hx line l; (cases x with | nil => exact absurd rfl hx | cons a x => kernel_rfl))
    (List.forall_mem_nil _))

theorem obeys_btrfsLines2_2 : ∀ v, [Version.RHEL7].contains v = true → Command.Obeys (RHEL7_BTRFS.cls RHEL7_BTRFSData.cls) btrfsLines2 v :=
  obeys_of obeys_btrfsLines2_2_object [0] [0] (obeys_btrfsLines2_2_base _) (all_cons obeys_btrfsLines2_2_start (List.forall_mem_nil _)) (obeys_btrfsLines2_2_lines _) (by decide +kernel)

theorem obeys_btrfsLines2 : btrfsLines2.Obeyed := by
  unfold CommandLines.Obeyed commandMaps
  exact (all_cons (fun hv => absurd hv (by decide))
    (all_cons (fun hv => absurd hv (by decide))
    (all_cons (fun hv => absurd hv (by decide))
    (all_cons (fun hv => absurd hv (by decide))
    (all_cons (fun hv => absurd hv (by decide))
    (all_cons (fun hv => absurd hv (by decide))
    (all_cons (fun hv => absurd hv (by decide))
    (all_cons (fun _ c h => by cases h; exact obeys_btrfsLines2_0 _ rfl)
    (all_cons (fun _ c h => by cases h; exact obeys_btrfsLines2_0 _ rfl)
    (all_cons (fun _ c h => by cases h; exact obeys_btrfsLines2_0 _ rfl)
    (all_cons (fun _ c h => by cases h; exact obeys_btrfsLines2_0 _ rfl)
    (all_cons (fun _ c h => by cases h; exact obeys_btrfsLines2_0 _ rfl)
    (all_cons (fun _ c h => by cases h; exact obeys_btrfsLines2_0 _ rfl)
    (all_cons (fun _ c h => by cases h; exact obeys_btrfsLines2_1 _ rfl)
    (all_cons (fun _ c h => by cases h; exact obeys_btrfsLines2_1 _ rfl)
    (all_cons (fun _ c h => by cases h; exact obeys_btrfsLines2_1 _ rfl)
    (all_cons (fun _ c h => by cases h; exact obeys_btrfsLines2_1 _ rfl)
    (all_cons (fun _ c h => by cases h; exact obeys_btrfsLines2_1 _ rfl)
    (all_cons (fun _ c h => by cases h; exact obeys_btrfsLines2_1 _ rfl)
    (all_cons (fun _ c h => by cases h; exact obeys_btrfsLines2_1 _ rfl)
    (all_cons (fun _ c h => by cases h; exact obeys_btrfsLines2_1 _ rfl)
    (all_cons (fun _ c h => by cases h; exact obeys_btrfsLines2_1 _ rfl)
    (all_cons (fun _ c h => by cases h; exact obeys_btrfsLines2_1 _ rfl)
    (all_cons (fun _ c h => by cases h; exact obeys_btrfsLines2_1 _ rfl)
    (all_cons (fun _ c h => by cases h; exact obeys_btrfsLines2_1 _ rfl)
    (all_cons (fun hv => absurd hv (by decide))
    (all_cons (fun hv => absurd hv (by decide))
    (all_cons (fun hv => absurd hv (by decide))
    (all_cons (fun hv => absurd hv (by decide))
    (all_cons (fun hv => absurd hv (by decide))
    (all_cons (fun hv => absurd hv (by decide))
    (all_cons (fun hv => absurd hv (by decide))
    (all_cons (fun hv => absurd hv (by decide))
    (all_cons (fun hv => absurd hv (by decide))
    (all_cons (fun hv => absurd hv (by decide))
    (all_cons (fun hv => absurd hv (by decide))
    (all_cons (fun _ c h => by cases h; exact obeys_btrfsLines2_2 _ rfl)
    (all_cons (fun hv => absurd hv (by decide)) (List.forall_mem_nil _)))))))))))))))))))))))))))))))))))))))

def obeys_btrfsLines3_0_object (l : Nat) : Ns := [(c!"lineno", .int l), (c!"format", .bool false), (c!"preexist", .bool true), (c!"label", .str c!""), (c!"mountpoint", .str c!"/x"), (c!"devices", .list [c!"LABEL=l"]), (c!"dataLevel", .none), (c!"metaDataLevel", .none), (c!"subvol", .bool false), (c!"parent", .str c!""), (c!"name", .str c!"")]

theorem obeys_btrfsLines3_0_base (n : Str) : Command.FirstBase (F17_BTRFS.cls F17_BTRFSData.cls) n [c!"/x", c!"--noformat", c!"LABEL=l"] obeys_btrfsLines3_0_object := by
  intro b b' hb hb' line l; kernel_rfl

theorem obeys_btrfsLines3_0_start : Command.FirstStart (F17_BTRFS.cls F17_BTRFSData.cls) obeys_btrfsLines3_0_object (btrfsLines3.start.getD 0 ([], [])).2 := fun _ => .inl ⟨fun _ => rfl, (all_cons (by kernel_rfl) (all_cons (by kernel_rfl) (all_cons (by kernel_rfl) (List.forall_mem_nil _))))⟩

theorem obeys_btrfsLines3_0_lines (n : Str) : ∀ i ∈ [0], Command.FirstLine (F17_BTRFS.cls F17_BTRFSData.cls) n [c!"/x", c!"--noformat", c!"LABEL=l"] obeys_btrfsLines3_0_object (btrfsLines3.lines.getD i noLine) :=
  (all_cons (by intro b b' hb hb' x hx line l; kernel_rfl)
    (List.forall_mem_nil _))

theorem obeys_btrfsLines3_0 : ∀ v, [Version.F17, Version.F18, Version.F19, Version.F20, Version.F21, Version.F22].contains v = true → Command.Obeys (F17_BTRFS.cls F17_BTRFSData.cls) btrfsLines3 v :=
  obeys_of obeys_btrfsLines3_0_object [0] [0] (obeys_btrfsLines3_0_base _) (all_cons obeys_btrfsLines3_0_start (List.forall_mem_nil _)) (obeys_btrfsLines3_0_lines _) (by decide +kernel)

def obeys_btrfsLines3_1_object (l : Nat) : Ns := [(c!"lineno", .int l), (c!"format", .bool false), (c!"preexist", .bool true), (c!"label", .str c!""), (c!"mountpoint", .str c!"/x"), (c!"devices", .list [c!"LABEL=l"]), (c!"dataLevel", .none), (c!"metaDataLevel", .none), (c!"subvol", .bool false), (c!"parent", .str c!""), (c!"name", .str c!""), (c!"mkfsopts", .str c!"")]

theorem obeys_btrfsLines3_1_base (n : Str) : Command.FirstBase (F23_BTRFS.cls F23_BTRFSData.cls) n [c!"/x", c!"--noformat", c!"LABEL=l"] obeys_btrfsLines3_1_object := by
  intro b b' hb hb' line l; kernel_rfl

theorem obeys_btrfsLines3_1_start : Command.FirstStart (F23_BTRFS.cls F23_BTRFSData.cls) obeys_btrfsLines3_1_object (btrfsLines3.start.getD 0 ([], [])).2 := fun _ => .inl ⟨fun _ => rfl, (all_cons (by kernel_rfl) (all_cons (by kernel_rfl) (all_cons (by kernel_rfl) (List.forall_mem_nil _))))⟩

theorem obeys_btrfsLines3_1_lines (n : Str) : ∀ i ∈ [0], Command.FirstLine (F23_BTRFS.cls F23_BTRFSData.cls) n [c!"/x", c!"--noformat", c!"LABEL=l"] obeys_btrfsLines3_1_object (btrfsLines3.lines.getD i noLine) :=
  (all_cons (by intro b b' hb hb' x hx line l; kernel_rfl)
    (List.forall_mem_nil _))

theorem obeys_btrfsLines3_1 : ∀ v, [Version.F23, Version.F24, Version.F25, Version.F26, Version.F27, Version.F28, Version.F29, Version.F30, Version.F31, Version.F32, Version.F33, Version.F34].contains v = true → Command.Obeys (F23_BTRFS.cls F23_BTRFSData.cls) btrfsLines3 v :=
  obeys_of obeys_btrfsLines3_1_object [0] [0] (obeys_btrfsLines3_1_base _) (all_cons obeys_btrfsLines3_1_start (List.forall_mem_nil _)) (obeys_btrfsLines3_1_lines _) (by decide +kernel)

def obeys_btrfsLines3_2_object (l : Nat) : Ns := [(c!"lineno", .int l), (c!"format", .bool false), (c!"preexist", .bool true), (c!"label", .str c!""), (c!"mountpoint", .str c!"/x"), (c!"devices", .list [c!"LABEL=l"]), (c!"dataLevel", .none), (c!"metaDataLevel", .none), (c!"subvol", .bool false), (c!"parent", .str c!""), (c!"name", .str c!""), (c!"mkfsopts", .str c!"")]

theorem obeys_btrfsLines3_2_base (n : Str) : Command.FirstBase (RHEL7_BTRFS.cls RHEL7_BTRFSData.cls) n [c!"/x", c!"--noformat", c!"LABEL=l"] obeys_btrfsLines3_2_object := by
  intro b b' hb hb' line l; kernel_rfl

theorem obeys_btrfsLines3_2_start : Command.FirstStart (RHEL7_BTRFS.cls RHEL7_BTRFSData.cls) obeys_btrfsLines3_2_object (btrfsLines3.start.getD 0 ([], [])).2 := fun _ => .inl ⟨fun _ => rfl, (all_cons (by kernel_rfl) (all_cons (by kernel_rfl) (all_cons (by kernel_rfl) (List.forall_mem_nil _))))⟩

theorem obeys_btrfsLines3_2_lines (n : Str) : ∀ i ∈ [0], Command.FirstLine (RHEL7_BTRFS.cls RHEL7_BTRFSData.cls) n [c!"/x", c!"--noformat", c!"LABEL=l"] obeys_btrfsLines3_2_object (btrfsLines3.lines.getD i noLine) :=
  (all_cons (by intro b b' hb hb' x hx line l; kernel_rfl)
    (List.forall_mem_nil _))

theorem obeys_btrfsLines3_2 : ∀ v, [Version.RHEL7].contains v = true → Command.Obeys (RHEL7_BTRFS.cls RHEL7_BTRFSData.cls) btrfsLines3 v :=
  obeys_of obeys_btrfsLines3_2_object [0] [0] (obeys_btrfsLines3_2_base _) (all_cons obeys_btrfsLines3_2_start (List.forall_mem_nil _)) (obeys_btrfsLines3_2_lines _) (by decide +kernel)

theorem obeys_btrfsLines3 : btrfsLines3.Obeyed := by
  unfold CommandLines.Obeyed commandMaps
  exact (all_cons (fun hv => absurd hv (by decide))
    (all_cons (fun hv => absurd hv (by decide))
    (all_cons (fun hv => absurd hv (by decide))
    (all_cons (fun hv => absurd hv (by decide))
    (all_cons (fun hv => absurd hv (by decide))
    (all_cons (fun hv => absurd hv (by decide))
    (all_cons (fun hv => absurd hv (by decide))
    (all_cons (fun _ c h => by cases h; exact obeys_btrfsLines3_0 _ rfl)
    (all_cons (fun _ c h => by cases h; exact obeys_btrfsLines3_0 _ rfl)
    (all_cons (fun _ c h => by cases h; exact obeys_btrfsLines3_0 _ rfl)
    (all_cons (fun _ c h => by cases h; exact obeys_btrfsLines3_0 _ rfl)
    (all_cons (fun _ c h => by cases h; exact obeys_btrfsLines3_0 _ rfl)
    (all_cons (fun _ c h => by cases h; exact obeys_btrfsLines3_0 _ rfl)
    (all_cons (fun _ c h => by cases h; exact obeys_btrfsLines3_1 _ rfl)
    (all_cons (fun _ c h => by cases h; exact obeys_btrfsLines3_1 _ rfl)
    (all_cons (fun _ c h => by cases h; exact obeys_btrfsLines3_1 _ rfl)
    (all_cons (fun _ c h => by cases h; exact obeys_btrfsLines3_1 _ rfl)
    (all_cons (fun _ c h => by cases h; exact obeys_btrfsLines3_1 _ rfl)
    (all_cons (fun _ c h => by cases h; exact obeys_btrfsLines3_1 _ rfl)
    (all_cons (fun _ c h => by cases h; exact obeys_btrfsLines3_1 _ rfl)
    (all_cons (fun _ c h => by cases h; exact obeys_btrfsLines3_1 _ rfl)
    (all_cons (fun _ c h => by cases h; exact obeys_btrfsLines3_1 _ rfl)
    (all_cons (fun _ c h => by cases h; exact obeys_btrfsLines3_1 _ rfl)
    (all_cons (fun _ c h => by cases h; exact obeys_btrfsLines3_1 _ rfl)
    (all_cons (fun _ c h => by cases h; exact obeys_btrfsLines3_1 _ rfl)
    (all_cons (fun hv => absurd hv (by decide))
    (all_cons (fun hv => absurd hv (by decide))
    (all_cons (fun hv => absurd hv (by decide))
    (all_cons (fun hv => absurd hv (by decide))
    (all_cons (fun hv => absurd hv (by decide))
    (all_cons (fun hv => absurd hv (by decide))
    (all_cons (fun hv => absurd hv (by decide))
    (all_cons (fun hv => absurd hv (by decide))
    (all_cons (fun hv => absurd hv (by decide))
    (all_cons (fun hv => absurd hv (by decide))
    (all_cons (fun hv => absurd hv (by decide))
    (all_cons (fun _ c h => by cases h; exact obeys_btrfsLines3_2 _ rfl)
    (all_cons (fun hv => absurd hv (by decide)) (List.forall_mem_nil _)))))))))))))))))))))))))))))))))))))))

def obeys_cdromLines_0_object (_ : Nat) : Ns := []

theorem obeys_cdromLines_0_base (n : Str) : Command.FirstBase (FC3_Cdrom.cls) n [] obeys_cdromLines_0_object := by
  intro b b' hb hb' line l; kernel_rfl

theorem obeys_cdromLines_0_start : Command.FirstStart (FC3_Cdrom.cls) obeys_cdromLines_0_object (cdromLines.start.getD 0 ([], [])).2 := fun _ => .inr ⟨fun _ => rfl, by kernel_rfl⟩

theorem obeys_cdromLines_0_lines (n : Str) : ∀ i ∈ [0, 1], Command.FirstLine (FC3_Cdrom.cls) n [] obeys_cdromLines_0_object (cdromLines.lines.getD i noLine) :=
  (all_cons (by intro b b' hb hb' x hx line l; kernel_rfl)
    (all_cons (by intro b b' hb hb' x hx line l; kernel_rfl)
    (List.forall_mem_nil _)))

theorem obeys_cdromLines_0 : ∀ v, [Version.RHEL3, Version.FC3, Version.RHEL4, Version.FC4, Version.FC5, Version.FC6, Version.RHEL5, Version.F7, Version.F8, Version.F9, Version.F10, Version.F11, Version.F12, Version.F13, Version.RHEL6, Version.F14, Version.F15, Version.F16, Version.F17, Version.F18, Version.F19, Version.F20, Version.F21, Version.RHEL7, Version.F22, Version.F23, Version.F24, Version.F25, Version.F26, Version.F27, Version.F28, Version.RHEL8, Version.F29, Version.F30, Version.F31, Version.F32, Version.F33, Version.F34].contains v = true → Command.Obeys (FC3_Cdrom.cls) cdromLines v :=
  obeys_of obeys_cdromLines_0_object [0] [0, 1] (obeys_cdromLines_0_base _) (all_cons obeys_cdromLines_0_start (List.forall_mem_nil _)) (obeys_cdromLines_0_lines _) (by decide +kernel)

theorem obeys_cdromLines : cdromLines.Obeyed := by
  unfold CommandLines.Obeyed commandMaps
  exact (all_cons (fun _ c h => by cases h; exact obeys_cdromLines_0 _ rfl)
    (all_cons (fun _ c h => by cases h; exact obeys_cdromLines_0 _ rfl)
    (all_cons (fun _ c h => by cases h; exact obeys_cdromLines_0 _ rfl)
    (all_cons (fun _ c h => by cases h; exact obeys_cdromLines_0 _ rfl)
    (all_cons (fun _ c h => by cases h; exact obeys_cdromLines_0 _ rfl)
    (all_cons (fun _ c h => by cases h; exact obeys_cdromLines_0 _ rfl)
    (all_cons (fun _ c h => by cases h; exact obeys_cdromLines_0 _ rfl)
    (all_cons (fun _ c h => by cases h; exact obeys_cdromLines_0 _ rfl)
    (all_cons (fun _ c h => by cases h; exact obeys_cdromLines_0 _ rfl)
    (all_cons (fun _ c h => by cases h; exact obeys_cdromLines_0 _ rfl)
    (all_cons (fun _ c h => by cases h; exact obeys_cdromLines_0 _ rfl)
    (all_cons (fun _ c h => by cases h; exact obeys_cdromLines_0 _ rfl)
    (all_cons (fun _ c h => by cases h; exact obeys_cdromLines_0 _ rfl)
    (all_cons (fun _ c h => by cases h; exact obeys_cdromLines_0 _ rfl)
    (all_cons (fun _ c h => by cases h; exact obeys_cdromLines_0 _ rfl)
    (all_cons (fun _ c h => by cases h; exact obeys_cdromLines_0 _ rfl)
    (all_cons (fun _ c h => by cases h; exact obeys_cdromLines_0 _ rfl)
    (all_cons (fun _ c h => by cases h; exact obeys_cdromLines_0 _ rfl)
    (all_cons (fun _ c h => by cases h; exact obeys_cdromLines_0 _ rfl)
    (all_cons (fun _ c h => by cases h; exact obeys_cdromLines_0 _ rfl)
    (all_cons (fun _ c h => by cases h; exact obeys_cdromLines_0 _ rfl)
    (all_cons (fun _ c h => by cases h; exact obeys_cdromLines_0 _ rfl)
    (all_cons (fun _ c h => by cases h; exact obeys_cdromLines_0 _ rfl)
    (all_cons (fun _ c h => by cases h; exact obeys_cdromLines_0 _ rfl)
    (all_cons (fun _ c h => by cases h; exact obeys_cdromLines_0 _ rfl)
    (all_cons (fun _ c h => by cases h; exact obeys_cdromLines_0 _ rfl)
    (all_cons (fun _ c h => by cases h; exact obeys_cdromLines_0 _ rfl)
    (all_cons (fun _ c h => by cases h; exact obeys_cdromLines_0 _ rfl)
    (all_cons (fun _ c h => by cases h; exact obeys_cdromLines_0 _ rfl)
    (all_cons (fun _ c h => by cases h; exact obeys_cdromLines_0 _ rfl)
    (all_cons (fun _ c h => by cases h; exact obeys_cdromLines_0 _ rfl)
    (all_cons (fun _ c h => by cases h; exact obeys_cdromLines_0 _ rfl)
    (all_cons (fun _ c h => by cases h; exact obeys_cdromLines_0 _ rfl)
    (all_cons (fun _ c h => by cases h; exact obeys_cdromLines_0 _ rfl)
    (all_cons (fun _ c h => by cases h; exact obeys_cdromLines_0 _ rfl)
    (all_cons (fun _ c h => by cases h; exact obeys_cdromLines_0 _ rfl)
    (all_cons (fun _ c h => by cases h; exact obeys_cdromLines_0 _ rfl)
    (all_cons (fun _ c h => by cases h; exact obeys_cdromLines_0 _ rfl) (List.forall_mem_nil _)))))))))))))))))))))))))))))))))))))))

def obeys_deviceLines_0_object (l : Nat) : Ns := [(c!"lineno", .int l), (c!"moduleName", .str c!"e100"), (c!"moduleOpts", .str c!"")]

theorem obeys_deviceLines_0_base (n : Str) : Command.FirstBase (F8_Device.cls F8_DeviceData.cls) n [c!"e100"] obeys_deviceLines_0_object := by
  intro b b' hb hb' line l; kernel_rfl

theorem obeys_deviceLines_0_start : Command.FirstStart (F8_Device.cls F8_DeviceData.cls) obeys_deviceLines_0_object (deviceLines.start.getD 0 ([], [])).2 := fun _ => .inl ⟨fun _ => rfl, (all_cons (by kernel_rfl) (List.forall_mem_nil _))⟩

theorem obeys_deviceLines_0_lines (n : Str) : ∀ i ∈ [0], Command.FirstLine (F8_Device.cls F8_DeviceData.cls) n [c!"e100"] obeys_deviceLines_0_object (deviceLines.lines.getD i noLine) :=
  (all_cons (by intro b b' hb hb' x hx line l; (cases x with | nil => exact absurd rfl hx | cons a x => kernel_rfl))
    (List.forall_mem_nil _))

theorem obeys_deviceLines_0 : ∀ v, [Version.F8, Version.F9, Version.F10, Version.F11, Version.F12, Version.F13, Version.RHEL6, Version.F14, Version.F15, Version.F16, Version.F17, Version.F18, Version.F19, Version.F20, Version.F21, Version.RHEL7, Version.F22, Version.F23].contains v = true → Command.Obeys (F8_Device.cls F8_DeviceData.cls) deviceLines v :=
  obeys_of obeys_deviceLines_0_object [0] [0] (obeys_deviceLines_0_base _) (all_cons obeys_deviceLines_0_start (List.forall_mem_nil _)) (obeys_deviceLines_0_lines _) (by decide +kernel)

theorem obeys_deviceLines : deviceLines.Obeyed := by
  unfold CommandLines.Obeyed commandMaps
  exact (all_cons (fun _ c h => by cases h; exact obeys_deviceLines_0 _ rfl)
    (all_cons (fun _ c h => by cases h; exact obeys_deviceLines_0 _ rfl)
    (all_cons (fun _ c h => by cases h; exact obeys_deviceLines_0 _ rfl)
    (all_cons (fun _ c h => by cases h; exact obeys_deviceLines_0 _ rfl)
    (all_cons (fun _ c h => by cases h; exact obeys_deviceLines_0 _ rfl)
    (all_cons (fun _ c h => by cases h; exact obeys_deviceLines_0 _ rfl)
    (all_cons (fun _ c h => by cases h; exact obeys_deviceLines_0 _ rfl)
    (all_cons (fun _ c h => by cases h; exact obeys_deviceLines_0 _ rfl)
    (all_cons (fun _ c h => by cases h; exact obeys_deviceLines_0 _ rfl)
    (all_cons (fun _ c h => by cases h; exact obeys_deviceLines_0 _ rfl)
    (all_cons (fun _ c h => by cases h; exact obeys_deviceLines_0 _ rfl)
    (all_cons (fun _ c h => by cases h; exact obeys_deviceLines_0 _ rfl)
    (all_cons (fun _ c h => by cases h; exact obeys_deviceLines_0 _ rfl)
    (all_cons (fun _ c h => by cases h; exact obeys_deviceLines_0 _ rfl)
    (all_cons (fun hv => absurd hv (by decide))
    (all_cons (fun hv => absurd hv (by decide))
    (all_cons (fun hv => absurd hv (by decide))
    (all_cons (fun hv => absurd hv (by decide))
    (all_cons (fun hv => absurd hv (by decide))
    (all_cons (fun hv => absurd hv (by decide))
    (all_cons (fun hv => absurd hv (by decide))
    (all_cons (fun hv => absurd hv (by decide))
    (all_cons (fun hv => absurd hv (by decide))
    (all_cons (fun hv => absurd hv (by decide))
    (all_cons (fun hv => absurd hv (by decide))
    (all_cons (fun hv => absurd hv (by decide))
    (all_cons (fun _ c h => by cases h; exact obeys_deviceLines_0 _ rfl)
    (all_cons (fun _ c h => by cases h; exact obeys_deviceLines_0 _ rfl)
    (all_cons (fun hv => absurd hv (by decide))
    (all_cons (fun hv => absurd hv (by decide))
    (all_cons (fun hv => absurd hv (by decide))
    (all_cons (fun hv => absurd hv (by decide))
    (all_cons (fun hv => absurd hv (by decide))
    (all_cons (fun hv => absurd hv (by decide))
    (all_cons (fun hv => absurd hv (by decide))
    (all_cons (fun _ c h => by cases h; exact obeys_deviceLines_0 _ rfl)
    (all_cons (fun _ c h => by cases h; exact obeys_deviceLines_0 _ rfl)
    (all_cons (fun hv => absurd hv (by decide)) (List.forall_mem_nil _)))))))))))))))))))))))))))))))))))))))

def obeys_deviceLines2_0_object (_ : Nat) : Ns := [(c!"type", .str c!"scsi"), (c!"moduleName", .str c!"e100"), (c!"moduleOpts", .str c!"")]

theorem obeys_deviceLines2_0_base (n : Str) : Command.FirstBase (FC3_Device.cls) n [c!"scsi", c!"e100"] obeys_deviceLines2_0_object := by
  intro b b' hb hb' line l; kernel_rfl

theorem obeys_deviceLines2_0_start : Command.FirstStart (FC3_Device.cls) obeys_deviceLines2_0_object (deviceLines2.start.getD 0 ([], [])).2 := fun _ => .inr ⟨fun _ => rfl, by kernel_rfl⟩

theorem obeys_deviceLines2_0_lines (n : Str) : ∀ i ∈ [0], Command.FirstLine (FC3_Device.cls) n [c!"scsi", c!"e100"] obeys_deviceLines2_0_object (deviceLines2.lines.getD i noLine) :=
  (all_cons (by intro b b' hb hb' x hx line l; (cases x with | nil => exact absurd rfl hx | cons a x => kernel_rfl))
    (List.forall_mem_nil _))

theorem obeys_deviceLines2_0 : ∀ v, [Version.RHEL3, Version.FC3, Version.RHEL4, Version.FC4, Version.FC5, Version.FC6, Version.RHEL5, Version.F7].contains v = true → Command.Obeys (FC3_Device.cls) deviceLines2 v :=
  obeys_of obeys_deviceLines2_0_object [0] [0] (obeys_deviceLines2_0_base _) (all_cons obeys_deviceLines2_0_start (List.forall_mem_nil _)) (obeys_deviceLines2_0_lines _) (by decide +kernel)

theorem obeys_deviceLines2 : deviceLines2.Obeyed := by
  unfold CommandLines.Obeyed commandMaps
  exact (all_cons (fun hv => absurd hv (by decide))
    (all_cons (fun hv => absurd hv (by decide))
    (all_cons (fun hv => absurd hv (by decide))
    (all_cons (fun hv => absurd hv (by decide))
    (all_cons (fun hv => absurd hv (by decide))
    (all_cons (fun hv => absurd hv (by decide))
    (all_cons (fun hv => absurd hv (by decide))
    (all_cons (fun hv => absurd hv (by decide))
    (all_cons (fun hv => absurd hv (by decide))
    (all_cons (fun hv => absurd hv (by decide))
    (all_cons (fun hv => absurd hv (by decide))
    (all_cons (fun hv => absurd hv (by decide))
    (all_cons (fun hv => absurd hv (by decide))
    (all_cons (fun hv => absurd hv (by decide))
    (all_cons (fun hv => absurd hv (by decide))
    (all_cons (fun hv => absurd hv (by decide))
    (all_cons (fun hv => absurd hv (by decide))
    (all_cons (fun hv => absurd hv (by decide))
    (all_cons (fun hv => absurd hv (by decide))
    (all_cons (fun hv => absurd hv (by decide))
    (all_cons (fun hv => absurd hv (by decide))
    (all_cons (fun hv => absurd hv (by decide))
    (all_cons (fun hv => absurd hv (by decide))
    (all_cons (fun hv => absurd hv (by decide))
    (all_cons (fun hv => absurd hv (by decide))
    (all_cons (fun _ c h => by cases h; exact obeys_deviceLines2_0 _ rfl)
    (all_cons (fun hv => absurd hv (by decide))
    (all_cons (fun hv => absurd hv (by decide))
    (all_cons (fun _ c h => by cases h; exact obeys_deviceLines2_0 _ rfl)
    (all_cons (fun _ c h => by cases h; exact obeys_deviceLines2_0 _ rfl)
    (all_cons (fun _ c h => by cases h; exact obeys_deviceLines2_0 _ rfl)
    (all_cons (fun _ c h => by cases h; exact obeys_deviceLines2_0 _ rfl)
    (all_cons (fun _ c h => by cases h; exact obeys_deviceLines2_0 _ rfl)
    (all_cons (fun _ c h => by cases h; exact obeys_deviceLines2_0 _ rfl)
    (all_cons (fun _ c h => by cases h; exact obeys_deviceLines2_0 _ rfl)
    (all_cons (fun hv => absurd hv (by decide))
    (all_cons (fun hv => absurd hv (by decide))
    (all_cons (fun hv => absurd hv (by decide)) (List.forall_mem_nil _)))))))))))))))))))))))))))))))))))))))

def obeys_eulaLines_0_object (_ : Nat) : Ns := [(c!"agreed", .bool true)]

theorem obeys_eulaLines_0_base (n : Str) : Command.FirstBase (F20_Eula.cls) n [c!"--agreed"] obeys_eulaLines_0_object := by
  intro b b' hb hb' line l; kernel_rfl

theorem obeys_eulaLines_0_start : Command.FirstStart (F20_Eula.cls) obeys_eulaLines_0_object (eulaLines.start.getD 0 ([], [])).2 := fun _ => .inr ⟨fun _ => rfl, by kernel_rfl⟩

theorem obeys_eulaLines_0_lines (n : Str) : ∀ i ∈ [0, 1, 2], Command.FirstLine (F20_Eula.cls) n [c!"--agreed"] obeys_eulaLines_0_object (eulaLines.lines.getD i noLine) :=
  (all_cons (by intro b b' hb hb' x hx line l; kernel_rfl)
    (all_cons (by intro b b' hb hb' x hx line l; kernel_rfl)
    (all_cons (by intro b b' hb hb' x hx line l; kernel_rfl)
    (List.forall_mem_nil _))))

theorem obeys_eulaLines_0 : ∀ v, [Version.F20, Version.F21, Version.RHEL7, Version.F22, Version.F23, Version.F24, Version.F25, Version.F26, Version.F27, Version.F28, Version.RHEL8, Version.F29, Version.F30, Version.F31, Version.F32, Version.F33, Version.F34].contains v = true → Command.Obeys (F20_Eula.cls) eulaLines v :=
  obeys_of obeys_eulaLines_0_object [0] [0, 1, 2] (obeys_eulaLines_0_base _) (all_cons obeys_eulaLines_0_start (List.forall_mem_nil _)) (obeys_eulaLines_0_lines _) (by decide +kernel)

theorem obeys_eulaLines : eulaLines.Obeyed := by
  unfold CommandLines.Obeyed commandMaps
  exact (all_cons (fun hv => absurd hv (by decide))
    (all_cons (fun hv => absurd hv (by decide))
    (all_cons (fun hv => absurd hv (by decide))
    (all_cons (fun hv => absurd hv (by decide))
    (all_cons (fun hv => absurd hv (by decide))
    (all_cons (fun hv => absurd hv (by decide))
    (all_cons (fun hv => absurd hv (by decide))
    (all_cons (fun hv => absurd hv (by decide))
    (all_cons (fun hv => absurd hv (by decide))
    (all_cons (fun hv => absurd hv (by decide))
    (all_cons (fun _ c h => by cases h; exact obeys_eulaLines_0 _ rfl)
    (all_cons (fun _ c h => by cases h; exact obeys_eulaLines_0 _ rfl)
    (all_cons (fun _ c h => by cases h; exact obeys_eulaLines_0 _ rfl)
    (all_cons (fun _ c h => by cases h; exact obeys_eulaLines_0 _ rfl)
    (all_cons (fun _ c h => by cases h; exact obeys_eulaLines_0 _ rfl)
    (all_cons (fun _ c h => by cases h; exact obeys_eulaLines_0 _ rfl)
    (all_cons (fun _ c h => by cases h; exact obeys_eulaLines_0 _ rfl)
    (all_cons (fun _ c h => by cases h; exact obeys_eulaLines_0 _ rfl)
    (all_cons (fun _ c h => by cases h; exact obeys_eulaLines_0 _ rfl)
    (all_cons (fun _ c h => by cases h; exact obeys_eulaLines_0 _ rfl)
    (all_cons (fun _ c h => by cases h; exact obeys_eulaLines_0 _ rfl)
    (all_cons (fun _ c h => by cases h; exact obeys_eulaLines_0 _ rfl)
    (all_cons (fun _ c h => by cases h; exact obeys_eulaLines_0 _ rfl)
    (all_cons (fun _ c h => by cases h; exact obeys_eulaLines_0 _ rfl)
    (all_cons (fun _ c h => by cases h; exact obeys_eulaLines_0 _ rfl)
    (all_cons (fun hv => absurd hv (by decide))
    (all_cons (fun hv => absurd hv (by decide))
    (all_cons (fun hv => absurd hv (by decide))
    (all_cons (fun hv => absurd hv (by decide))
    (all_cons (fun hv => absurd hv (by decide))
    (all_cons (fun hv => absurd hv (by decide))
    (all_cons (fun hv => absurd hv (by decide))
    (all_cons (fun hv => absurd hv (by decide))
    (all_cons (fun hv => absurd hv (by decide))
    (all_cons (fun hv => absurd hv (by decide))
    (all_cons (fun hv => absurd hv (by decide))
    (all_cons (fun _ c h => by cases h; exact obeys_eulaLines_0 _ rfl)
    (all_cons (fun _ c h => by cases h; exact obeys_eulaLines_0 _ rfl) (List.forall_mem_nil _)))))))))))))))))))))))))))))))))))))))

def obeys_haltLines_0_object (_ : Nat) : Ns := [(c!"action", .none), (c!"eject", .bool false)]

theorem obeys_haltLines_0_base : Command.FirstBase (FC6_Reboot.cls) c!"halt" [] obeys_haltLines_0_object := by
  intro b b' hb hb' line l; kernel_rfl

theorem obeys_haltLines_0_start : Command.FirstStart (FC6_Reboot.cls) obeys_haltLines_0_object (haltLines.start.getD 0 ([], [])).2 := fun _ => .inr ⟨fun _ => rfl, by kernel_rfl⟩

theorem obeys_haltLines_0_lines : ∀ i ∈ [0, 2], Command.FirstLine (FC6_Reboot.cls) c!"halt" [] obeys_haltLines_0_object (haltLines.lines.getD i noLine) :=
  (all_cons (by intro b b' hb hb' x hx line l; kernel_rfl)
    (all_cons (by intro b b' hb hb' x hx line l; kernel_rfl)
    (List.forall_mem_nil _)))

theorem obeys_haltLines_0 : ∀ v, [Version.FC6, Version.RHEL5, Version.F7, Version.F8, Version.F9, Version.F10, Version.F11, Version.F12, Version.F13, Version.RHEL6, Version.F14, Version.F15, Version.F16, Version.F17].contains v = true → Command.Obeys (FC6_Reboot.cls) haltLines v :=
  obeys_of obeys_haltLines_0_object [0] [0, 2] (obeys_haltLines_0_base) (all_cons obeys_haltLines_0_start (List.forall_mem_nil _)) (obeys_haltLines_0_lines) (by decide +kernel)

def obeys_haltLines_1_object (_ : Nat) : Ns := [(c!"action", .int 0), (c!"eject", .bool false)]

theorem obeys_haltLines_1_base : Command.FirstBase (F18_Reboot.cls) c!"halt" [] obeys_haltLines_1_object := by
  intro b b' hb hb' line l; kernel_rfl

theorem obeys_haltLines_1_start : Command.FirstStart (F18_Reboot.cls) obeys_haltLines_1_object (haltLines.start.getD 1 ([], [])).2 := fun _ => .inr ⟨fun _ => rfl, by kernel_rfl⟩

theorem obeys_haltLines_1_lines : ∀ i ∈ [0, 2], Command.FirstLine (F18_Reboot.cls) c!"halt" [] obeys_haltLines_1_object (haltLines.lines.getD i noLine) :=
  (all_cons (by intro b b' hb hb' x hx line l; kernel_rfl)
    (all_cons (by intro b b' hb hb' x hx line l; kernel_rfl)
    (List.forall_mem_nil _)))

theorem obeys_haltLines_1 : ∀ v, [Version.F18, Version.F19, Version.F20, Version.F21, Version.RHEL7, Version.F22].contains v = true → Command.Obeys (F18_Reboot.cls) haltLines v :=
  obeys_of obeys_haltLines_1_object [1] [0, 2] (obeys_haltLines_1_base) (all_cons obeys_haltLines_1_start (List.forall_mem_nil _)) (obeys_haltLines_1_lines) (by decide +kernel)

def obeys_haltLines_2_object (_ : Nat) : Ns := [(c!"action", .int 0), (c!"eject", .bool false), (c!"kexec", .bool false)]

theorem obeys_haltLines_2_base : Command.FirstBase (F23_Reboot.cls) c!"halt" [] obeys_haltLines_2_object := by
  intro b b' hb hb' line l; kernel_rfl

theorem obeys_haltLines_2_start : Command.FirstStart (F23_Reboot.cls) obeys_haltLines_2_object (haltLines.start.getD 1 ([], [])).2 := fun _ => .inr ⟨fun _ => rfl, by kernel_rfl⟩

theorem obeys_haltLines_2_lines : ∀ i ∈ [0, 3], Command.FirstLine (F23_Reboot.cls) c!"halt" [] obeys_haltLines_2_object (haltLines.lines.getD i noLine) :=
  (all_cons (by intro b b' hb hb' x hx line l; kernel_rfl)
    (all_cons (by intro b b' hb hb' x hx line l; kernel_rfl)
    (List.forall_mem_nil _)))

theorem obeys_haltLines_2 : ∀ v, [Version.F23, Version.F24, Version.F25, Version.F26, Version.F27, Version.F28, Version.RHEL8, Version.F29, Version.F30, Version.F31, Version.F32, Version.F33, Version.F34].contains v = true → Command.Obeys (F23_Reboot.cls) haltLines v :=
  obeys_of obeys_haltLines_2_object [1] [0, 3] (obeys_haltLines_2_base) (all_cons obeys_haltLines_2_start (List.forall_mem_nil _)) (obeys_haltLines_2_lines) (by decide +kernel)

def obeys_haltLines_3_object (_ : Nat) : Ns := [(c!"action", .none)]

theorem obeys_haltLines_3_base : Command.FirstBase (FC3_Reboot.cls) c!"halt" [] obeys_haltLines_3_object := by
  intro b b' hb hb' line l; kernel_rfl

theorem obeys_haltLines_3_start : Command.FirstStart (FC3_Reboot.cls) obeys_haltLines_3_object (haltLines.start.getD 0 ([], [])).2 := fun _ => .inr ⟨fun _ => rfl, by kernel_rfl⟩

theorem obeys_haltLines_3_lines : ∀ i ∈ [1, 4], Command.FirstLine (FC3_Reboot.cls) c!"halt" [] obeys_haltLines_3_object (haltLines.lines.getD i noLine) :=
  (all_cons (by intro b b' hb hb' x hx line l; kernel_rfl)
    (all_cons (by intro b b' hb hb' x hx line l; kernel_rfl)
    (List.forall_mem_nil _)))

theorem obeys_haltLines_3 : ∀ v, [Version.RHEL3, Version.FC3, Version.RHEL4, Version.FC4, Version.FC5].contains v = true → Command.Obeys (FC3_Reboot.cls) haltLines v :=
  obeys_of obeys_haltLines_3_object [0] [1, 4] (obeys_haltLines_3_base) (all_cons obeys_haltLines_3_start (List.forall_mem_nil _)) (obeys_haltLines_3_lines) (by decide +kernel)

theorem obeys_haltLines : haltLines.Obeyed := by
  unfold CommandLines.Obeyed commandMaps
  exact (all_cons (fun _ c h => by cases h; exact obeys_haltLines_0 _ rfl)
    (all_cons (fun _ c h => by cases h; exact obeys_haltLines_0 _ rfl)
    (all_cons (fun _ c h => by cases h; exact obeys_haltLines_0 _ rfl)
    (all_cons (fun _ c h => by cases h; exact obeys_haltLines_0 _ rfl)
    (all_cons (fun _ c h => by cases h; exact obeys_haltLines_0 _ rfl)
    (all_cons (fun _ c h => by cases h; exact obeys_haltLines_0 _ rfl)
    (all_cons (fun _ c h => by cases h; exact obeys_haltLines_0 _ rfl)
    (all_cons (fun _ c h => by cases h; exact obeys_haltLines_0 _ rfl)
    (all_cons (fun _ c h => by cases h; exact obeys_haltLines_1 _ rfl)
    (all_cons (fun _ c h => by cases h; exact obeys_haltLines_1 _ rfl)
    (all_cons (fun _ c h => by cases h; exact obeys_haltLines_1 _ rfl)
    (all_cons (fun _ c h => by cases h; exact obeys_haltLines_1 _ rfl)
    (all_cons (fun _ c h => by cases h; exact obeys_haltLines_1 _ rfl)
    (all_cons (fun _ c h => by cases h; exact obeys_haltLines_2 _ rfl)
    (all_cons (fun _ c h => by cases h; exact obeys_haltLines_2 _ rfl)
    (all_cons (fun _ c h => by cases h; exact obeys_haltLines_2 _ rfl)
    (all_cons (fun _ c h => by cases h; exact obeys_haltLines_2 _ rfl)
    (all_cons (fun _ c h => by cases h; exact obeys_haltLines_2 _ rfl)
    (all_cons (fun _ c h => by cases h; exact obeys_haltLines_2 _ rfl)
    (all_cons (fun _ c h => by cases h; exact obeys_haltLines_2 _ rfl)
    (all_cons (fun _ c h => by cases h; exact obeys_haltLines_2 _ rfl)
    (all_cons (fun _ c h => by cases h; exact obeys_haltLines_2 _ rfl)
    (all_cons (fun _ c h => by cases h; exact obeys_haltLines_2 _ rfl)
    (all_cons (fun _ c h => by cases h; exact obeys_haltLines_2 _ rfl)
    (all_cons (fun _ c h => by cases h; exact obeys_haltLines_2 _ rfl)
    (all_cons (fun _ c h => by cases h; exact obeys_haltLines_0 _ rfl)
    (all_cons (fun _ c h => by cases h; exact obeys_haltLines_0 _ rfl)
    (all_cons (fun _ c h => by cases h; exact obeys_haltLines_0 _ rfl)
    (all_cons (fun _ c h => by cases h; exact obeys_haltLines_3 _ rfl)
    (all_cons (fun _ c h => by cases h; exact obeys_haltLines_3 _ rfl)
    (all_cons (fun _ c h => by cases h; exact obeys_haltLines_3 _ rfl)
    (all_cons (fun _ c h => by cases h; exact obeys_haltLines_0 _ rfl)
    (all_cons (fun _ c h => by cases h; exact obeys_haltLines_3 _ rfl)
    (all_cons (fun _ c h => by cases h; exact obeys_haltLines_3 _ rfl)
    (all_cons (fun _ c h => by cases h; exact obeys_haltLines_0 _ rfl)
    (all_cons (fun _ c h => by cases h; exact obeys_haltLines_0 _ rfl)
    (all_cons (fun _ c h => by cases h; exact obeys_haltLines_1 _ rfl)
    (all_cons (fun _ c h => by cases h; exact obeys_haltLines_2 _ rfl) (List.forall_mem_nil _)))))))))))))))))))))))))))))))))))))))

def obeys_langsupportLines_0_object (_ : Nat) : Ns := [(c!"deflang", .str c!"en_US.UTF-8"), (c!"supported", .list [])]

theorem obeys_langsupportLines_0_base (n : Str) : Command.FirstBase (FC3_LangSupport.cls) n [] obeys_langsupportLines_0_object := by
  intro b b' hb hb' line l; kernel_rfl

theorem obeys_langsupportLines_0_start : Command.FirstStart (FC3_LangSupport.cls) obeys_langsupportLines_0_object (langsupportLines.start.getD 0 ([], [])).2 := fun _ => .inr ⟨fun _ => rfl, by kernel_rfl⟩

theorem obeys_langsupportLines_0_lines (n : Str) : ∀ i ∈ [0], Command.FirstLine (FC3_LangSupport.cls) n [] obeys_langsupportLines_0_object (langsupportLines.lines.getD i noLine) :=
  (all_cons (by intro b b' hb hb' x hx line l; (cases x with | nil => exact absurd rfl hx | cons a x => kernel_rfl))
    (List.forall_mem_nil _))

theorem obeys_langsupportLines_0 : ∀ v, [Version.RHEL3, Version.FC3, Version.RHEL4, Version.FC4].contains v = true → Command.Obeys (FC3_LangSupport.cls) langsupportLines v :=
  obeys_of obeys_langsupportLines_0_object [0] [0] (obeys_langsupportLines_0_base _) (all_cons obeys_langsupportLines_0_start (List.forall_mem_nil _)) (obeys_langsupportLines_0_lines _) (by decide +kernel)

theorem obeys_langsupportLines : langsupportLines.Obeyed := by
  unfold CommandLines.Obeyed commandMaps
  exact (all_cons (fun hv => absurd hv (by decide))
    (all_cons (fun hv => absurd hv (by decide))
    (all_cons (fun hv => absurd hv (by decide))
    (all_cons (fun hv => absurd hv (by decide))
    (all_cons (fun hv => absurd hv (by decide))
    (all_cons (fun hv => absurd hv (by decide))
    (all_cons (fun hv => absurd hv (by decide))
    (all_cons (fun hv => absurd hv (by decide))
    (all_cons (fun hv => absurd hv (by decide))
    (all_cons (fun hv => absurd hv (by decide))
    (all_cons (fun hv => absurd hv (by decide))
    (all_cons (fun hv => absurd hv (by decide))
    (all_cons (fun hv => absurd hv (by decide))
    (all_cons (fun hv => absurd hv (by decide))
    (all_cons (fun hv => absurd hv (by decide))
    (all_cons (fun hv => absurd hv (by decide))
    (all_cons (fun hv => absurd hv (by decide))
    (all_cons (fun hv => absurd hv (by decide))
    (all_cons (fun hv => absurd hv (by decide))
    (all_cons (fun hv => absurd hv (by decide))
    (all_cons (fun hv => absurd hv (by decide))
    (all_cons (fun hv => absurd hv (by decide))
    (all_cons (fun hv => absurd hv (by decide))
    (all_cons (fun hv => absurd hv (by decide))
    (all_cons (fun hv => absurd hv (by decide))
    (all_cons (fun hv => absurd hv (by decide))
    (all_cons (fun hv => absurd hv (by decide))
    (all_cons (fun hv => absurd hv (by decide))
    (all_cons (fun _ c h => by cases h; exact obeys_langsupportLines_0 _ rfl)
    (all_cons (fun _ c h => by cases h; exact obeys_langsupportLines_0 _ rfl)
    (all_cons (fun hv => absurd hv (by decide))
    (all_cons (fun hv => absurd hv (by decide))
    (all_cons (fun _ c h => by cases h; exact obeys_langsupportLines_0 _ rfl)
    (all_cons (fun _ c h => by cases h; exact obeys_langsupportLines_0 _ rfl)
    (all_cons (fun hv => absurd hv (by decide))
    (all_cons (fun hv => absurd hv (by decide))
    (all_cons (fun hv => absurd hv (by decide))
    (all_cons (fun hv => absurd hv (by decide)) (List.forall_mem_nil _)))))))))))))))))))))))))))))))))))))))

def obeys_loggingLines_0_object (_ : Nat) : Ns := [(c!"host", .str c!""), (c!"level", .str c!"info"), (c!"port", .str c!""), (c!"_level_provided", .bool true)]

theorem obeys_loggingLines_0_base (n : Str) : Command.FirstBase (FC6_Logging.cls) n [] obeys_loggingLines_0_object := by
  intro b b' hb hb' line l; kernel_rfl

theorem obeys_loggingLines_0_start : Command.FirstStart (FC6_Logging.cls) obeys_loggingLines_0_object (loggingLines.start.getD 0 ([], [])).2 := fun _ => .inr ⟨fun _ => rfl, by kernel_rfl⟩

theorem obeys_loggingLines_0_lines (n : Str) : ∀ i ∈ [0, 1, 2, 3, 4, 5, 6, 7], Command.FirstLine (FC6_Logging.cls) n [] obeys_loggingLines_0_object (loggingLines.lines.getD i noLine) :=
  (all_cons (by intro b b' hb hb' x hx line l; (cases x with | nil => exact absurd rfl hx | cons a x => kernel_rfl))
    (all_cons (by intro b b' hb hb' x hx line l; (cases x with | nil => exact absurd rfl hx | cons a x => kernel_rfl))
    (all_cons (by intro b b' hb hb' x hx line l; kernel_rfl)
    (all_cons (by intro b b' hb hb' x hx line l; kernel_rfl)
    (all_cons (by intro b b' hb hb' x hx line l; kernel_rfl)
    (all_cons (by intro b b' hb hb' x hx line l; kernel_rfl)
    (all_cons (by intro b b' hb hb' x hx line l; kernel_rfl)
    (all_cons (by intro b b' hb hb' x hx line l; (cases x with | nil => exact absurd rfl hx | cons a x => kernel_rfl))
    (List.forall_mem_nil _)))))))))

theorem obeys_loggingLines_0 : ∀ v, [Version.FC6, Version.RHEL5, Version.F7, Version.F8, Version.F9, Version.F10, Version.F11, Version.F12, Version.F13, Version.RHEL6, Version.F14, Version.F15, Version.F16, Version.F17, Version.F18, Version.F19, Version.F20, Version.F21, Version.RHEL7, Version.F22, Version.F23, Version.F24, Version.F25, Version.F26, Version.F27, Version.F28, Version.RHEL8, Version.F29, Version.F30, Version.F31, Version.F32, Version.F33].contains v = true → Command.Obeys (FC6_Logging.cls) loggingLines v :=
  obeys_of obeys_loggingLines_0_object [0] [0, 1, 2, 3, 4, 5, 6, 7] (obeys_loggingLines_0_base _) (all_cons obeys_loggingLines_0_start (List.forall_mem_nil _)) (obeys_loggingLines_0_lines _) (by decide +kernel)

def obeys_loggingLines_1_object (_ : Nat) : Ns := [(c!"host", .str c!""), (c!"level", .str c!"info"), (c!"port", .str c!""), (c!"_level_provided", .bool true)]

theorem obeys_loggingLines_1_base (n : Str) : Command.FirstBase (F34_Logging.cls) n [] obeys_loggingLines_1_object := by
  intro b b' hb hb' line l; kernel_rfl

theorem obeys_loggingLines_1_start : Command.FirstStart (F34_Logging.cls) obeys_loggingLines_1_object (loggingLines.start.getD 0 ([], [])).2 := fun _ => .inr ⟨fun _ => rfl, by kernel_rfl⟩

theorem obeys_loggingLines_1_lines (n : Str) : ∀ i ∈ [0, 1, 2, 3, 4, 5, 6, 8], Command.FirstLine (F34_Logging.cls) n [] obeys_loggingLines_1_object (loggingLines.lines.getD i noLine) :=
  (all_cons (by intro b b' hb hb' x hx line l; (cases x with | nil => exact absurd rfl hx | cons a x => kernel_rfl))
    (all_cons (by intro b b' hb hb' x hx line l; (cases x with | nil => exact absurd rfl hx | cons a x => kernel_rfl))
    (all_cons (by intro b b' hb hb' x hx line l; kernel_rfl)
    (all_cons (by intro b b' hb hb' x hx line l; kernel_rfl)
    (all_cons (by intro b b' hb hb' x hx line l; kernel_rfl)
    (all_cons (by intro b b' hb hb' x hx line l; kernel_rfl)
    (all_cons (by intro b b' hb hb' x hx line l; kernel_rfl)
    (all_cons (by intro b b' hb hb' x hx line l; (cases x with | nil => exact absurd rfl hx | cons a x => kernel_rfl))
    (List.forall_mem_nil _)))))))))

theorem obeys_loggingLines_1 : ∀ v, [Version.F34].contains v = true → Command.Obeys (F34_Logging.cls) loggingLines v :=
  obeys_of obeys_loggingLines_1_object [0] [0, 1, 2, 3, 4, 5, 6, 8] (obeys_loggingLines_1_base _) (all_cons obeys_loggingLines_1_start (List.forall_mem_nil _)) (obeys_loggingLines_1_lines _) (by decide +kernel)

theorem obeys_loggingLines : loggingLines.Obeyed := by
  unfold CommandLines.Obeyed commandMaps
  exact (all_cons (fun _ c h => by cases h; exact obeys_loggingLines_0 _ rfl)
    (all_cons (fun _ c h => by cases h; exact obeys_loggingLines_0 _ rfl)
    (all_cons (fun _ c h => by cases h; exact obeys_loggingLines_0 _ rfl)
    (all_cons (fun _ c h => by cases h; exact obeys_loggingLines_0 _ rfl)
    (all_cons (fun _ c h => by cases h; exact obeys_loggingLines_0 _ rfl)
    (all_cons (fun _ c h => by cases h; exact obeys_loggingLines_0 _ rfl)
    (all_cons (fun _ c h => by cases h; exact obeys_loggingLines_0 _ rfl)
    (all_cons (fun _ c h => by cases h; exact obeys_loggingLines_0 _ rfl)
    (all_cons (fun _ c h => by cases h; exact obeys_loggingLines_0 _ rfl)
    (all_cons (fun _ c h => by cases h; exact obeys_loggingLines_0 _ rfl)
    (all_cons (fun _ c h => by cases h; exact obeys_loggingLines_0 _ rfl)
    (all_cons (fun _ c h => by cases h; exact obeys_loggingLines_0 _ rfl)
    (all_cons (fun _ c h => by cases h; exact obeys_loggingLines_0 _ rfl)
    (all_cons (fun _ c h => by cases h; exact obeys_loggingLines_0 _ rfl)
    (all_cons (fun _ c h => by cases h; exact obeys_loggingLines_0 _ rfl)
    (all_cons (fun _ c h => by cases h; exact obeys_loggingLines_0 _ rfl)
    (all_cons (fun _ c h => by cases h; exact obeys_loggingLines_0 _ rfl)
    (all_cons (fun _ c h => by cases h; exact obeys_loggingLines_0 _ rfl)
    (all_cons (fun _ c h => by cases h; exact obeys_loggingLines_0 _ rfl)
    (all_cons (fun _ c h => by cases h; exact obeys_loggingLines_0 _ rfl)
    (all_cons (fun _ c h => by cases h; exact obeys_loggingLines_0 _ rfl)
    (all_cons (fun _ c h => by cases h; exact obeys_loggingLines_0 _ rfl)
    (all_cons (fun _ c h => by cases h; exact obeys_loggingLines_0 _ rfl)
    (all_cons (fun _ c h => by cases h; exact obeys_loggingLines_0 _ rfl)
    (all_cons (fun _ c h => by cases h; exact obeys_loggingLines_1 _ rfl)
    (all_cons (fun _ c h => by cases h; exact obeys_loggingLines_0 _ rfl)
    (all_cons (fun _ c h => by cases h; exact obeys_loggingLines_0 _ rfl)
    (all_cons (fun _ c h => by cases h; exact obeys_loggingLines_0 _ rfl)
    (all_cons (fun hv => absurd hv (by decide))
    (all_cons (fun hv => absurd hv (by decide))
    (all_cons (fun hv => absurd hv (by decide))
    (all_cons (fun _ c h => by cases h; exact obeys_loggingLines_0 _ rfl)
    (all_cons (fun hv => absurd hv (by decide))
    (all_cons (fun hv => absurd hv (by decide))
    (all_cons (fun _ c h => by cases h; exact obeys_loggingLines_0 _ rfl)
    (all_cons (fun _ c h => by cases h; exact obeys_loggingLines_0 _ rfl)
    (all_cons (fun _ c h => by cases h; exact obeys_loggingLines_0 _ rfl)
    (all_cons (fun _ c h => by cases h; exact obeys_loggingLines_0 _ rfl) (List.forall_mem_nil _)))))))))))))))))))))))))))))))))))))))

def obeys_loggingLines2_0_object (_ : Nat) : Ns := [(c!"host", .str c!"h"), (c!"level", .str c!"info"), (c!"port", .str c!""), (c!"_level_provided", .bool true)]

theorem obeys_loggingLines2_0_base (n : Str) : Command.FirstBase (FC6_Logging.cls) n [c!"--host=h"] obeys_loggingLines2_0_object := by
  intro b b' hb hb' line l; kernel_rfl

theorem obeys_loggingLines2_0_start : Command.FirstStart (FC6_Logging.cls) obeys_loggingLines2_0_object (loggingLines2.start.getD 0 ([], [])).2 := fun _ => .inr ⟨fun _ => rfl, by kernel_rfl⟩

theorem obeys_loggingLines2_0_lines (n : Str) : ∀ i ∈ [0, 1], Command.FirstLine (FC6_Logging.cls) n [c!"--host=h"] obeys_loggingLines2_0_object (loggingLines2.lines.getD i noLine) :=
  (all_cons (by intro b b' hb hb' x hx line l; (cases x with | nil => exact absurd rfl hx | cons a x => kernel_rfl))
    (all_cons (by intro b b' hb hb' x hx line l; kernel_rfl)
    (List.forall_mem_nil _)))

theorem obeys_loggingLines2_0 : ∀ v, [Version.FC6, Version.RHEL5, Version.F7, Version.F8, Version.F9, Version.F10, Version.F11, Version.F12, Version.F13, Version.RHEL6, Version.F14, Version.F15, Version.F16, Version.F17, Version.F18, Version.F19, Version.F20, Version.F21, Version.RHEL7, Version.F22, Version.F23, Version.F24, Version.F25, Version.F26, Version.F27, Version.F28, Version.RHEL8, Version.F29, Version.F30, Version.F31, Version.F32, Version.F33].contains v = true → Command.Obeys (FC6_Logging.cls) loggingLines2 v :=
  obeys_of obeys_loggingLines2_0_object [0] [0, 1] (obeys_loggingLines2_0_base _) (all_cons obeys_loggingLines2_0_start (List.forall_mem_nil _)) (obeys_loggingLines2_0_lines _) (by decide +kernel)

def obeys_loggingLines2_1_object (_ : Nat) : Ns := [(c!"host", .str c!"h"), (c!"level", .str c!"info"), (c!"port", .str c!""), (c!"_level_provided", .bool true)]

theorem obeys_loggingLines2_1_base (n : Str) : Command.FirstBase (F34_Logging.cls) n [c!"--host=h"] obeys_loggingLines2_1_object := by
  intro b b' hb hb' line l; kernel_rfl

theorem obeys_loggingLines2_1_start : Command.FirstStart (F34_Logging.cls) obeys_loggingLines2_1_object (loggingLines2.start.getD 0 ([], [])).2 := fun _ => .inr ⟨fun _ => rfl, by kernel_rfl⟩

theorem obeys_loggingLines2_1_lines (n : Str) : ∀ i ∈ [0, 1], Command.FirstLine (F34_Logging.cls) n [c!"--host=h"] obeys_loggingLines2_1_object (loggingLines2.lines.getD i noLine) :=
  (all_cons (by intro b b' hb hb' x hx line l; (cases x with | nil => exact absurd rfl hx | cons a x => kernel_rfl))
    (all_cons (by intro b b' hb hb' x hx line l; kernel_rfl)
    (List.forall_mem_nil _)))

theorem obeys_loggingLines2_1 : ∀ v, [Version.F34].contains v = true → Command.Obeys (F34_Logging.cls) loggingLines2 v :=
  obeys_of obeys_loggingLines2_1_object [0] [0, 1] (obeys_loggingLines2_1_base _) (all_cons obeys_loggingLines2_1_start (List.forall_mem_nil _)) (obeys_loggingLines2_1_lines _) (by decide +kernel)

theorem obeys_loggingLines2 : loggingLines2.Obeyed := by
  unfold CommandLines.Obeyed commandMaps
  exact (all_cons (fun _ c h => by cases h; exact obeys_loggingLines2_0 _ rfl)
    (all_cons (fun _ c h => by cases h; exact obeys_loggingLines2_0 _ rfl)
    (all_cons (fun _ c h => by cases h; exact obeys_loggingLines2_0 _ rfl)
    (all_cons (fun _ c h => by cases h; exact obeys_loggingLines2_0 _ rfl)
    (all_cons (fun _ c h => by cases h; exact obeys_loggingLines2_0 _ rfl)
    (all_cons (fun _ c h => by cases h; exact obeys_loggingLines2_0 _ rfl)
    (all_cons (fun _ c h => by cases h; exact obeys_loggingLines2_0 _ rfl)
    (all_cons (fun _ c h => by cases h; exact obeys_loggingLines2_0 _ rfl)
    (all_cons (fun _ c h => by cases h; exact obeys_loggingLines2_0 _ rfl)
    (all_cons (fun _ c h => by cases h; exact obeys_loggingLines2_0 _ rfl)
    (all_cons (fun _ c h => by cases h; exact obeys_loggingLines2_0 _ rfl)
    (all_cons (fun _ c h => by cases h; exact obeys_loggingLines2_0 _ rfl)
    (all_cons (fun _ c h => by cases h; exact obeys_loggingLines2_0 _ rfl)
    (all_cons (fun _ c h => by cases h; exact obeys_loggingLines2_0 _ rfl)
    (all_cons (fun _ c h => by cases h; exact obeys_loggingLines2_0 _ rfl)
    (all_cons (fun _ c h => by cases h; exact obeys_loggingLines2_0 _ rfl)
    (all_cons (fun _ c h => by cases h; exact obeys_loggingLines2_0 _ rfl)
    (all_cons (fun _ c h => by cases h; exact obeys_loggingLines2_0 _ rfl)
    (all_cons (fun _ c h => by cases h; exact obeys_loggingLines2_0 _ rfl)
    (all_cons (fun _ c h => by cases h; exact obeys_loggingLines2_0 _ rfl)
    (all_cons (fun _ c h => by cases h; exact obeys_loggingLines2_0 _ rfl)
    (all_cons (fun _ c h => by cases h; exact obeys_loggingLines2_0 _ rfl)
    (all_cons (fun _ c h => by cases h; exact obeys_loggingLines2_0 _ rfl)
    (all_cons (fun _ c h => by cases h; exact obeys_loggingLines2_0 _ rfl)
    (all_cons (fun _ c h => by cases h; exact obeys_loggingLines2_1 _ rfl)
    (all_cons (fun _ c h => by cases h; exact obeys_loggingLines2_0 _ rfl)
    (all_cons (fun _ c h => by cases h; exact obeys_loggingLines2_0 _ rfl)
    (all_cons (fun _ c h => by cases h; exact obeys_loggingLines2_0 _ rfl)
    (all_cons (fun hv => absurd hv (by decide))
    (all_cons (fun hv => absurd hv (by decide))
    (all_cons (fun hv => absurd hv (by decide))
    (all_cons (fun _ c h => by cases h; exact obeys_loggingLines2_0 _ rfl)
    (all_cons (fun hv => absurd hv (by decide))
    (all_cons (fun hv => absurd hv (by decide))
    (all_cons (fun _ c h => by cases h; exact obeys_loggingLines2_0 _ rfl)
    (all_cons (fun _ c h => by cases h; exact obeys_loggingLines2_0 _ rfl)
    (all_cons (fun _ c h => by cases h; exact obeys_loggingLines2_0 _ rfl)
    (all_cons (fun _ c h => by cases h; exact obeys_loggingLines2_0 _ rfl) (List.forall_mem_nil _)))))))))))))))))))))))))))))))))))))))

def obeys_moduleLines_0_object (l : Nat) : Ns := [(c!"lineno", .int l), (c!"name", .str c!"m"), (c!"stream", .str c!"")]

theorem obeys_moduleLines_0_base (n : Str) : Command.FirstBase (F29_Module.cls F29_ModuleData.cls) n [c!"--name=m"] obeys_moduleLines_0_object := by
  intro b b' hb hb' line l; kernel_rfl

theorem obeys_moduleLines_0_start : Command.FirstStart (F29_Module.cls F29_ModuleData.cls) obeys_moduleLines_0_object (moduleLines.start.getD 0 ([], [])).2 := fun _ => .inl ⟨fun _ => rfl, (all_cons (by kernel_rfl) (List.forall_mem_nil _))⟩

theorem obeys_moduleLines_0_lines (n : Str) : ∀ i ∈ [0, 1, 2], Command.FirstLine (F29_Module.cls F29_ModuleData.cls) n [c!"--name=m"] obeys_moduleLines_0_object (moduleLines.lines.getD i noLine) :=
  (all_cons (by intro b b' hb hb' x hx line l; (cases x with | nil => exact absurd rfl hx | cons a x => kernel_rfl))
    (all_cons (by intro b b' hb hb' x hx line l; (cases x with | nil => exact absurd rfl hx | cons a x => kernel_rfl))
    (all_cons (by intro b b' hb hb' x hx line l; kernel_rfl)
    (List.forall_mem_nil _))))

theorem obeys_moduleLines_0 : ∀ v, [Version.F29, Version.F30].contains v = true → Command.Obeys (F29_Module.cls F29_ModuleData.cls) moduleLines v :=
  obeys_of obeys_moduleLines_0_object [0] [0, 1, 2] (obeys_moduleLines_0_base _) (all_cons obeys_moduleLines_0_start (List.forall_mem_nil _)) (obeys_moduleLines_0_lines _) (by decide +kernel)

def obeys_moduleLines_1_object (l : Nat) : Ns := [(c!"lineno", .int l), (c!"name", .str c!"m"), (c!"stream", .str c!""), (c!"enable", .bool true)]

theorem obeys_moduleLines_1_base (n : Str) : Command.FirstBase (F31_Module.cls F31_ModuleData.cls) n [c!"--name=m"] obeys_moduleLines_1_object := by
  intro b b' hb hb' line l; kernel_rfl

theorem obeys_moduleLines_1_start : Command.FirstStart (F31_Module.cls F31_ModuleData.cls) obeys_moduleLines_1_object (moduleLines.start.getD 1 ([], [])).2 := fun _ => .inl ⟨fun _ => rfl, (all_cons (by kernel_rfl) (all_cons (by kernel_rfl) (List.forall_mem_nil _)))⟩

theorem obeys_moduleLines_1_lines (n : Str) : ∀ i ∈ [0, 1, 3], Command.FirstLine (F31_Module.cls F31_ModuleData.cls) n [c!"--name=m"] obeys_moduleLines_1_object (moduleLines.lines.getD i noLine) :=
  (all_cons (by intro b b' hb hb' x hx line l; (cases x with | nil => exact absurd rfl hx | cons a x => kernel_rfl))
    (all_cons (by intro b b' hb hb' x hx line l; (cases x with | nil => exact absurd rfl hx | cons a x => kernel_rfl))
    (all_cons (by intro b b' hb hb' x hx line l; kernel_rfl)
    (List.forall_mem_nil _))))

theorem obeys_moduleLines_1 : ∀ v, [Version.F31, Version.F32, Version.F33, Version.F34].contains v = true → Command.Obeys (F31_Module.cls F31_ModuleData.cls) moduleLines v :=
  obeys_of obeys_moduleLines_1_object [1] [0, 1, 3] (obeys_moduleLines_1_base _) (all_cons obeys_moduleLines_1_start (List.forall_mem_nil _)) (obeys_moduleLines_1_lines _) (by decide +kernel)

def obeys_moduleLines_2_object (l : Nat) : Ns := [(c!"lineno", .int l), (c!"name", .str c!"m"), (c!"stream", .str c!""), (c!"enable", .bool true)]

theorem obeys_moduleLines_2_base (n : Str) : Command.FirstBase (RHEL8_Module.cls RHEL8_ModuleData.cls) n [c!"--name=m"] obeys_moduleLines_2_object := by
  intro b b' hb hb' line l; kernel_rfl

theorem obeys_moduleLines_2_start : Command.FirstStart (RHEL8_Module.cls RHEL8_ModuleData.cls) obeys_moduleLines_2_object (moduleLines.start.getD 1 ([], [])).2 := fun _ => .inl ⟨fun _ => rfl, (all_cons (by kernel_rfl) (all_cons (by kernel_rfl) (List.forall_mem_nil _)))⟩

theorem obeys_moduleLines_2_lines (n : Str) : ∀ i ∈ [0, 1, 3], Command.FirstLine (RHEL8_Module.cls RHEL8_ModuleData.cls) n [c!"--name=m"] obeys_moduleLines_2_object (moduleLines.lines.getD i noLine) :=
  (all_cons (by intro b b' hb hb' x hx line l; (cases x with | nil => exact absurd rfl hx | cons a x => kernel_rfl))
    (all_cons (by intro b b' hb hb' x hx line l; (cases x with | nil => exact absurd rfl hx | cons a x => kernel_rfl))
    (all_cons (by intro b b' hb hb' x hx line l; kernel_rfl)
    (List.forall_mem_nil _))))

theorem obeys_moduleLines_2 : ∀ v, [Version.RHEL8].contains v = true → Command.Obeys (RHEL8_Module.cls RHEL8_ModuleData.cls) moduleLines v :=
  obeys_of obeys_moduleLines_2_object [1] [0, 1, 3] (obeys_moduleLines_2_base _) (all_cons obeys_moduleLines_2_start (List.forall_mem_nil _)) (obeys_moduleLines_2_lines _) (by decide +kernel)

theorem obeys_moduleLines : moduleLines.Obeyed := by
  unfold CommandLines.Obeyed commandMaps
  exact (all_cons (fun hv => absurd hv (by decide))
    (all_cons (fun hv => absurd hv (by decide))
    (all_cons (fun hv => absurd hv (by decide))
    (all_cons (fun hv => absurd hv (by decide))
    (all_cons (fun hv => absurd hv (by decide))
    (all_cons (fun hv => absurd hv (by decide))
    (all_cons (fun hv => absurd hv (by decide))
    (all_cons (fun hv => absurd hv (by decide))
    (all_cons (fun hv => absurd hv (by decide))
    (all_cons (fun hv => absurd hv (by decide))
    (all_cons (fun hv => absurd hv (by decide))
    (all_cons (fun hv => absurd hv (by decide))
    (all_cons (fun hv => absurd hv (by decide))
    (all_cons (fun hv => absurd hv (by decide))
    (all_cons (fun hv => absurd hv (by decide))
    (all_cons (fun hv => absurd hv (by decide))
    (all_cons (fun hv => absurd hv (by decide))
    (all_cons (fun hv => absurd hv (by decide))
    (all_cons (fun hv => absurd hv (by decide))
    (all_cons (fun _ c h => by cases h; exact obeys_moduleLines_0 _ rfl)
    (all_cons (fun _ c h => by cases h; exact obeys_moduleLines_0 _ rfl)
    (all_cons (fun _ c h => by cases h; exact obeys_moduleLines_1 _ rfl)
    (all_cons (fun _ c h => by cases h; exact obeys_moduleLines_1 _ rfl)
    (all_cons (fun _ c h => by cases h; exact obeys_moduleLines_1 _ rfl)
    (all_cons (fun _ c h => by cases h; exact obeys_moduleLines_1 _ rfl)
    (all_cons (fun hv => absurd hv (by decide))
    (all_cons (fun hv => absurd hv (by decide))
    (all_cons (fun hv => absurd hv (by decide))
    (all_cons (fun hv => absurd hv (by decide))
    (all_cons (fun hv => absurd hv (by decide))
    (all_cons (fun hv => absurd hv (by decide))
    (all_cons (fun hv => absurd hv (by decide))
    (all_cons (fun hv => absurd hv (by decide))
    (all_cons (fun hv => absurd hv (by decide))
    (all_cons (fun hv => absurd hv (by decide))
    (all_cons (fun hv => absurd hv (by decide))
    (all_cons (fun hv => absurd hv (by decide))
    (all_cons (fun _ c h => by cases h; exact obeys_moduleLines_2 _ rfl) (List.forall_mem_nil _)))))))))))))))))))))))))))))))))))))))

def obeys_rhsmLines_0_object (_ : Nat) : Ns := [(c!"organization", .str c!"o"), (c!"activation_keys", .list [c!"k"]), (c!"connect_to_insights", .bool false), (c!"proxy", .none), (c!"server_hostname", .none), (c!"rhsm_baseurl", .none)]

theorem obeys_rhsmLines_0_base (n : Str) : Command.FirstBase (RHEL8_RHSM.cls) n [c!"--organization=o", c!"--activation-key=k"] obeys_rhsmLines_0_object := by
  intro b b' hb hb' line l; kernel_rfl

theorem obeys_rhsmLines_0_start : Command.FirstStart (RHEL8_RHSM.cls) obeys_rhsmLines_0_object (rhsmLines.start.getD 0 ([], [])).2 := fun _ => .inr ⟨fun _ => rfl, by kernel_rfl⟩

theorem obeys_rhsmLines_0_lines (n : Str) : ∀ i ∈ [0, 1, 2, 3, 4, 5], Command.FirstLine (RHEL8_RHSM.cls) n [c!"--organization=o", c!"--activation-key=k"] obeys_rhsmLines_0_object (rhsmLines.lines.getD i noLine) :=
  (all_cons (by intro b b' hb hb' x hx line l; (cases x with | nil => exact absurd rfl hx | cons a x => kernel_rfl))
    (all_cons (by intro b b' hb hb' x hx line l; (cases x with | nil => exact absurd rfl hx | cons a x => kernel_rfl))
    (all_cons (by intro b b' hb hb' x hx line l; kernel_rfl)
    (all_cons (by intro b b' hb hb' x hx line l; (cases x with | nil => exact absurd rfl hx | cons a x => kernel_rfl))
    (all_cons (by intro b b' hb hb' x hx line l; (cases x with | nil => exact absurd rfl hx | cons a x => kernel_rfl))
    (all_cons (by intro b b' hb hb' x hx line l; (cases x with | nil => exact absurd rfl hx | cons a x => kernel_rfl))
    (List.forall_mem_nil _)))))))

theorem obeys_rhsmLines_0 : ∀ v, [Version.RHEL8].contains v = true → Command.Obeys (RHEL8_RHSM.cls) rhsmLines v :=
  obeys_of obeys_rhsmLines_0_object [0] [0, 1, 2, 3, 4, 5] (obeys_rhsmLines_0_base _) (all_cons obeys_rhsmLines_0_start (List.forall_mem_nil _)) (obeys_rhsmLines_0_lines _) (by decide +kernel)

theorem obeys_rhsmLines : rhsmLines.Obeyed := by
  unfold CommandLines.Obeyed commandMaps
  exact (all_cons (fun hv => absurd hv (by decide))
    (all_cons (fun hv => absurd hv (by decide))
    (all_cons (fun hv => absurd hv (by decide))
    (all_cons (fun hv => absurd hv (by decide))
    (all_cons (fun hv => absurd hv (by decide))
    (all_cons (fun hv => absurd hv (by decide))
    (all_cons (fun hv => absurd hv (by decide))
    (all_cons (fun hv => absurd hv (by decide))
    (all_cons (fun hv => absurd hv (by decide))
    (all_cons (fun hv => absurd hv (by decide))
    (all_cons (fun hv => absurd hv (by decide))
    (all_cons (fun hv => absurd hv (by decide))
    (all_cons (fun hv => absurd hv (by decide))
    (all_cons (fun hv => absurd hv (by decide))
    (all_cons (fun hv => absurd hv (by decide))
    (all_cons (fun hv => absurd hv (by decide))
    (all_cons (fun hv => absurd hv (by decide))
    (all_cons (fun hv => absurd hv (by decide))
    (all_cons (fun hv => absurd hv (by decide))
    (all_cons (fun hv => absurd hv (by decide))
    (all_cons (fun hv => absurd hv (by decide))
    (all_cons (fun hv => absurd hv (by decide))
    (all_cons (fun hv => absurd hv (by decide))
    (all_cons (fun hv => absurd hv (by decide))
    (all_cons (fun hv => absurd hv (by decide))
    (all_cons (fun hv => absurd hv (by decide))
    (all_cons (fun hv => absurd hv (by decide))
    (all_cons (fun hv => absurd hv (by decide))
    (all_cons (fun hv => absurd hv (by decide))
    (all_cons (fun hv => absurd hv (by decide))
    (all_cons (fun hv => absurd hv (by decide))
    (all_cons (fun hv => absurd hv (by decide))
    (all_cons (fun hv => absurd hv (by decide))
    (all_cons (fun hv => absurd hv (by decide))
    (all_cons (fun hv => absurd hv (by decide))
    (all_cons (fun hv => absurd hv (by decide))
    (all_cons (fun hv => absurd hv (by decide))
    (all_cons (fun _ c h => by cases h; exact obeys_rhsmLines_0 _ rfl) (List.forall_mem_nil _)))))))))))))))))))))))))))))))))))))))

def obeys_rootpwLines_0_object (_ : Nat) : Ns := [(c!"isCrypted", .bool false), (c!"password", .str c!"P"), (c!"lock", .bool false)]

theorem obeys_rootpwLines_0_base (n : Str) : Command.FirstBase (F8_RootPw.cls) n [c!"P"] obeys_rootpwLines_0_object := by
  intro b b' hb hb' line l; kernel_rfl

theorem obeys_rootpwLines_0_start : Command.FirstStart (F8_RootPw.cls) obeys_rootpwLines_0_object (rootpwLines.start.getD 0 ([], [])).2 := fun _ => .inr ⟨fun _ => rfl, by kernel_rfl⟩

theorem obeys_rootpwLines_0_lines (n : Str) : ∀ i ∈ [0, 1, 3], Command.FirstLine (F8_RootPw.cls) n [c!"P"] obeys_rootpwLines_0_object (rootpwLines.lines.getD i noLine) :=
  (all_cons (by intro b b' hb hb' x hx line l; kernel_rfl)
    (all_cons (by intro b b' hb hb' x hx line l; kernel_rfl)
    (all_cons (by intro b b' hb hb' x hx line l; kernel_rfl)
    (List.forall_mem_nil _))))

theorem obeys_rootpwLines_0 : ∀ v, [Version.F8, Version.F9, Version.F10, Version.F11, Version.F12, Version.F13, Version.RHEL6, Version.F14, Version.F15, Version.F16, Version.F17].contains v = true → Command.Obeys (F8_RootPw.cls) rootpwLines v :=
  obeys_of obeys_rootpwLines_0_object [0] [0, 1, 3] (obeys_rootpwLines_0_base _) (all_cons obeys_rootpwLines_0_start (List.forall_mem_nil _)) (obeys_rootpwLines_0_lines _) (by decide +kernel)

def obeys_rootpwLines_1_object (_ : Nat) : Ns := [(c!"isCrypted", .bool false), (c!"password", .str c!"P"), (c!"lock", .bool false)]

theorem obeys_rootpwLines_1_base (n : Str) : Command.FirstBase (F18_RootPw.cls) n [c!"P"] obeys_rootpwLines_1_object := by
  intro b b' hb hb' line l; kernel_rfl

theorem obeys_rootpwLines_1_start : Command.FirstStart (F18_RootPw.cls) obeys_rootpwLines_1_object (rootpwLines.start.getD 0 ([], [])).2 := fun _ => .inr ⟨fun _ => rfl, by kernel_rfl⟩

theorem obeys_rootpwLines_1_lines (n : Str) : ∀ i ∈ [0, 1, 3], Command.FirstLine (F18_RootPw.cls) n [c!"P"] obeys_rootpwLines_1_object (rootpwLines.lines.getD i noLine) :=
  (all_cons (by intro b b' hb hb' x hx line l; kernel_rfl)
    (all_cons (by intro b b' hb hb' x hx line l; kernel_rfl)
    (all_cons (by intro b b' hb hb' x hx line l; kernel_rfl)
    (List.forall_mem_nil _))))

theorem obeys_rootpwLines_1 : ∀ v, [Version.F18, Version.F19, Version.F20, Version.F21, Version.RHEL7, Version.F22, Version.F23, Version.F24, Version.F25, Version.F26, Version.F27, Version.F28, Version.RHEL8, Version.F29, Version.F30, Version.F31, Version.F32, Version.F33, Version.F34].contains v = true → Command.Obeys (F18_RootPw.cls) rootpwLines v :=
  obeys_of obeys_rootpwLines_1_object [0] [0, 1, 3] (obeys_rootpwLines_1_base _) (all_cons obeys_rootpwLines_1_start (List.forall_mem_nil _)) (obeys_rootpwLines_1_lines _) (by decide +kernel)

def obeys_rootpwLines_2_object (_ : Nat) : Ns := [(c!"isCrypted", .bool false), (c!"password", .str c!"P")]

theorem obeys_rootpwLines_2_base (n : Str) : Command.FirstBase (FC3_RootPw.cls) n [c!"P"] obeys_rootpwLines_2_object := by
  intro b b' hb hb' line l; kernel_rfl

theorem obeys_rootpwLines_2_start : Command.FirstStart (FC3_RootPw.cls) obeys_rootpwLines_2_object (rootpwLines.start.getD 0 ([], [])).2 := fun _ => .inr ⟨fun _ => rfl, by kernel_rfl⟩

theorem obeys_rootpwLines_2_lines (n : Str) : ∀ i ∈ [0, 2, 4], Command.FirstLine (FC3_RootPw.cls) n [c!"P"] obeys_rootpwLines_2_object (rootpwLines.lines.getD i noLine) :=
  (all_cons (by intro b b' hb hb' x hx line l; kernel_rfl)
    (all_cons (by intro b b' hb hb' x hx line l; kernel_rfl)
    (all_cons (by intro b b' hb hb' x hx line l; kernel_rfl)
    (List.forall_mem_nil _))))

theorem obeys_rootpwLines_2 : ∀ v, [Version.RHEL3, Version.FC3, Version.RHEL4, Version.FC4, Version.FC5, Version.FC6, Version.RHEL5, Version.F7].contains v = true → Command.Obeys (FC3_RootPw.cls) rootpwLines v :=
  obeys_of obeys_rootpwLines_2_object [0] [0, 2, 4] (obeys_rootpwLines_2_base _) (all_cons obeys_rootpwLines_2_start (List.forall_mem_nil _)) (obeys_rootpwLines_2_lines _) (by decide +kernel)

theorem obeys_rootpwLines : rootpwLines.Obeyed := by
  unfold CommandLines.Obeyed commandMaps
  exact (all_cons (fun _ c h => by cases h; exact obeys_rootpwLines_0 _ rfl)
    (all_cons (fun _ c h => by cases h; exact obeys_rootpwLines_0 _ rfl)
    (all_cons (fun _ c h => by cases h; exact obeys_rootpwLines_0 _ rfl)
    (all_cons (fun _ c h => by cases h; exact obeys_rootpwLines_0 _ rfl)
    (all_cons (fun _ c h => by cases h; exact obeys_rootpwLines_0 _ rfl)
    (all_cons (fun _ c h => by cases h; exact obeys_rootpwLines_0 _ rfl)
    (all_cons (fun _ c h => by cases h; exact obeys_rootpwLines_0 _ rfl)
    (all_cons (fun _ c h => by cases h; exact obeys_rootpwLines_0 _ rfl)
    (all_cons (fun _ c h => by cases h; exact obeys_rootpwLines_1 _ rfl)
    (all_cons (fun _ c h => by cases h; exact obeys_rootpwLines_1 _ rfl)
    (all_cons (fun _ c h => by cases h; exact obeys_rootpwLines_1 _ rfl)
    (all_cons (fun _ c h => by cases h; exact obeys_rootpwLines_1 _ rfl)
    (all_cons (fun _ c h => by cases h; exact obeys_rootpwLines_1 _ rfl)
    (all_cons (fun _ c h => by cases h; exact obeys_rootpwLines_1 _ rfl)
    (all_cons (fun _ c h => by cases h; exact obeys_rootpwLines_1 _ rfl)
    (all_cons (fun _ c h => by cases h; exact obeys_rootpwLines_1 _ rfl)
    (all_cons (fun _ c h => by cases h; exact obeys_rootpwLines_1 _ rfl)
    (all_cons (fun _ c h => by cases h; exact obeys_rootpwLines_1 _ rfl)
    (all_cons (fun _ c h => by cases h; exact obeys_rootpwLines_1 _ rfl)
    (all_cons (fun _ c h => by cases h; exact obeys_rootpwLines_1 _ rfl)
    (all_cons (fun _ c h => by cases h; exact obeys_rootpwLines_1 _ rfl)
    (all_cons (fun _ c h => by cases h; exact obeys_rootpwLines_1 _ rfl)
    (all_cons (fun _ c h => by cases h; exact obeys_rootpwLines_1 _ rfl)
    (all_cons (fun _ c h => by cases h; exact obeys_rootpwLines_1 _ rfl)
    (all_cons (fun _ c h => by cases h; exact obeys_rootpwLines_1 _ rfl)
    (all_cons (fun _ c h => by cases h; exact obeys_rootpwLines_2 _ rfl)
    (all_cons (fun _ c h => by cases h; exact obeys_rootpwLines_0 _ rfl)
    (all_cons (fun _ c h => by cases h; exact obeys_rootpwLines_0 _ rfl)
    (all_cons (fun _ c h => by cases h; exact obeys_rootpwLines_2 _ rfl)
    (all_cons (fun _ c h => by cases h; exact obeys_rootpwLines_2 _ rfl)
    (all_cons (fun _ c h => by cases h; exact obeys_rootpwLines_2 _ rfl)
    (all_cons (fun _ c h => by cases h; exact obeys_rootpwLines_2 _ rfl)
    (all_cons (fun _ c h => by cases h; exact obeys_rootpwLines_2 _ rfl)
    (all_cons (fun _ c h => by cases h; exact obeys_rootpwLines_2 _ rfl)
    (all_cons (fun _ c h => by cases h; exact obeys_rootpwLines_2 _ rfl)
    (all_cons (fun _ c h => by cases h; exact obeys_rootpwLines_0 _ rfl)
    (all_cons (fun _ c h => by cases h; exact obeys_rootpwLines_1 _ rfl)
    (all_cons (fun _ c h => by cases h; exact obeys_rootpwLines_1 _ rfl) (List.forall_mem_nil _)))))))))))))))))))))))))))))))))))))))

def obeys_rootpwLines2_0_object (_ : Nat) : Ns := [(c!"isCrypted", .bool false), (c!"password", .str c!""), (c!"lock", .bool true)]

theorem obeys_rootpwLines2_0_base (n : Str) : Command.FirstBase (F18_RootPw.cls) n [c!"--lock"] obeys_rootpwLines2_0_object := by
  intro b b' hb hb' line l; kernel_rfl

theorem obeys_rootpwLines2_0_start : Command.FirstStart (F18_RootPw.cls) obeys_rootpwLines2_0_object (rootpwLines2.start.getD 0 ([], [])).2 := fun _ => .inr ⟨fun _ => rfl, by kernel_rfl⟩

theorem obeys_rootpwLines2_0_lines (n : Str) : ∀ i ∈ [0, 1], Command.FirstLine (F18_RootPw.cls) n [c!"--lock"] obeys_rootpwLines2_0_object (rootpwLines2.lines.getD i noLine) :=
  (all_cons (by intro b b' hb hb' x hx line l; kernel_rfl)
    (all_cons (by intro b b' hb hb' x hx line l; kernel_rfl)
    (List.forall_mem_nil _)))

theorem obeys_rootpwLines2_0 : ∀ v, [Version.F18, Version.F19, Version.F20, Version.F21, Version.RHEL7, Version.F22, Version.F23, Version.F24, Version.F25, Version.F26, Version.F27, Version.F28, Version.RHEL8, Version.F29, Version.F30, Version.F31, Version.F32, Version.F33, Version.F34].contains v = true → Command.Obeys (F18_RootPw.cls) rootpwLines2 v :=
  obeys_of obeys_rootpwLines2_0_object [0] [0, 1] (obeys_rootpwLines2_0_base _) (all_cons obeys_rootpwLines2_0_start (List.forall_mem_nil _)) (obeys_rootpwLines2_0_lines _) (by decide +kernel)

theorem obeys_rootpwLines2 : rootpwLines2.Obeyed := by
  unfold CommandLines.Obeyed commandMaps
  exact (all_cons (fun hv => absurd hv (by decide))
    (all_cons (fun hv => absurd hv (by decide))
    (all_cons (fun hv => absurd hv (by decide))
    (all_cons (fun hv => absurd hv (by decide))
    (all_cons (fun hv => absurd hv (by decide))
    (all_cons (fun hv => absurd hv (by decide))
    (all_cons (fun hv => absurd hv (by decide))
    (all_cons (fun hv => absurd hv (by decide))
    (all_cons (fun _ c h => by cases h; exact obeys_rootpwLines2_0 _ rfl)
    (all_cons (fun _ c h => by cases h; exact obeys_rootpwLines2_0 _ rfl)
    (all_cons (fun _ c h => by cases h; exact obeys_rootpwLines2_0 _ rfl)
    (all_cons (fun _ c h => by cases h; exact obeys_rootpwLines2_0 _ rfl)
    (all_cons (fun _ c h => by cases h; exact obeys_rootpwLines2_0 _ rfl)
    (all_cons (fun _ c h => by cases h; exact obeys_rootpwLines2_0 _ rfl)
    (all_cons (fun _ c h => by cases h; exact obeys_rootpwLines2_0 _ rfl)
    (all_cons (fun _ c h => by cases h; exact obeys_rootpwLines2_0 _ rfl)
    (all_cons (fun _ c h => by cases h; exact obeys_rootpwLines2_0 _ rfl)
    (all_cons (fun _ c h => by cases h; exact obeys_rootpwLines2_0 _ rfl)
    (all_cons (fun _ c h => by cases h; exact obeys_rootpwLines2_0 _ rfl)
    (all_cons (fun _ c h => by cases h; exact obeys_rootpwLines2_0 _ rfl)
    (all_cons (fun _ c h => by cases h; exact obeys_rootpwLines2_0 _ rfl)
    (all_cons (fun _ c h => by cases h; exact obeys_rootpwLines2_0 _ rfl)
    (all_cons (fun _ c h => by cases h; exact obeys_rootpwLines2_0 _ rfl)
    (all_cons (fun _ c h => by cases h; exact obeys_rootpwLines2_0 _ rfl)
    (all_cons (fun _ c h => by cases h; exact obeys_rootpwLines2_0 _ rfl)
    (all_cons (fun hv => absurd hv (by decide))
    (all_cons (fun hv => absurd hv (by decide))
    (all_cons (fun hv => absurd hv (by decide))
    (all_cons (fun hv => absurd hv (by decide))
    (all_cons (fun hv => absurd hv (by decide))
    (all_cons (fun hv => absurd hv (by decide))
    (all_cons (fun hv => absurd hv (by decide))
    (all_cons (fun hv => absurd hv (by decide))
    (all_cons (fun hv => absurd hv (by decide))
    (all_cons (fun hv => absurd hv (by decide))
    (all_cons (fun hv => absurd hv (by decide))
    (all_cons (fun _ c h => by cases h; exact obeys_rootpwLines2_0 _ rfl)
    (all_cons (fun _ c h => by cases h; exact obeys_rootpwLines2_0 _ rfl) (List.forall_mem_nil _)))))))))))))))))))))))))))))))))))))))

def obeys_timezoneLines_0_object (_ : Nat) : Ns := [(c!"isUtc", .bool false), (c!"timezone", .str c!"T")]

theorem obeys_timezoneLines_0_base (n : Str) : Command.FirstBase (FC6_Timezone.cls) n [c!"T"] obeys_timezoneLines_0_object := by
  intro b b' hb hb' line l; kernel_rfl

theorem obeys_timezoneLines_0_start : Command.FirstStart (FC6_Timezone.cls) obeys_timezoneLines_0_object (timezoneLines.start.getD 0 ([], [])).2 := fun _ => .inr ⟨fun _ => rfl, by kernel_rfl⟩

theorem obeys_timezoneLines_0_lines (n : Str) : ∀ i ∈ [0, 1, 3, 5], Command.FirstLine (FC6_Timezone.cls) n [c!"T"] obeys_timezoneLines_0_object (timezoneLines.lines.getD i noLine) :=
  (all_cons (by intro b b' hb hb' x hx line l; kernel_rfl)
    (all_cons (by intro b b' hb hb' x hx line l; kernel_rfl)
    (all_cons (by intro b b' hb hb' x hx line l; kernel_rfl)
    (all_cons (by intro b b' hb hb' x hx line l; kernel_rfl)
    (List.forall_mem_nil _)))))

theorem obeys_timezoneLines_0 : ∀ v, [Version.FC6, Version.RHEL5, Version.F7, Version.F8, Version.F9, Version.F10, Version.F11, Version.F12, Version.F13, Version.RHEL6, Version.F14, Version.F15, Version.F16, Version.F17].contains v = true → Command.Obeys (FC6_Timezone.cls) timezoneLines v :=
  obeys_of obeys_timezoneLines_0_object [0] [0, 1, 3, 5] (obeys_timezoneLines_0_base _) (all_cons obeys_timezoneLines_0_start (List.forall_mem_nil _)) (obeys_timezoneLines_0_lines _) (by decide +kernel)

def obeys_timezoneLines_1_object (_ : Nat) : Ns := [(c!"isUtc", .bool false), (c!"timezone", .str c!"T"), (c!"nontp", .bool false), (c!"ntpservers", .list [])]

theorem obeys_timezoneLines_1_base (n : Str) : Command.FirstBase (F18_Timezone.cls) n [c!"T"] obeys_timezoneLines_1_object := by
  intro b b' hb hb' line l; kernel_rfl

theorem obeys_timezoneLines_1_start : Command.FirstStart (F18_Timezone.cls) obeys_timezoneLines_1_object (timezoneLines.start.getD 0 ([], [])).2 := fun _ => .inr ⟨fun _ => rfl, by kernel_rfl⟩

theorem obeys_timezoneLines_1_lines (n : Str) : ∀ i ∈ [0, 1, 4, 6], Command.FirstLine (F18_Timezone.cls) n [c!"T"] obeys_timezoneLines_1_object (timezoneLines.lines.getD i noLine) :=
  (all_cons (by intro b b' hb hb' x hx line l; kernel_rfl)
    (all_cons (by intro b b' hb hb' x hx line l; kernel_rfl)
    (all_cons (by intro b b' hb hb' x hx line l; kernel_rfl)
    (all_cons (by intro b b' hb hb' x hx line l; kernel_rfl)
    (List.forall_mem_nil _)))))

theorem obeys_timezoneLines_1 : ∀ v, [Version.F18, Version.F19, Version.F20, Version.F21, Version.F22].contains v = true → Command.Obeys (F18_Timezone.cls) timezoneLines v :=
  obeys_of obeys_timezoneLines_1_object [0] [0, 1, 4, 6] (obeys_timezoneLines_1_base _) (all_cons obeys_timezoneLines_1_start (List.forall_mem_nil _)) (obeys_timezoneLines_1_lines _) (by decide +kernel)

def obeys_timezoneLines_2_object (_ : Nat) : Ns := [(c!"isUtc", .bool false), (c!"timezone", .str c!"T"), (c!"nontp", .bool false), (c!"ntpservers", .list [])]

theorem obeys_timezoneLines_2_base (n : Str) : Command.FirstBase (F23_Timezone.cls) n [c!"T"] obeys_timezoneLines_2_object := by
  intro b b' hb hb' line l; kernel_rfl

theorem obeys_timezoneLines_2_start : Command.FirstStart (F23_Timezone.cls) obeys_timezoneLines_2_object (timezoneLines.start.getD 0 ([], [])).2 := fun _ => .inr ⟨fun _ => rfl, by kernel_rfl⟩

theorem obeys_timezoneLines_2_lines (n : Str) : ∀ i ∈ [0, 1, 4, 6], Command.FirstLine (F23_Timezone.cls) n [c!"T"] obeys_timezoneLines_2_object (timezoneLines.lines.getD i noLine) :=
  (all_cons (by intro b b' hb hb' x hx line l; kernel_rfl)
    (all_cons (by intro b b' hb hb' x hx line l; kernel_rfl)
    (all_cons (by intro b b' hb hb' x hx line l; kernel_rfl)
    (all_cons (by intro b b' hb hb' x hx line l; kernel_rfl)
    (List.forall_mem_nil _)))))

theorem obeys_timezoneLines_2 : ∀ v, [Version.F23, Version.F24].contains v = true → Command.Obeys (F23_Timezone.cls) timezoneLines v :=
  obeys_of obeys_timezoneLines_2_object [0] [0, 1, 4, 6] (obeys_timezoneLines_2_base _) (all_cons obeys_timezoneLines_2_start (List.forall_mem_nil _)) (obeys_timezoneLines_2_lines _) (by decide +kernel)

def obeys_timezoneLines_3_object (_ : Nat) : Ns := [(c!"isUtc", .bool false), (c!"timezone", .str c!"T"), (c!"nontp", .bool false), (c!"ntpservers", .list [])]

theorem obeys_timezoneLines_3_base (n : Str) : Command.FirstBase (F25_Timezone.cls) n [c!"T"] obeys_timezoneLines_3_object := by
  intro b b' hb hb' line l; kernel_rfl

theorem obeys_timezoneLines_3_start : Command.FirstStart (F25_Timezone.cls) obeys_timezoneLines_3_object (timezoneLines.start.getD 0 ([], [])).2 := fun _ => .inr ⟨fun _ => rfl, by kernel_rfl⟩

theorem obeys_timezoneLines_3_lines (n : Str) : ∀ i ∈ [0, 1, 4, 6], Command.FirstLine (F25_Timezone.cls) n [c!"T"] obeys_timezoneLines_3_object (timezoneLines.lines.getD i noLine) :=
  (all_cons (by intro b b' hb hb' x hx line l; kernel_rfl)
    (all_cons (by intro b b' hb hb' x hx line l; kernel_rfl)
    (all_cons (by intro b b' hb hb' x hx line l; kernel_rfl)
    (all_cons (by intro b b' hb hb' x hx line l; kernel_rfl)
    (List.forall_mem_nil _)))))

theorem obeys_timezoneLines_3 : ∀ v, [Version.F25, Version.F26, Version.F27, Version.F28, Version.RHEL8, Version.F29, Version.F30, Version.F31].contains v = true → Command.Obeys (F25_Timezone.cls) timezoneLines v :=
  obeys_of obeys_timezoneLines_3_object [0] [0, 1, 4, 6] (obeys_timezoneLines_3_base _) (all_cons obeys_timezoneLines_3_start (List.forall_mem_nil _)) (obeys_timezoneLines_3_lines _) (by decide +kernel)

def obeys_timezoneLines_4_object (_ : Nat) : Ns := [(c!"isUtc", .bool false), (c!"timezone", .str c!"T"), (c!"nontp", .bool false), (c!"ntpservers", .list [])]

theorem obeys_timezoneLines_4_base (n : Str) : Command.FirstBase (F32_Timezone.cls) n [c!"T"] obeys_timezoneLines_4_object := by
  intro b b' hb hb' line l; kernel_rfl

theorem obeys_timezoneLines_4_start : Command.FirstStart (F32_Timezone.cls) obeys_timezoneLines_4_object (timezoneLines.start.getD 0 ([], [])).2 := fun _ => .inr ⟨fun _ => rfl, by kernel_rfl⟩

theorem obeys_timezoneLines_4_lines (n : Str) : ∀ i ∈ [0, 1, 4, 6], Command.FirstLine (F32_Timezone.cls) n [c!"T"] obeys_timezoneLines_4_object (timezoneLines.lines.getD i noLine) :=
  (all_cons (by intro b b' hb hb' x hx line l; kernel_rfl)
    (all_cons (by intro b b' hb hb' x hx line l; kernel_rfl)
    (all_cons (by intro b b' hb hb' x hx line l; kernel_rfl)
    (all_cons (by intro b b' hb hb' x hx line l; kernel_rfl)
    (List.forall_mem_nil _)))))

theorem obeys_timezoneLines_4 : ∀ v, [Version.F32].contains v = true → Command.Obeys (F32_Timezone.cls) timezoneLines v :=
  obeys_of obeys_timezoneLines_4_object [0] [0, 1, 4, 6] (obeys_timezoneLines_4_base _) (all_cons obeys_timezoneLines_4_start (List.forall_mem_nil _)) (obeys_timezoneLines_4_lines _) (by decide +kernel)

def obeys_timezoneLines_5_object (_ : Nat) : Ns := [(c!"isUtc", .bool false), (c!"timezone", .str c!"T"), (c!"nontp", .bool false), (c!"ntpservers", .list [])]

theorem obeys_timezoneLines_5_base (n : Str) : Command.FirstBase (F33_Timezone.cls) n [c!"T"] obeys_timezoneLines_5_object := by
  intro b b' hb hb' line l; kernel_rfl

theorem obeys_timezoneLines_5_start : Command.FirstStart (F33_Timezone.cls) obeys_timezoneLines_5_object (timezoneLines.start.getD 0 ([], [])).2 := fun _ => .inr ⟨fun _ => rfl, by kernel_rfl⟩

theorem obeys_timezoneLines_5_lines (n : Str) : ∀ i ∈ [0, 1, 4, 6], Command.FirstLine (F33_Timezone.cls) n [c!"T"] obeys_timezoneLines_5_object (timezoneLines.lines.getD i noLine) :=
  (all_cons (by intro b b' hb hb' x hx line l; kernel_rfl)
    (all_cons (by intro b b' hb hb' x hx line l; kernel_rfl)
    (all_cons (by intro b b' hb hb' x hx line l; kernel_rfl)
    (all_cons (by intro b b' hb hb' x hx line l; kernel_rfl)
    (List.forall_mem_nil _)))))

theorem obeys_timezoneLines_5 : ∀ v, [Version.F33, Version.F34].contains v = true → Command.Obeys (F33_Timezone.cls) timezoneLines v :=
  obeys_of obeys_timezoneLines_5_object [0] [0, 1, 4, 6] (obeys_timezoneLines_5_base _) (all_cons obeys_timezoneLines_5_start (List.forall_mem_nil _)) (obeys_timezoneLines_5_lines _) (by decide +kernel)

def obeys_timezoneLines_6_object (_ : Nat) : Ns := [(c!"isUtc", .bool false), (c!"timezone", .str c!"T")]

theorem obeys_timezoneLines_6_base (n : Str) : Command.FirstBase (FC3_Timezone.cls) n [c!"T"] obeys_timezoneLines_6_object := by
  intro b b' hb hb' line l; kernel_rfl

theorem obeys_timezoneLines_6_start : Command.FirstStart (FC3_Timezone.cls) obeys_timezoneLines_6_object (timezoneLines.start.getD 0 ([], [])).2 := fun _ => .inr ⟨fun _ => rfl, by kernel_rfl⟩

theorem obeys_timezoneLines_6_lines (n : Str) : ∀ i ∈ [0, 2], Command.FirstLine (FC3_Timezone.cls) n [c!"T"] obeys_timezoneLines_6_object (timezoneLines.lines.getD i noLine) :=
  (all_cons (by intro b b' hb hb' x hx line l; kernel_rfl)
    (all_cons (by intro b b' hb hb' x hx line l; kernel_rfl)
    (List.forall_mem_nil _)))

theorem obeys_timezoneLines_6 : ∀ v, [Version.RHEL3, Version.FC3, Version.RHEL4, Version.FC4, Version.FC5].contains v = true → Command.Obeys (FC3_Timezone.cls) timezoneLines v :=
  obeys_of obeys_timezoneLines_6_object [0] [0, 2] (obeys_timezoneLines_6_base _) (all_cons obeys_timezoneLines_6_start (List.forall_mem_nil _)) (obeys_timezoneLines_6_lines _) (by decide +kernel)

def obeys_timezoneLines_7_object (_ : Nat) : Ns := [(c!"isUtc", .bool false), (c!"timezone", .str c!"T"), (c!"nontp", .bool false), (c!"ntpservers", .list [])]

theorem obeys_timezoneLines_7_base (n : Str) : Command.FirstBase (RHEL7_Timezone.cls) n [c!"T"] obeys_timezoneLines_7_object := by
  intro b b' hb hb' line l; kernel_rfl

theorem obeys_timezoneLines_7_start : Command.FirstStart (RHEL7_Timezone.cls) obeys_timezoneLines_7_object (timezoneLines.start.getD 0 ([], [])).2 := fun _ => .inr ⟨fun _ => rfl, by kernel_rfl⟩

theorem obeys_timezoneLines_7_lines (n : Str) : ∀ i ∈ [0, 1, 4, 6], Command.FirstLine (RHEL7_Timezone.cls) n [c!"T"] obeys_timezoneLines_7_object (timezoneLines.lines.getD i noLine) :=
  (all_cons (by intro b b' hb hb' x hx line l; kernel_rfl)
    (all_cons (by intro b b' hb hb' x hx line l; kernel_rfl)
    (all_cons (by intro b b' hb hb' x hx line l; kernel_rfl)
    (all_cons (by intro b b' hb hb' x hx line l; kernel_rfl)
    (List.forall_mem_nil _)))))

theorem obeys_timezoneLines_7 : ∀ v, [Version.RHEL7].contains v = true → Command.Obeys (RHEL7_Timezone.cls) timezoneLines v :=
  obeys_of obeys_timezoneLines_7_object [0] [0, 1, 4, 6] (obeys_timezoneLines_7_base _) (all_cons obeys_timezoneLines_7_start (List.forall_mem_nil _)) (obeys_timezoneLines_7_lines _) (by decide +kernel)

theorem obeys_timezoneLines : timezoneLines.Obeyed := by
  unfold CommandLines.Obeyed commandMaps
  exact (all_cons (fun _ c h => by cases h; exact obeys_timezoneLines_0 _ rfl)
    (all_cons (fun _ c h => by cases h; exact obeys_timezoneLines_0 _ rfl)
    (all_cons (fun _ c h => by cases h; exact obeys_timezoneLines_0 _ rfl)
    (all_cons (fun _ c h => by cases h; exact obeys_timezoneLines_0 _ rfl)
    (all_cons (fun _ c h => by cases h; exact obeys_timezoneLines_0 _ rfl)
    (all_cons (fun _ c h => by cases h; exact obeys_timezoneLines_0 _ rfl)
    (all_cons (fun _ c h => by cases h; exact obeys_timezoneLines_0 _ rfl)
    (all_cons (fun _ c h => by cases h; exact obeys_timezoneLines_0 _ rfl)
    (all_cons (fun _ c h => by cases h; exact obeys_timezoneLines_1 _ rfl)
    (all_cons (fun _ c h => by cases h; exact obeys_timezoneLines_1 _ rfl)
    (all_cons (fun _ c h => by cases h; exact obeys_timezoneLines_1 _ rfl)
    (all_cons (fun _ c h => by cases h; exact obeys_timezoneLines_1 _ rfl)
    (all_cons (fun _ c h => by cases h; exact obeys_timezoneLines_1 _ rfl)
    (all_cons (fun _ c h => by cases h; exact obeys_timezoneLines_2 _ rfl)
    (all_cons (fun _ c h => by cases h; exact obeys_timezoneLines_2 _ rfl)
    (all_cons (fun _ c h => by cases h; exact obeys_timezoneLines_3 _ rfl)
    (all_cons (fun _ c h => by cases h; exact obeys_timezoneLines_3 _ rfl)
    (all_cons (fun _ c h => by cases h; exact obeys_timezoneLines_3 _ rfl)
    (all_cons (fun _ c h => by cases h; exact obeys_timezoneLines_3 _ rfl)
    (all_cons (fun _ c h => by cases h; exact obeys_timezoneLines_3 _ rfl)
    (all_cons (fun _ c h => by cases h; exact obeys_timezoneLines_3 _ rfl)
    (all_cons (fun _ c h => by cases h; exact obeys_timezoneLines_3 _ rfl)
    (all_cons (fun _ c h => by cases h; exact obeys_timezoneLines_4 _ rfl)
    (all_cons (fun _ c h => by cases h; exact obeys_timezoneLines_5 _ rfl)
    (all_cons (fun _ c h => by cases h; exact obeys_timezoneLines_5 _ rfl)
    (all_cons (fun _ c h => by cases h; exact obeys_timezoneLines_0 _ rfl)
    (all_cons (fun _ c h => by cases h; exact obeys_timezoneLines_0 _ rfl)
    (all_cons (fun _ c h => by cases h; exact obeys_timezoneLines_0 _ rfl)
    (all_cons (fun _ c h => by cases h; exact obeys_timezoneLines_6 _ rfl)
    (all_cons (fun _ c h => by cases h; exact obeys_timezoneLines_6 _ rfl)
    (all_cons (fun _ c h => by cases h; exact obeys_timezoneLines_6 _ rfl)
    (all_cons (fun _ c h => by cases h; exact obeys_timezoneLines_0 _ rfl)
    (all_cons (fun _ c h => by cases h; exact obeys_timezoneLines_6 _ rfl)
    (all_cons (fun _ c h => by cases h; exact obeys_timezoneLines_6 _ rfl)
    (all_cons (fun _ c h => by cases h; exact obeys_timezoneLines_0 _ rfl)
    (all_cons (fun _ c h => by cases h; exact obeys_timezoneLines_0 _ rfl)
    (all_cons (fun _ c h => by cases h; exact obeys_timezoneLines_7 _ rfl)
    (all_cons (fun _ c h => by cases h; exact obeys_timezoneLines_3 _ rfl) (List.forall_mem_nil _)))))))))))))))))))))))))))))))))))))))

def obeys_timezoneLines2_0_object (_ : Nat) : Ns := [(c!"isUtc", .bool true), (c!"timezone", .str c!"T")]

theorem obeys_timezoneLines2_0_base (n : Str) : Command.FirstBase (FC6_Timezone.cls) n [c!"--utc", c!"T"] obeys_timezoneLines2_0_object := by
  intro b b' hb hb' line l; kernel_rfl

theorem obeys_timezoneLines2_0_start : Command.FirstStart (FC6_Timezone.cls) obeys_timezoneLines2_0_object (timezoneLines2.start.getD 0 ([], [])).2 := fun _ => .inr ⟨fun _ => rfl, by kernel_rfl⟩

theorem obeys_timezoneLines2_0_lines (n : Str) : ∀ i ∈ [0, 2], Command.FirstLine (FC6_Timezone.cls) n [c!"--utc", c!"T"] obeys_timezoneLines2_0_object (timezoneLines2.lines.getD i noLine) :=
  (all_cons (by intro b b' hb hb' x hx line l; kernel_rfl)
    (all_cons (by intro b b' hb hb' x hx line l; kernel_rfl)
    (List.forall_mem_nil _)))

theorem obeys_timezoneLines2_0 : ∀ v, [Version.FC6, Version.RHEL5, Version.F7, Version.F8, Version.F9, Version.F10, Version.F11, Version.F12, Version.F13, Version.RHEL6, Version.F14, Version.F15, Version.F16, Version.F17].contains v = true → Command.Obeys (FC6_Timezone.cls) timezoneLines2 v :=
  obeys_of obeys_timezoneLines2_0_object [0] [0, 2] (obeys_timezoneLines2_0_base _) (all_cons obeys_timezoneLines2_0_start (List.forall_mem_nil _)) (obeys_timezoneLines2_0_lines _) (by decide +kernel)

def obeys_timezoneLines2_1_object (_ : Nat) : Ns := [(c!"isUtc", .bool true), (c!"timezone", .str c!"T"), (c!"nontp", .bool false), (c!"ntpservers", .list [])]

theorem obeys_timezoneLines2_1_base (n : Str) : Command.FirstBase (F18_Timezone.cls) n [c!"--utc", c!"T"] obeys_timezoneLines2_1_object := by
  intro b b' hb hb' line l; kernel_rfl

theorem obeys_timezoneLines2_1_start : Command.FirstStart (F18_Timezone.cls) obeys_timezoneLines2_1_object (timezoneLines2.start.getD 0 ([], [])).2 := fun _ => .inr ⟨fun _ => rfl, by kernel_rfl⟩

theorem obeys_timezoneLines2_1_lines (n : Str) : ∀ i ∈ [1, 3], Command.FirstLine (F18_Timezone.cls) n [c!"--utc", c!"T"] obeys_timezoneLines2_1_object (timezoneLines2.lines.getD i noLine) :=
  (all_cons (by intro b b' hb hb' x hx line l; kernel_rfl)
    (all_cons (by intro b b' hb hb' x hx line l; kernel_rfl)
    (List.forall_mem_nil _)))

theorem obeys_timezoneLines2_1 : ∀ v, [Version.F18, Version.F19, Version.F20, Version.F21, Version.F22].contains v = true → Command.Obeys (F18_Timezone.cls) timezoneLines2 v :=
  obeys_of obeys_timezoneLines2_1_object [0] [1, 3] (obeys_timezoneLines2_1_base _) (all_cons obeys_timezoneLines2_1_start (List.forall_mem_nil _)) (obeys_timezoneLines2_1_lines _) (by decide +kernel)

def obeys_timezoneLines2_2_object (_ : Nat) : Ns := [(c!"isUtc", .bool true), (c!"timezone", .str c!"T"), (c!"nontp", .bool false), (c!"ntpservers", .list [])]

theorem obeys_timezoneLines2_2_base (n : Str) : Command.FirstBase (F23_Timezone.cls) n [c!"--utc", c!"T"] obeys_timezoneLines2_2_object := by
  intro b b' hb hb' line l; kernel_rfl

theorem obeys_timezoneLines2_2_start : Command.FirstStart (F23_Timezone.cls) obeys_timezoneLines2_2_object (timezoneLines2.start.getD 0 ([], [])).2 := fun _ => .inr ⟨fun _ => rfl, by kernel_rfl⟩

theorem obeys_timezoneLines2_2_lines (n : Str) : ∀ i ∈ [1, 3], Command.FirstLine (F23_Timezone.cls) n [c!"--utc", c!"T"] obeys_timezoneLines2_2_object (timezoneLines2.lines.getD i noLine) :=
  (all_cons (by intro b b' hb hb' x hx line l; kernel_rfl)
    (all_cons (by intro b b' hb hb' x hx line l; kernel_rfl)
    (List.forall_mem_nil _)))

theorem obeys_timezoneLines2_2 : ∀ v, [Version.F23, Version.F24].contains v = true → Command.Obeys (F23_Timezone.cls) timezoneLines2 v :=
  obeys_of obeys_timezoneLines2_2_object [0] [1, 3] (obeys_timezoneLines2_2_base _) (all_cons obeys_timezoneLines2_2_start (List.forall_mem_nil _)) (obeys_timezoneLines2_2_lines _) (by decide +kernel)

def obeys_timezoneLines2_3_object (_ : Nat) : Ns := [(c!"isUtc", .bool true), (c!"timezone", .str c!"T"), (c!"nontp", .bool false), (c!"ntpservers", .list [])]

theorem obeys_timezoneLines2_3_base (n : Str) : Command.FirstBase (F25_Timezone.cls) n [c!"--utc", c!"T"] obeys_timezoneLines2_3_object := by
  intro b b' hb hb' line l; kernel_rfl

theorem obeys_timezoneLines2_3_start : Command.FirstStart (F25_Timezone.cls) obeys_timezoneLines2_3_object (timezoneLines2.start.getD 0 ([], [])).2 := fun _ => .inr ⟨fun _ => rfl, by kernel_rfl⟩

theorem obeys_timezoneLines2_3_lines (n : Str) : ∀ i ∈ [1, 3], Command.FirstLine (F25_Timezone.cls) n [c!"--utc", c!"T"] obeys_timezoneLines2_3_object (timezoneLines2.lines.getD i noLine) :=
  (all_cons (by intro b b' hb hb' x hx line l; kernel_rfl)
    (all_cons (by intro b b' hb hb' x hx line l; kernel_rfl)
    (List.forall_mem_nil _)))

theorem obeys_timezoneLines2_3 : ∀ v, [Version.F25, Version.F26, Version.F27, Version.F28, Version.RHEL8, Version.F29, Version.F30, Version.F31].contains v = true → Command.Obeys (F25_Timezone.cls) timezoneLines2 v :=
  obeys_of obeys_timezoneLines2_3_object [0] [1, 3] (obeys_timezoneLines2_3_base _) (all_cons obeys_timezoneLines2_3_start (List.forall_mem_nil _)) (obeys_timezoneLines2_3_lines _) (by decide +kernel)

def obeys_timezoneLines2_4_object (_ : Nat) : Ns := [(c!"isUtc", .bool true), (c!"timezone", .str c!"T"), (c!"nontp", .bool false), (c!"ntpservers", .list [])]

theorem obeys_timezoneLines2_4_base (n : Str) : Command.FirstBase (F32_Timezone.cls) n [c!"--utc", c!"T"] obeys_timezoneLines2_4_object := by
  intro b b' hb hb' line l; kernel_rfl

theorem obeys_timezoneLines2_4_start : Command.FirstStart (F32_Timezone.cls) obeys_timezoneLines2_4_object (timezoneLines2.start.getD 0 ([], [])).2 := fun _ => .inr ⟨fun _ => rfl, by kernel_rfl⟩

theorem obeys_timezoneLines2_4_lines (n : Str) : ∀ i ∈ [1, 3], Command.FirstLine (F32_Timezone.cls) n [c!"--utc", c!"T"] obeys_timezoneLines2_4_object (timezoneLines2.lines.getD i noLine) :=
  (all_cons (by intro b b' hb hb' x hx line l; kernel_rfl)
    (all_cons (by intro b b' hb hb' x hx line l; kernel_rfl)
    (List.forall_mem_nil _)))

theorem obeys_timezoneLines2_4 : ∀ v, [Version.F32].contains v = true → Command.Obeys (F32_Timezone.cls) timezoneLines2 v :=
  obeys_of obeys_timezoneLines2_4_object [0] [1, 3] (obeys_timezoneLines2_4_base _) (all_cons obeys_timezoneLines2_4_start (List.forall_mem_nil _)) (obeys_timezoneLines2_4_lines _) (by decide +kernel)

def obeys_timezoneLines2_5_object (_ : Nat) : Ns := [(c!"isUtc", .bool true), (c!"timezone", .str c!"T"), (c!"nontp", .bool false), (c!"ntpservers", .list [])]

theorem obeys_timezoneLines2_5_base (n : Str) : Command.FirstBase (F33_Timezone.cls) n [c!"--utc", c!"T"] obeys_timezoneLines2_5_object := by
  intro b b' hb hb' line l; kernel_rfl

theorem obeys_timezoneLines2_5_start : Command.FirstStart (F33_Timezone.cls) obeys_timezoneLines2_5_object (timezoneLines2.start.getD 0 ([], [])).2 := fun _ => .inr ⟨fun _ => rfl, by kernel_rfl⟩

theorem obeys_timezoneLines2_5_lines (n : Str) : ∀ i ∈ [1, 3], Command.FirstLine (F33_Timezone.cls) n [c!"--utc", c!"T"] obeys_timezoneLines2_5_object (timezoneLines2.lines.getD i noLine) :=
  (all_cons (by intro b b' hb hb' x hx line l; kernel_rfl)
    (all_cons (by intro b b' hb hb' x hx line l; kernel_rfl)
    (List.forall_mem_nil _)))

theorem obeys_timezoneLines2_5 : ∀ v, [Version.F33, Version.F34].contains v = true → Command.Obeys (F33_Timezone.cls) timezoneLines2 v :=
  obeys_of obeys_timezoneLines2_5_object [0] [1, 3] (obeys_timezoneLines2_5_base _) (all_cons obeys_timezoneLines2_5_start (List.forall_mem_nil _)) (obeys_timezoneLines2_5_lines _) (by decide +kernel)

def obeys_timezoneLines2_6_object (_ : Nat) : Ns := [(c!"isUtc", .bool true), (c!"timezone", .str c!"T")]

theorem obeys_timezoneLines2_6_base (n : Str) : Command.FirstBase (FC3_Timezone.cls) n [c!"--utc", c!"T"] obeys_timezoneLines2_6_object := by
  intro b b' hb hb' line l; kernel_rfl

theorem obeys_timezoneLines2_6_start : Command.FirstStart (FC3_Timezone.cls) obeys_timezoneLines2_6_object (timezoneLines2.start.getD 0 ([], [])).2 := fun _ => .inr ⟨fun _ => rfl, by kernel_rfl⟩

theorem obeys_timezoneLines2_6_lines (n : Str) : ∀ i ∈ [], Command.FirstLine (FC3_Timezone.cls) n [c!"--utc", c!"T"] obeys_timezoneLines2_6_object (timezoneLines2.lines.getD i noLine) :=
  (List.forall_mem_nil _)

theorem obeys_timezoneLines2_6 : ∀ v, [Version.RHEL3, Version.FC3, Version.RHEL4, Version.FC4, Version.FC5].contains v = true → Command.Obeys (FC3_Timezone.cls) timezoneLines2 v :=
  obeys_of obeys_timezoneLines2_6_object [0] [] (obeys_timezoneLines2_6_base _) (all_cons obeys_timezoneLines2_6_start (List.forall_mem_nil _)) (obeys_timezoneLines2_6_lines _) (by decide +kernel)

def obeys_timezoneLines2_7_object (_ : Nat) : Ns := [(c!"isUtc", .bool true), (c!"timezone", .str c!"T"), (c!"nontp", .bool false), (c!"ntpservers", .list [])]

theorem obeys_timezoneLines2_7_base (n : Str) : Command.FirstBase (RHEL7_Timezone.cls) n [c!"--utc", c!"T"] obeys_timezoneLines2_7_object := by
  intro b b' hb hb' line l; kernel_rfl

theorem obeys_timezoneLines2_7_start : Command.FirstStart (RHEL7_Timezone.cls) obeys_timezoneLines2_7_object (timezoneLines2.start.getD 0 ([], [])).2 := fun _ => .inr ⟨fun _ => rfl, by kernel_rfl⟩

theorem obeys_timezoneLines2_7_lines (n : Str) : ∀ i ∈ [1, 3], Command.FirstLine (RHEL7_Timezone.cls) n [c!"--utc", c!"T"] obeys_timezoneLines2_7_object (timezoneLines2.lines.getD i noLine) :=
  (all_cons (by intro b b' hb hb' x hx line l; kernel_rfl)
    (all_cons (by intro b b' hb hb' x hx line l; kernel_rfl)
    (List.forall_mem_nil _)))

theorem obeys_timezoneLines2_7 : ∀ v, [Version.RHEL7].contains v = true → Command.Obeys (RHEL7_Timezone.cls) timezoneLines2 v :=
  obeys_of obeys_timezoneLines2_7_object [0] [1, 3] (obeys_timezoneLines2_7_base _) (all_cons obeys_timezoneLines2_7_start (List.forall_mem_nil _)) (obeys_timezoneLines2_7_lines _) (by decide +kernel)

theorem obeys_timezoneLines2 : timezoneLines2.Obeyed := by
  unfold CommandLines.Obeyed commandMaps
  exact (all_cons (fun _ c h => by cases h; exact obeys_timezoneLines2_0 _ rfl)
    (all_cons (fun _ c h => by cases h; exact obeys_timezoneLines2_0 _ rfl)
    (all_cons (fun _ c h => by cases h; exact obeys_timezoneLines2_0 _ rfl)
    (all_cons (fun _ c h => by cases h; exact obeys_timezoneLines2_0 _ rfl)
    (all_cons (fun _ c h => by cases h; exact obeys_timezoneLines2_0 _ rfl)
    (all_cons (fun _ c h => by cases h; exact obeys_timezoneLines2_0 _ rfl)
    (all_cons (fun _ c h => by cases h; exact obeys_timezoneLines2_0 _ rfl)
    (all_cons (fun _ c h => by cases h; exact obeys_timezoneLines2_0 _ rfl)
    (all_cons (fun _ c h => by cases h; exact obeys_timezoneLines2_1 _ rfl)
    (all_cons (fun _ c h => by cases h; exact obeys_timezoneLines2_1 _ rfl)
    (all_cons (fun _ c h => by cases h; exact obeys_timezoneLines2_1 _ rfl)
    (all_cons (fun _ c h => by cases h; exact obeys_timezoneLines2_1 _ rfl)
    (all_cons (fun _ c h => by cases h; exact obeys_timezoneLines2_1 _ rfl)
    (all_cons (fun _ c h => by cases h; exact obeys_timezoneLines2_2 _ rfl)
    (all_cons (fun _ c h => by cases h; exact obeys_timezoneLines2_2 _ rfl)
    (all_cons (fun _ c h => by cases h; exact obeys_timezoneLines2_3 _ rfl)
    (all_cons (fun _ c h => by cases h; exact obeys_timezoneLines2_3 _ rfl)
    (all_cons (fun _ c h => by cases h; exact obeys_timezoneLines2_3 _ rfl)
    (all_cons (fun _ c h => by cases h; exact obeys_timezoneLines2_3 _ rfl)
    (all_cons (fun _ c h => by cases h; exact obeys_timezoneLines2_3 _ rfl)
    (all_cons (fun _ c h => by cases h; exact obeys_timezoneLines2_3 _ rfl)
    (all_cons (fun _ c h => by cases h; exact obeys_timezoneLines2_3 _ rfl)
    (all_cons (fun _ c h => by cases h; exact obeys_timezoneLines2_4 _ rfl)
    (all_cons (fun _ c h => by cases h; exact obeys_timezoneLines2_5 _ rfl)
    (all_cons (fun _ c h => by cases h; exact obeys_timezoneLines2_5 _ rfl)
    (all_cons (fun _ c h => by cases h; exact obeys_timezoneLines2_0 _ rfl)
    (all_cons (fun _ c h => by cases h; exact obeys_timezoneLines2_0 _ rfl)
    (all_cons (fun _ c h => by cases h; exact obeys_timezoneLines2_0 _ rfl)
    (all_cons (fun _ c h => by cases h; exact obeys_timezoneLines2_6 _ rfl)
    (all_cons (fun _ c h => by cases h; exact obeys_timezoneLines2_6 _ rfl)
    (all_cons (fun _ c h => by cases h; exact obeys_timezoneLines2_6 _ rfl)
    (all_cons (fun _ c h => by cases h; exact obeys_timezoneLines2_0 _ rfl)
    (all_cons (fun _ c h => by cases h; exact obeys_timezoneLines2_6 _ rfl)
    (all_cons (fun _ c h => by cases h; exact obeys_timezoneLines2_6 _ rfl)
    (all_cons (fun _ c h => by cases h; exact obeys_timezoneLines2_0 _ rfl)
    (all_cons (fun _ c h => by cases h; exact obeys_timezoneLines2_0 _ rfl)
    (all_cons (fun _ c h => by cases h; exact obeys_timezoneLines2_7 _ rfl)
    (all_cons (fun _ c h => by cases h; exact obeys_timezoneLines2_3 _ rfl) (List.forall_mem_nil _)))))))))))))))))))))))))))))))))))))))

def obeys_volgroupLines_0_object (l : Nat) : Ns := [(c!"lineno", .int l), (c!"format", .bool true), (c!"pesize", .int 32768), (c!"preexist", .bool false), (c!"vgname", .str c!"g"), (c!"physvols", .list [c!"pv.1"]), (c!"name", .list [c!"g"]), (c!"partitions", .list [c!"pv.1"])]

theorem obeys_volgroupLines_0_base (n : Str) : Command.FirstBase (FC3_VolGroup.cls FC3_VolGroupData.cls) n [c!"g", c!"pv.1"] obeys_volgroupLines_0_object := by
  intro b b' hb hb' line l; kernel_rfl

theorem obeys_volgroupLines_0_start : Command.FirstStart (FC3_VolGroup.cls FC3_VolGroupData.cls) obeys_volgroupLines_0_object (volgroupLines.start.getD 0 ([], [])).2 := fun _ => .inl ⟨fun _ => rfl, (all_cons (by kernel_rfl) (all_cons (by kernel_rfl) (all_cons (by kernel_rfl) (all_cons (by kernel_rfl) (all_cons (by kernel_rfl) (all_cons (by kernel_rfl) (List.forall_mem_nil _)))))))⟩

theorem obeys_volgroupLines_0_lines (n : Str) : ∀ i ∈ [0, 1, 2, 3, 5], Command.FirstLine (FC3_VolGroup.cls FC3_VolGroupData.cls) n [c!"g", c!"pv.1"] obeys_volgroupLines_0_object (volgroupLines.lines.getD i noLine) :=
  (all_cons (by intro b b' hb hb' x hx line l; kernel_rfl)
    (all_cons (by intro b b' hb hb' x hx line l; kernel_rfl)
    (all_cons (by intro b b' hb hb' x hx line l; kernel_rfl)
    (all_cons (by intro b b' hb hb' x hx line l; kernel_rfl)
    (all_cons (by intro b b' hb hb' x hx line l; kernel_rfl)
    (List.forall_mem_nil _))))))

theorem obeys_volgroupLines_0 : ∀ v, [Version.RHEL3, Version.FC3, Version.RHEL4, Version.FC4, Version.FC5, Version.FC6, Version.RHEL5, Version.F7, Version.F8, Version.F9, Version.F10, Version.F11, Version.F12, Version.F13, Version.F14, Version.F15].contains v = true → Command.Obeys (FC3_VolGroup.cls FC3_VolGroupData.cls) volgroupLines v :=
  obeys_of obeys_volgroupLines_0_object [0] [0, 1, 2, 3, 5] (obeys_volgroupLines_0_base _) (all_cons obeys_volgroupLines_0_start (List.forall_mem_nil _)) (obeys_volgroupLines_0_lines _) (by decide +kernel)

def obeys_volgroupLines_1_object (l : Nat) : Ns := [(c!"lineno", .int l), (c!"format", .bool true), (c!"pesize", .int 32768), (c!"preexist", .bool false), (c!"vgname", .str c!"g"), (c!"physvols", .list [c!"pv.1"]), (c!"reserved_space", .none), (c!"reserved_percent", .none), (c!"name", .list [c!"g"]), (c!"partitions", .list [c!"pv.1"])]

theorem obeys_volgroupLines_1_base (n : Str) : Command.FirstBase (F16_VolGroup.cls F16_VolGroupData.cls) n [c!"g", c!"pv.1"] obeys_volgroupLines_1_object := by
  intro b b' hb hb' line l; rcases hb with rfl | rfl <;> rcases hb' with rfl | rfl <;> kernel_rfl

theorem obeys_volgroupLines_1_start : Command.FirstStart (F16_VolGroup.cls F16_VolGroupData.cls) obeys_volgroupLines_1_object (volgroupLines.start.getD 0 ([], [])).2 := fun _ => .inl ⟨fun _ => rfl, (all_cons (by kernel_rfl) (all_cons (by kernel_rfl) (all_cons (by kernel_rfl) (all_cons (by kernel_rfl) (all_cons (by kernel_rfl) (all_cons (by kernel_rfl) (List.forall_mem_nil _)))))))⟩

theorem obeys_volgroupLines_1_lines (n : Str) : ∀ i ∈ [0, 1, 2, 4, 6], Command.FirstLine (F16_VolGroup.cls F16_VolGroupData.cls) n [c!"g", c!"pv.1"] obeys_volgroupLines_1_object (volgroupLines.lines.getD i noLine) :=
  (all_cons (by intro b b' hb hb' x hx line l; rcases hb with rfl | rfl <;> rcases hb' with rfl | rfl <;> kernel_rfl)
    (all_cons (by intro b b' hb hb' x hx line l; rcases hb with rfl | rfl <;> rcases hb' with rfl | rfl <;> kernel_rfl)
    (all_cons (by intro b b' hb hb' x hx line l; rcases hb with rfl | rfl <;> rcases hb' with rfl | rfl <;> kernel_rfl)
    (all_cons (by intro b b' hb hb' x hx line l; rcases hb with rfl | rfl <;> rcases hb' with rfl | rfl <;> kernel_rfl)
    (all_cons (by intro b b' hb hb' x hx line l; rcases hb with rfl | rfl <;> rcases hb' with rfl | rfl <;> kernel_rfl)
    (List.forall_mem_nil _))))))

theorem obeys_volgroupLines_1 : ∀ v, [Version.RHEL6, Version.F16, Version.F17, Version.F18, Version.F19, Version.F20].contains v = true → Command.Obeys (F16_VolGroup.cls F16_VolGroupData.cls) volgroupLines v :=
  obeys_of obeys_volgroupLines_1_object [0] [0, 1, 2, 4, 6] (obeys_volgroupLines_1_base _) (all_cons obeys_volgroupLines_1_start (List.forall_mem_nil _)) (obeys_volgroupLines_1_lines _) (by decide +kernel)

def obeys_volgroupLines_2_object (l : Nat) : Ns := [(c!"lineno", .int l), (c!"format", .bool true), (c!"pesize", .int 0), (c!"preexist", .bool false), (c!"vgname", .str c!"g"), (c!"physvols", .list [c!"pv.1"]), (c!"reserved_space", .none), (c!"reserved_percent", .none), (c!"name", .list [c!"g"]), (c!"partitions", .list [c!"pv.1"])]

theorem obeys_volgroupLines_2_base (n : Str) : Command.FirstBase (F21_VolGroup.cls F21_VolGroupData.cls) n [c!"g", c!"pv.1"] obeys_volgroupLines_2_object := by
  intro b b' hb hb' line l; rcases hb with rfl | rfl <;> rcases hb' with rfl | rfl <;> kernel_rfl

theorem obeys_volgroupLines_2_start : Command.FirstStart (F21_VolGroup.cls F21_VolGroupData.cls) obeys_volgroupLines_2_object (volgroupLines.start.getD 1 ([], [])).2 := fun _ => .inl ⟨fun _ => rfl, (all_cons (by kernel_rfl) (all_cons (by kernel_rfl) (all_cons (by kernel_rfl) (all_cons (by kernel_rfl) (all_cons (by kernel_rfl) (List.forall_mem_nil _))))))⟩

theorem obeys_volgroupLines_2_lines (n : Str) : ∀ i ∈ [0, 1, 2, 4, 6], Command.FirstLine (F21_VolGroup.cls F21_VolGroupData.cls) n [c!"g", c!"pv.1"] obeys_volgroupLines_2_object (volgroupLines.lines.getD i noLine) :=
  (all_cons (by intro b b' hb hb' x hx line l; rcases hb with rfl | rfl <;> rcases hb' with rfl | rfl <;> kernel_rfl)
    (all_cons (by intro b b' hb hb' x hx line l; rcases hb with rfl | rfl <;> rcases hb' with rfl | rfl <;> kernel_rfl)
    (all_cons (by intro b b' hb hb' x hx line l; rcases hb with rfl | rfl <;> rcases hb' with rfl | rfl <;> kernel_rfl)
    (all_cons (by intro b b' hb hb' x hx line l; rcases hb with rfl | rfl <;> rcases hb' with rfl | rfl <;> kernel_rfl)
    (all_cons (by intro b b' hb hb' x hx line l; rcases hb with rfl | rfl <;> rcases hb' with rfl | rfl <;> kernel_rfl)
    (List.forall_mem_nil _))))))

theorem obeys_volgroupLines_2 : ∀ v, [Version.F21, Version.F22, Version.F23, Version.F24, Version.F25, Version.F26, Version.F27, Version.F28, Version.F29, Version.F30, Version.F31, Version.F32, Version.F33, Version.F34].contains v = true → Command.Obeys (F21_VolGroup.cls F21_VolGroupData.cls) volgroupLines v :=
  obeys_of obeys_volgroupLines_2_object [1] [0, 1, 2, 4, 6] (obeys_volgroupLines_2_base _) (all_cons obeys_volgroupLines_2_start (List.forall_mem_nil _)) (obeys_volgroupLines_2_lines _) (by decide +kernel)

def obeys_volgroupLines_3_object (l : Nat) : Ns := [(c!"lineno", .int l), (c!"format", .bool true), (c!"pesize", .int 0), (c!"preexist", .bool false), (c!"vgname", .str c!"g"), (c!"physvols", .list [c!"pv.1"]), (c!"reserved_space", .none), (c!"reserved_percent", .none), (c!"name", .list [c!"g"]), (c!"partitions", .list [c!"pv.1"])]

theorem obeys_volgroupLines_3_base (n : Str) : Command.FirstBase (RHEL7_VolGroup.cls RHEL7_VolGroupData.cls) n [c!"g", c!"pv.1"] obeys_volgroupLines_3_object := by
  intro b b' hb hb' line l; rcases hb with rfl | rfl <;> rcases hb' with rfl | rfl <;> kernel_rfl

theorem obeys_volgroupLines_3_start : Command.FirstStart (RHEL7_VolGroup.cls RHEL7_VolGroupData.cls) obeys_volgroupLines_3_object (volgroupLines.start.getD 1 ([], [])).2 := fun _ => .inl ⟨fun _ => rfl, (all_cons (by kernel_rfl) (all_cons (by kernel_rfl) (all_cons (by kernel_rfl) (all_cons (by kernel_rfl) (all_cons (by kernel_rfl) (List.forall_mem_nil _))))))⟩

theorem obeys_volgroupLines_3_lines (n : Str) : ∀ i ∈ [0, 1, 2, 4, 6], Command.FirstLine (RHEL7_VolGroup.cls RHEL7_VolGroupData.cls) n [c!"g", c!"pv.1"] obeys_volgroupLines_3_object (volgroupLines.lines.getD i noLine) :=
  (all_cons (by intro b b' hb hb' x hx line l; rcases hb with rfl | rfl <;> rcases hb' with rfl | rfl <;> kernel_rfl)
    (all_cons (by intro b b' hb hb' x hx line l; rcases hb with rfl | rfl <;> rcases hb' with rfl | rfl <;> kernel_rfl)
    (all_cons (by intro b b' hb hb' x hx line l; rcases hb with rfl | rfl <;> rcases hb' with rfl | rfl <;> kernel_rfl)
    (all_cons (by intro b b' hb hb' x hx line l; rcases hb with rfl | rfl <;> rcases hb' with rfl | rfl <;> kernel_rfl)
    (all_cons (by intro b b' hb hb' x hx line l; rcases hb with rfl | rfl <;> rcases hb' with rfl | rfl <;> kernel_rfl)
    (List.forall_mem_nil _))))))

theorem obeys_volgroupLines_3 : ∀ v, [Version.RHEL7].contains v = true → Command.Obeys (RHEL7_VolGroup.cls RHEL7_VolGroupData.cls) volgroupLines v :=
  obeys_of obeys_volgroupLines_3_object [1] [0, 1, 2, 4, 6] (obeys_volgroupLines_3_base _) (all_cons obeys_volgroupLines_3_start (List.forall_mem_nil _)) (obeys_volgroupLines_3_lines _) (by decide +kernel)

def obeys_volgroupLines_4_object (l : Nat) : Ns := [(c!"lineno", .int l), (c!"format", .bool true), (c!"pesize", .int 0), (c!"preexist", .bool false), (c!"vgname", .str c!"g"), (c!"physvols", .list [c!"pv.1"]), (c!"reserved_space", .none), (c!"reserved_percent", .none), (c!"name", .list [c!"g"]), (c!"partitions", .list [c!"pv.1"])]

theorem obeys_volgroupLines_4_base (n : Str) : Command.FirstBase (RHEL8_VolGroup.cls RHEL8_VolGroupData.cls) n [c!"g", c!"pv.1"] obeys_volgroupLines_4_object := by
  intro b b' hb hb' line l; rcases hb with rfl | rfl <;> rcases hb' with rfl | rfl <;> kernel_rfl

theorem obeys_volgroupLines_4_start : Command.FirstStart (RHEL8_VolGroup.cls RHEL8_VolGroupData.cls) obeys_volgroupLines_4_object (volgroupLines.start.getD 1 ([], [])).2 := fun _ => .inl ⟨fun _ => rfl, (all_cons (by kernel_rfl) (all_cons (by kernel_rfl) (all_cons (by kernel_rfl) (all_cons (by kernel_rfl) (all_cons (by kernel_rfl) (List.forall_mem_nil _))))))⟩

theorem obeys_volgroupLines_4_lines (n : Str) : ∀ i ∈ [0, 1, 2, 4, 6], Command.FirstLine (RHEL8_VolGroup.cls RHEL8_VolGroupData.cls) n [c!"g", c!"pv.1"] obeys_volgroupLines_4_object (volgroupLines.lines.getD i noLine) :=
  (all_cons (by intro b b' hb hb' x hx line l; rcases hb with rfl | rfl <;> rcases hb' with rfl | rfl <;> kernel_rfl)
    (all_cons (by intro b b' hb hb' x hx line l; rcases hb with rfl | rfl <;> rcases hb' with rfl | rfl <;> kernel_rfl)
    (all_cons (by intro b b' hb hb' x hx line l; rcases hb with rfl | rfl <;> rcases hb' with rfl | rfl <;> kernel_rfl)
    (all_cons (by intro b b' hb hb' x hx line l; rcases hb with rfl | rfl <;> rcases hb' with rfl | rfl <;> kernel_rfl)
    (all_cons (by intro b b' hb hb' x hx line l; rcases hb with rfl | rfl <;> rcases hb' with rfl | rfl <;> kernel_rfl)
    (List.forall_mem_nil _))))))

theorem obeys_volgroupLines_4 : ∀ v, [Version.RHEL8].contains v = true → Command.Obeys (RHEL8_VolGroup.cls RHEL8_VolGroupData.cls) volgroupLines v :=
  obeys_of obeys_volgroupLines_4_object [1] [0, 1, 2, 4, 6] (obeys_volgroupLines_4_base _) (all_cons obeys_volgroupLines_4_start (List.forall_mem_nil _)) (obeys_volgroupLines_4_lines _) (by decide +kernel)

theorem obeys_volgroupLines : volgroupLines.Obeyed := by
  unfold CommandLines.Obeyed commandMaps
  exact (all_cons (fun _ c h => by cases h; exact obeys_volgroupLines_0 _ rfl)
    (all_cons (fun _ c h => by cases h; exact obeys_volgroupLines_0 _ rfl)
    (all_cons (fun _ c h => by cases h; exact obeys_volgroupLines_0 _ rfl)
    (all_cons (fun _ c h => by cases h; exact obeys_volgroupLines_0 _ rfl)
    (all_cons (fun _ c h => by cases h; exact obeys_volgroupLines_0 _ rfl)
    (all_cons (fun _ c h => by cases h; exact obeys_volgroupLines_0 _ rfl)
    (all_cons (fun _ c h => by cases h; exact obeys_volgroupLines_1 _ rfl)
    (all_cons (fun _ c h => by cases h; exact obeys_volgroupLines_1 _ rfl)
    (all_cons (fun _ c h => by cases h; exact obeys_volgroupLines_1 _ rfl)
    (all_cons (fun _ c h => by cases h; exact obeys_volgroupLines_1 _ rfl)
    (all_cons (fun _ c h => by cases h; exact obeys_volgroupLines_1 _ rfl)
    (all_cons (fun _ c h => by cases h; exact obeys_volgroupLines_2 _ rfl)
    (all_cons (fun _ c h => by cases h; exact obeys_volgroupLines_2 _ rfl)
    (all_cons (fun _ c h => by cases h; exact obeys_volgroupLines_2 _ rfl)
    (all_cons (fun _ c h => by cases h; exact obeys_volgroupLines_2 _ rfl)
    (all_cons (fun _ c h => by cases h; exact obeys_volgroupLines_2 _ rfl)
    (all_cons (fun _ c h => by cases h; exact obeys_volgroupLines_2 _ rfl)
    (all_cons (fun _ c h => by cases h; exact obeys_volgroupLines_2 _ rfl)
    (all_cons (fun _ c h => by cases h; exact obeys_volgroupLines_2 _ rfl)
    (all_cons (fun _ c h => by cases h; exact obeys_volgroupLines_2 _ rfl)
    (all_cons (fun _ c h => by cases h; exact obeys_volgroupLines_2 _ rfl)
    (all_cons (fun _ c h => by cases h; exact obeys_volgroupLines_2 _ rfl)
    (all_cons (fun _ c h => by cases h; exact obeys_volgroupLines_2 _ rfl)
    (all_cons (fun _ c h => by cases h; exact obeys_volgroupLines_2 _ rfl)
    (all_cons (fun _ c h => by cases h; exact obeys_volgroupLines_2 _ rfl)
    (all_cons (fun _ c h => by cases h; exact obeys_volgroupLines_0 _ rfl)
    (all_cons (fun _ c h => by cases h; exact obeys_volgroupLines_0 _ rfl)
    (all_cons (fun _ c h => by cases h; exact obeys_volgroupLines_0 _ rfl)
    (all_cons (fun _ c h => by cases h; exact obeys_volgroupLines_0 _ rfl)
    (all_cons (fun _ c h => by cases h; exact obeys_volgroupLines_0 _ rfl)
    (all_cons (fun _ c h => by cases h; exact obeys_volgroupLines_0 _ rfl)
    (all_cons (fun _ c h => by cases h; exact obeys_volgroupLines_0 _ rfl)
    (all_cons (fun _ c h => by cases h; exact obeys_volgroupLines_0 _ rfl)
    (all_cons (fun _ c h => by cases h; exact obeys_volgroupLines_0 _ rfl)
    (all_cons (fun _ c h => by cases h; exact obeys_volgroupLines_0 _ rfl)
    (all_cons (fun _ c h => by cases h; exact obeys_volgroupLines_1 _ rfl)
    (all_cons (fun _ c h => by cases h; exact obeys_volgroupLines_3 _ rfl)
    (all_cons (fun _ c h => by cases h; exact obeys_volgroupLines_4 _ rfl) (List.forall_mem_nil _)))))))))))))))))))))))))))))))))))))))

def obeys_volgroupLines2_0_object (l : Nat) : Ns := [(c!"lineno", .int l), (c!"format", .bool false), (c!"pesize", .int 32768), (c!"preexist", .bool true), (c!"vgname", .str c!"g"), (c!"physvols", .list []), (c!"name", .list [c!"g"]), (c!"partitions", .list [])]

theorem obeys_volgroupLines2_0_base (n : Str) : Command.FirstBase (FC3_VolGroup.cls FC3_VolGroupData.cls) n [c!"g", c!"--noformat"] obeys_volgroupLines2_0_object := by
  intro b b' hb hb' line l; kernel_rfl

theorem obeys_volgroupLines2_0_start : Command.FirstStart (FC3_VolGroup.cls FC3_VolGroupData.cls) obeys_volgroupLines2_0_object (volgroupLines2.start.getD 0 ([], [])).2 := fun _ => .inl ⟨fun _ => rfl, (all_cons (by kernel_rfl) (all_cons (by kernel_rfl) (all_cons (by kernel_rfl) (all_cons (by kernel_rfl) (List.forall_mem_nil _)))))⟩

theorem obeys_volgroupLines2_0_lines (n : Str) : ∀ i ∈ [], Command.FirstLine (FC3_VolGroup.cls FC3_VolGroupData.cls) n [c!"g", c!"--noformat"] obeys_volgroupLines2_0_object (volgroupLines2.lines.getD i noLine) :=
  (List.forall_mem_nil _)

theorem obeys_volgroupLines2_0 : ∀ v, [Version.RHEL3, Version.FC3, Version.RHEL4, Version.FC4, Version.FC5, Version.FC6, Version.RHEL5, Version.F7, Version.F8, Version.F9, Version.F10, Version.F11, Version.F12, Version.F13, Version.F14, Version.F15].contains v = true → Command.Obeys (FC3_VolGroup.cls FC3_VolGroupData.cls) volgroupLines2 v :=
  obeys_of obeys_volgroupLines2_0_object [0] [] (obeys_volgroupLines2_0_base _) (all_cons obeys_volgroupLines2_0_start (List.forall_mem_nil _)) (obeys_volgroupLines2_0_lines _) (by decide +kernel)

def obeys_volgroupLines2_1_object (l : Nat) : Ns := [(c!"lineno", .int l), (c!"format", .bool false), (c!"pesize", .int 32768), (c!"preexist", .bool true), (c!"vgname", .str c!"g"), (c!"physvols", .list []), (c!"reserved_space", .none), (c!"reserved_percent", .none), (c!"name", .list [c!"g"]), (c!"partitions", .list [])]

theorem obeys_volgroupLines2_1_base (n : Str) : Command.FirstBase (F16_VolGroup.cls F16_VolGroupData.cls) n [c!"g", c!"--noformat"] obeys_volgroupLines2_1_object := by
  intro b b' hb hb' line l; rcases hb with rfl | rfl <;> rcases hb' with rfl | rfl <;> kernel_rfl

theorem obeys_volgroupLines2_1_start : Command.FirstStart (F16_VolGroup.cls F16_VolGroupData.cls) obeys_volgroupLines2_1_object (volgroupLines2.start.getD 0 ([], [])).2 := fun _ => .inl ⟨fun _ => rfl, (all_cons (by kernel_rfl) (all_cons (by kernel_rfl) (all_cons (by kernel_rfl) (all_cons (by kernel_rfl) (List.forall_mem_nil _)))))⟩

theorem obeys_volgroupLines2_1_lines (n : Str) : ∀ i ∈ [], Command.FirstLine (F16_VolGroup.cls F16_VolGroupData.cls) n [c!"g", c!"--noformat"] obeys_volgroupLines2_1_object (volgroupLines2.lines.getD i noLine) :=
  (List.forall_mem_nil _)

theorem obeys_volgroupLines2_1 : ∀ v, [Version.RHEL6, Version.F16, Version.F17, Version.F18, Version.F19, Version.F20].contains v = true → Command.Obeys (F16_VolGroup.cls F16_VolGroupData.cls) volgroupLines2 v :=
  obeys_of obeys_volgroupLines2_1_object [0] [] (obeys_volgroupLines2_1_base _) (all_cons obeys_volgroupLines2_1_start (List.forall_mem_nil _)) (obeys_volgroupLines2_1_lines _) (by decide +kernel)

def obeys_volgroupLines2_2_object (l : Nat) : Ns := [(c!"lineno", .int l), (c!"format", .bool false), (c!"pesize", .int 0), (c!"preexist", .bool true), (c!"vgname", .str c!"g"), (c!"physvols", .list []), (c!"reserved_space", .none), (c!"reserved_percent", .none), (c!"name", .list [c!"g"]), (c!"partitions", .list [])]

theorem obeys_volgroupLines2_2_base (n : Str) : Command.FirstBase (F21_VolGroup.cls F21_VolGroupData.cls) n [c!"g", c!"--noformat"] obeys_volgroupLines2_2_object := by
  intro b b' hb hb' line l; rcases hb with rfl | rfl <;> rcases hb' with rfl | rfl <;> kernel_rfl

theorem obeys_volgroupLines2_2_start : Command.FirstStart (F21_VolGroup.cls F21_VolGroupData.cls) obeys_volgroupLines2_2_object (volgroupLines2.start.getD 1 ([], [])).2 := fun _ => .inl ⟨fun _ => rfl, (all_cons (by kernel_rfl) (all_cons (by kernel_rfl) (all_cons (by kernel_rfl) (List.forall_mem_nil _))))⟩

theorem obeys_volgroupLines2_2_lines (n : Str) : ∀ i ∈ [], Command.FirstLine (F21_VolGroup.cls F21_VolGroupData.cls) n [c!"g", c!"--noformat"] obeys_volgroupLines2_2_object (volgroupLines2.lines.getD i noLine) :=
  (List.forall_mem_nil _)

theorem obeys_volgroupLines2_2 : ∀ v, [Version.F21, Version.F22, Version.F23, Version.F24, Version.F25, Version.F26, Version.F27, Version.F28, Version.F29, Version.F30, Version.F31, Version.F32, Version.F33, Version.F34].contains v = true → Command.Obeys (F21_VolGroup.cls F21_VolGroupData.cls) volgroupLines2 v :=
  obeys_of obeys_volgroupLines2_2_object [1] [] (obeys_volgroupLines2_2_base _) (all_cons obeys_volgroupLines2_2_start (List.forall_mem_nil _)) (obeys_volgroupLines2_2_lines _) (by decide +kernel)

def obeys_volgroupLines2_3_object (l : Nat) : Ns := [(c!"lineno", .int l), (c!"format", .bool false), (c!"pesize", .int 0), (c!"preexist", .bool true), (c!"vgname", .str c!"g"), (c!"physvols", .list []), (c!"reserved_space", .none), (c!"reserved_percent", .none), (c!"name", .list [c!"g"]), (c!"partitions", .list [])]

theorem obeys_volgroupLines2_3_base (n : Str) : Command.FirstBase (RHEL7_VolGroup.cls RHEL7_VolGroupData.cls) n [c!"g", c!"--noformat"] obeys_volgroupLines2_3_object := by
  intro b b' hb hb' line l; rcases hb with rfl | rfl <;> rcases hb' with rfl | rfl <;> kernel_rfl

theorem obeys_volgroupLines2_3_start : Command.FirstStart (RHEL7_VolGroup.cls RHEL7_VolGroupData.cls) obeys_volgroupLines2_3_object (volgroupLines2.start.getD 1 ([], [])).2 := fun _ => .inl ⟨fun _ => rfl, (all_cons (by kernel_rfl) (all_cons (by kernel_rfl) (all_cons (by kernel_rfl) (List.forall_mem_nil _))))⟩

theorem obeys_volgroupLines2_3_lines (n : Str) : ∀ i ∈ [], Command.FirstLine (RHEL7_VolGroup.cls RHEL7_VolGroupData.cls) n [c!"g", c!"--noformat"] obeys_volgroupLines2_3_object (volgroupLines2.lines.getD i noLine) :=
  (List.forall_mem_nil _)

theorem obeys_volgroupLines2_3 : ∀ v, [Version.RHEL7].contains v = true → Command.Obeys (RHEL7_VolGroup.cls RHEL7_VolGroupData.cls) volgroupLines2 v :=
  obeys_of obeys_volgroupLines2_3_object [1] [] (obeys_volgroupLines2_3_base _) (all_cons obeys_volgroupLines2_3_start (List.forall_mem_nil _)) (obeys_volgroupLines2_3_lines _) (by decide +kernel)

def obeys_volgroupLines2_4_object (l : Nat) : Ns := [(c!"lineno", .int l), (c!"format", .bool false), (c!"pesize", .int 0), (c!"preexist", .bool true), (c!"vgname", .str c!"g"), (c!"physvols", .list []), (c!"reserved_space", .none), (c!"reserved_percent", .none), (c!"name", .list [c!"g"]), (c!"partitions", .list [])]

theorem obeys_volgroupLines2_4_base (n : Str) : Command.FirstBase (RHEL8_VolGroup.cls RHEL8_VolGroupData.cls) n [c!"g", c!"--noformat"] obeys_volgroupLines2_4_object := by
  intro b b' hb hb' line l; rcases hb with rfl | rfl <;> rcases hb' with rfl | rfl <;> kernel_rfl

theorem obeys_volgroupLines2_4_start : Command.FirstStart (RHEL8_VolGroup.cls RHEL8_VolGroupData.cls) obeys_volgroupLines2_4_object (volgroupLines2.start.getD 1 ([], [])).2 := fun _ => .inl ⟨fun _ => rfl, (all_cons (by kernel_rfl) (all_cons (by kernel_rfl) (all_cons (by kernel_rfl) (List.forall_mem_nil _))))⟩

theorem obeys_volgroupLines2_4_lines (n : Str) : ∀ i ∈ [], Command.FirstLine (RHEL8_VolGroup.cls RHEL8_VolGroupData.cls) n [c!"g", c!"--noformat"] obeys_volgroupLines2_4_object (volgroupLines2.lines.getD i noLine) :=
  (List.forall_mem_nil _)

theorem obeys_volgroupLines2_4 : ∀ v, [Version.RHEL8].contains v = true → Command.Obeys (RHEL8_VolGroup.cls RHEL8_VolGroupData.cls) volgroupLines2 v :=
  obeys_of obeys_volgroupLines2_4_object [1] [] (obeys_volgroupLines2_4_base _) (all_cons obeys_volgroupLines2_4_start (List.forall_mem_nil _)) (obeys_volgroupLines2_4_lines _) (by decide +kernel)

theorem obeys_volgroupLines2 : volgroupLines2.Obeyed := by
  unfold CommandLines.Obeyed commandMaps
  exact (all_cons (fun _ c h => by cases h; exact obeys_volgroupLines2_0 _ rfl)
    (all_cons (fun _ c h => by cases h; exact obeys_volgroupLines2_0 _ rfl)
    (all_cons (fun _ c h => by cases h; exact obeys_volgroupLines2_0 _ rfl)
    (all_cons (fun _ c h => by cases h; exact obeys_volgroupLines2_0 _ rfl)
    (all_cons (fun _ c h => by cases h; exact obeys_volgroupLines2_0 _ rfl)
    (all_cons (fun _ c h => by cases h; exact obeys_volgroupLines2_0 _ rfl)
    (all_cons (fun _ c h => by cases h; exact obeys_volgroupLines2_1 _ rfl)
    (all_cons (fun _ c h => by cases h; exact obeys_volgroupLines2_1 _ rfl)
    (all_cons (fun _ c h => by cases h; exact obeys_volgroupLines2_1 _ rfl)
    (all_cons (fun _ c h => by cases h; exact obeys_volgroupLines2_1 _ rfl)
    (all_cons (fun _ c h => by cases h; exact obeys_volgroupLines2_1 _ rfl)
    (all_cons (fun _ c h => by cases h; exact obeys_volgroupLines2_2 _ rfl)
    (all_cons (fun _ c h => by cases h; exact obeys_volgroupLines2_2 _ rfl)
    (all_cons (fun _ c h => by cases h; exact obeys_volgroupLines2_2 _ rfl)
    (all_cons (fun _ c h => by cases h; exact obeys_volgroupLines2_2 _ rfl)
    (all_cons (fun _ c h => by cases h; exact obeys_volgroupLines2_2 _ rfl)
    (all_cons (fun _ c h => by cases h; exact obeys_volgroupLines2_2 _ rfl)
    (all_cons (fun _ c h => by cases h; exact obeys_volgroupLines2_2 _ rfl)
    (all_cons (fun _ c h => by cases h; exact obeys_volgroupLines2_2 _ rfl)
    (all_cons (fun _ c h => by cases h; exact obeys_volgroupLines2_2 _ rfl)
    (all_cons (fun _ c h => by cases h; exact obeys_volgroupLines2_2 _ rfl)
    (all_cons (fun _ c h => by cases h; exact obeys_volgroupLines2_2 _ rfl)
    (all_cons (fun _ c h => by cases h; exact obeys_volgroupLines2_2 _ rfl)
    (all_cons (fun _ c h => by cases h; exact obeys_volgroupLines2_2 _ rfl)
    (all_cons (fun _ c h => by cases h; exact obeys_volgroupLines2_2 _ rfl)
    (all_cons (fun _ c h => by cases h; exact obeys_volgroupLines2_0 _ rfl)
    (all_cons (fun _ c h => by cases h; exact obeys_volgroupLines2_0 _ rfl)
    (all_cons (fun _ c h => by cases h; exact obeys_volgroupLines2_0 _ rfl)
    (all_cons (fun _ c h => by cases h; exact obeys_volgroupLines2_0 _ rfl)
    (all_cons (fun _ c h => by cases h; exact obeys_volgroupLines2_0 _ rfl)
    (all_cons (fun _ c h => by cases h; exact obeys_volgroupLines2_0 _ rfl)
    (all_cons (fun _ c h => by cases h; exact obeys_volgroupLines2_0 _ rfl)
    (all_cons (fun _ c h => by cases h; exact obeys_volgroupLines2_0 _ rfl)
    (all_cons (fun _ c h => by cases h; exact obeys_volgroupLines2_0 _ rfl)
    (all_cons (fun _ c h => by cases h; exact obeys_volgroupLines2_0 _ rfl)
    (all_cons (fun _ c h => by cases h; exact obeys_volgroupLines2_1 _ rfl)
    (all_cons (fun _ c h => by cases h; exact obeys_volgroupLines2_3 _ rfl)
    (all_cons (fun _ c h => by cases h; exact obeys_volgroupLines2_4 _ rfl) (List.forall_mem_nil _)))))))))))))))))))))))))))))))))))))))

def obeys_volgroupLines3_0_object (l : Nat) : Ns := [(c!"lineno", .int l), (c!"format", .bool true), (c!"pesize", .int 32768), (c!"preexist", .bool true), (c!"vgname", .str c!"g"), (c!"physvols", .list []), (c!"name", .list [c!"g"]), (c!"partitions", .list [])]

theorem obeys_volgroupLines3_0_base (n : Str) : Command.FirstBase (FC3_VolGroup.cls FC3_VolGroupData.cls) n [c!"g", c!"--useexisting"] obeys_volgroupLines3_0_object := by
  intro b b' hb hb' line l; kernel_rfl

theorem obeys_volgroupLines3_0_start : Command.FirstStart (FC3_VolGroup.cls FC3_VolGroupData.cls) obeys_volgroupLines3_0_object (volgroupLines3.start.getD 0 ([], [])).2 := fun _ => .inl ⟨fun _ => rfl, (all_cons (by kernel_rfl) (all_cons (by kernel_rfl) (all_cons (by kernel_rfl) (all_cons (by kernel_rfl) (all_cons (by kernel_rfl) (List.forall_mem_nil _))))))⟩

theorem obeys_volgroupLines3_0_lines (n : Str) : ∀ i ∈ [0], Command.FirstLine (FC3_VolGroup.cls FC3_VolGroupData.cls) n [c!"g", c!"--useexisting"] obeys_volgroupLines3_0_object (volgroupLines3.lines.getD i noLine) :=
  (all_cons (by intro b b' hb hb' x hx line l; kernel_rfl)
    (List.forall_mem_nil _))

theorem obeys_volgroupLines3_0 : ∀ v, [Version.RHEL3, Version.FC3, Version.RHEL4, Version.FC4, Version.FC5, Version.FC6, Version.RHEL5, Version.F7, Version.F8, Version.F9, Version.F10, Version.F11, Version.F12, Version.F13, Version.F14, Version.F15].contains v = true → Command.Obeys (FC3_VolGroup.cls FC3_VolGroupData.cls) volgroupLines3 v :=
  obeys_of obeys_volgroupLines3_0_object [0] [0] (obeys_volgroupLines3_0_base _) (all_cons obeys_volgroupLines3_0_start (List.forall_mem_nil _)) (obeys_volgroupLines3_0_lines _) (by decide +kernel)

def obeys_volgroupLines3_1_object (l : Nat) : Ns := [(c!"lineno", .int l), (c!"format", .bool true), (c!"pesize", .int 32768), (c!"preexist", .bool true), (c!"vgname", .str c!"g"), (c!"physvols", .list []), (c!"reserved_space", .none), (c!"reserved_percent", .none), (c!"name", .list [c!"g"]), (c!"partitions", .list [])]

theorem obeys_volgroupLines3_1_base (n : Str) : Command.FirstBase (F16_VolGroup.cls F16_VolGroupData.cls) n [c!"g", c!"--useexisting"] obeys_volgroupLines3_1_object := by
  intro b b' hb hb' line l; rcases hb with rfl | rfl <;> rcases hb' with rfl | rfl <;> kernel_rfl

theorem obeys_volgroupLines3_1_start : Command.FirstStart (F16_VolGroup.cls F16_VolGroupData.cls) obeys_volgroupLines3_1_object (volgroupLines3.start.getD 0 ([], [])).2 := fun _ => .inl ⟨fun _ => rfl, (all_cons (by kernel_rfl) (all_cons (by kernel_rfl) (all_cons (by kernel_rfl) (all_cons (by kernel_rfl) (all_cons (by kernel_rfl) (List.forall_mem_nil _))))))⟩

theorem obeys_volgroupLines3_1_lines (n : Str) : ∀ i ∈ [0], Command.FirstLine (F16_VolGroup.cls F16_VolGroupData.cls) n [c!"g", c!"--useexisting"] obeys_volgroupLines3_1_object (volgroupLines3.lines.getD i noLine) :=
  (all_cons (by intro b b' hb hb' x hx line l; rcases hb with rfl | rfl <;> rcases hb' with rfl | rfl <;> kernel_rfl)
    (List.forall_mem_nil _))

theorem obeys_volgroupLines3_1 : ∀ v, [Version.RHEL6, Version.F16, Version.F17, Version.F18, Version.F19, Version.F20].contains v = true → Command.Obeys (F16_VolGroup.cls F16_VolGroupData.cls) volgroupLines3 v :=
  obeys_of obeys_volgroupLines3_1_object [0] [0] (obeys_volgroupLines3_1_base _) (all_cons obeys_volgroupLines3_1_start (List.forall_mem_nil _)) (obeys_volgroupLines3_1_lines _) (by decide +kernel)

def obeys_volgroupLines3_2_object (l : Nat) : Ns := [(c!"lineno", .int l), (c!"format", .bool true), (c!"pesize", .int 0), (c!"preexist", .bool true), (c!"vgname", .str c!"g"), (c!"physvols", .list []), (c!"reserved_space", .none), (c!"reserved_percent", .none), (c!"name", .list [c!"g"]), (c!"partitions", .list [])]

theorem obeys_volgroupLines3_2_base (n : Str) : Command.FirstBase (F21_VolGroup.cls F21_VolGroupData.cls) n [c!"g", c!"--useexisting"] obeys_volgroupLines3_2_object := by
  intro b b' hb hb' line l; rcases hb with rfl | rfl <;> rcases hb' with rfl | rfl <;> kernel_rfl

theorem obeys_volgroupLines3_2_start : Command.FirstStart (F21_VolGroup.cls F21_VolGroupData.cls) obeys_volgroupLines3_2_object (volgroupLines3.start.getD 1 ([], [])).2 := fun _ => .inl ⟨fun _ => rfl, (all_cons (by kernel_rfl) (all_cons (by kernel_rfl) (all_cons (by kernel_rfl) (all_cons (by kernel_rfl) (List.forall_mem_nil _)))))⟩

theorem obeys_volgroupLines3_2_lines (n : Str) : ∀ i ∈ [0], Command.FirstLine (F21_VolGroup.cls F21_VolGroupData.cls) n [c!"g", c!"--useexisting"] obeys_volgroupLines3_2_object (volgroupLines3.lines.getD i noLine) :=
  (all_cons (by intro b b' hb hb' x hx line l; rcases hb with rfl | rfl <;> rcases hb' with rfl | rfl <;> kernel_rfl)
    (List.forall_mem_nil _))

theorem obeys_volgroupLines3_2 : ∀ v, [Version.F21, Version.F22, Version.F23, Version.F24, Version.F25, Version.F26, Version.F27, Version.F28, Version.F29, Version.F30, Version.F31, Version.F32, Version.F33, Version.F34].contains v = true → Command.Obeys (F21_VolGroup.cls F21_VolGroupData.cls) volgroupLines3 v :=
  obeys_of obeys_volgroupLines3_2_object [1] [0] (obeys_volgroupLines3_2_base _) (all_cons obeys_volgroupLines3_2_start (List.forall_mem_nil _)) (obeys_volgroupLines3_2_lines _) (by decide +kernel)

def obeys_volgroupLines3_3_object (l : Nat) : Ns := [(c!"lineno", .int l), (c!"format", .bool true), (c!"pesize", .int 0), (c!"preexist", .bool true), (c!"vgname", .str c!"g"), (c!"physvols", .list []), (c!"reserved_space", .none), (c!"reserved_percent", .none), (c!"name", .list [c!"g"]), (c!"partitions", .list [])]

theorem obeys_volgroupLines3_3_base (n : Str) : Command.FirstBase (RHEL7_VolGroup.cls RHEL7_VolGroupData.cls) n [c!"g", c!"--useexisting"] obeys_volgroupLines3_3_object := by
  intro b b' hb hb' line l; rcases hb with rfl | rfl <;> rcases hb' with rfl | rfl <;> kernel_rfl

theorem obeys_volgroupLines3_3_start : Command.FirstStart (RHEL7_VolGroup.cls RHEL7_VolGroupData.cls) obeys_volgroupLines3_3_object (volgroupLines3.start.getD 1 ([], [])).2 := fun _ => .inl ⟨fun _ => rfl, (all_cons (by kernel_rfl) (all_cons (by kernel_rfl) (all_cons (by kernel_rfl) (all_cons (by kernel_rfl) (List.forall_mem_nil _)))))⟩

theorem obeys_volgroupLines3_3_lines (n : Str) : ∀ i ∈ [0], Command.FirstLine (RHEL7_VolGroup.cls RHEL7_VolGroupData.cls) n [c!"g", c!"--useexisting"] obeys_volgroupLines3_3_object (volgroupLines3.lines.getD i noLine) :=
  (all_cons (by intro b b' hb hb' x hx line l; rcases hb with rfl | rfl <;> rcases hb' with rfl | rfl <;> kernel_rfl)
    (List.forall_mem_nil _))

theorem obeys_volgroupLines3_3 : ∀ v, [Version.RHEL7].contains v = true → Command.Obeys (RHEL7_VolGroup.cls RHEL7_VolGroupData.cls) volgroupLines3 v :=
  obeys_of obeys_volgroupLines3_3_object [1] [0] (obeys_volgroupLines3_3_base _) (all_cons obeys_volgroupLines3_3_start (List.forall_mem_nil _)) (obeys_volgroupLines3_3_lines _) (by decide +kernel)

def obeys_volgroupLines3_4_object (l : Nat) : Ns := [(c!"lineno", .int l), (c!"format", .bool true), (c!"pesize", .int 0), (c!"preexist", .bool true), (c!"vgname", .str c!"g"), (c!"physvols", .list []), (c!"reserved_space", .none), (c!"reserved_percent", .none), (c!"name", .list [c!"g"]), (c!"partitions", .list [])]

theorem obeys_volgroupLines3_4_base (n : Str) : Command.FirstBase (RHEL8_VolGroup.cls RHEL8_VolGroupData.cls) n [c!"g", c!"--useexisting"] obeys_volgroupLines3_4_object := by
  intro b b' hb hb' line l; rcases hb with rfl | rfl <;> rcases hb' with rfl | rfl <;> kernel_rfl

theorem obeys_volgroupLines3_4_start : Command.FirstStart (RHEL8_VolGroup.cls RHEL8_VolGroupData.cls) obeys_volgroupLines3_4_object (volgroupLines3.start.getD 1 ([], [])).2 := fun _ => .inl ⟨fun _ => rfl, (all_cons (by kernel_rfl) (all_cons (by kernel_rfl) (all_cons (by kernel_rfl) (all_cons (by kernel_rfl) (List.forall_mem_nil _)))))⟩

theorem obeys_volgroupLines3_4_lines (n : Str) : ∀ i ∈ [0], Command.FirstLine (RHEL8_VolGroup.cls RHEL8_VolGroupData.cls) n [c!"g", c!"--useexisting"] obeys_volgroupLines3_4_object (volgroupLines3.lines.getD i noLine) :=
  (all_cons (by intro b b' hb hb' x hx line l; rcases hb with rfl | rfl <;> rcases hb' with rfl | rfl <;> kernel_rfl)
    (List.forall_mem_nil _))

theorem obeys_volgroupLines3_4 : ∀ v, [Version.RHEL8].contains v = true → Command.Obeys (RHEL8_VolGroup.cls RHEL8_VolGroupData.cls) volgroupLines3 v :=
  obeys_of obeys_volgroupLines3_4_object [1] [0] (obeys_volgroupLines3_4_base _) (all_cons obeys_volgroupLines3_4_start (List.forall_mem_nil _)) (obeys_volgroupLines3_4_lines _) (by decide +kernel)

theorem obeys_volgroupLines3 : volgroupLines3.Obeyed := by
  unfold CommandLines.Obeyed commandMaps
  exact (all_cons (fun _ c h => by cases h; exact obeys_volgroupLines3_0 _ rfl)
    (all_cons (fun _ c h => by cases h; exact obeys_volgroupLines3_0 _ rfl)
    (all_cons (fun _ c h => by cases h; exact obeys_volgroupLines3_0 _ rfl)
    (all_cons (fun _ c h => by cases h; exact obeys_volgroupLines3_0 _ rfl)
    (all_cons (fun _ c h => by cases h; exact obeys_volgroupLines3_0 _ rfl)
    (all_cons (fun _ c h => by cases h; exact obeys_volgroupLines3_0 _ rfl)
    (all_cons (fun _ c h => by cases h; exact obeys_volgroupLines3_1 _ rfl)
    (all_cons (fun _ c h => by cases h; exact obeys_volgroupLines3_1 _ rfl)
    (all_cons (fun _ c h => by cases h; exact obeys_volgroupLines3_1 _ rfl)
    (all_cons (fun _ c h => by cases h; exact obeys_volgroupLines3_1 _ rfl)
    (all_cons (fun _ c h => by cases h; exact obeys_volgroupLines3_1 _ rfl)
    (all_cons (fun _ c h => by cases h; exact obeys_volgroupLines3_2 _ rfl)
    (all_cons (fun _ c h => by cases h; exact obeys_volgroupLines3_2 _ rfl)
    (all_cons (fun _ c h => by cases h; exact obeys_volgroupLines3_2 _ rfl)
    (all_cons (fun _ c h => by cases h; exact obeys_volgroupLines3_2 _ rfl)
    (all_cons (fun _ c h => by cases h; exact obeys_volgroupLines3_2 _ rfl)
    (all_cons (fun _ c h => by cases h; exact obeys_volgroupLines3_2 _ rfl)
    (all_cons (fun _ c h => by cases h; exact obeys_volgroupLines3_2 _ rfl)
    (all_cons (fun _ c h => by cases h; exact obeys_volgroupLines3_2 _ rfl)
    (all_cons (fun _ c h => by cases h; exact obeys_volgroupLines3_2 _ rfl)
    (all_cons (fun _ c h => by cases h; exact obeys_volgroupLines3_2 _ rfl)
    (all_cons (fun _ c h => by cases h; exact obeys_volgroupLines3_2 _ rfl)
    (all_cons (fun _ c h => by cases h; exact obeys_volgroupLines3_2 _ rfl)
    (all_cons (fun _ c h => by cases h; exact obeys_volgroupLines3_2 _ rfl)
    (all_cons (fun _ c h => by cases h; exact obeys_volgroupLines3_2 _ rfl)
    (all_cons (fun _ c h => by cases h; exact obeys_volgroupLines3_0 _ rfl)
    (all_cons (fun _ c h => by cases h; exact obeys_volgroupLines3_0 _ rfl)
    (all_cons (fun _ c h => by cases h; exact obeys_volgroupLines3_0 _ rfl)
    (all_cons (fun _ c h => by cases h; exact obeys_volgroupLines3_0 _ rfl)
    (all_cons (fun _ c h => by cases h; exact obeys_volgroupLines3_0 _ rfl)
    (all_cons (fun _ c h => by cases h; exact obeys_volgroupLines3_0 _ rfl)
    (all_cons (fun _ c h => by cases h; exact obeys_volgroupLines3_0 _ rfl)
    (all_cons (fun _ c h => by cases h; exact obeys_volgroupLines3_0 _ rfl)
    (all_cons (fun _ c h => by cases h; exact obeys_volgroupLines3_0 _ rfl)
    (all_cons (fun _ c h => by cases h; exact obeys_volgroupLines3_0 _ rfl)
    (all_cons (fun _ c h => by cases h; exact obeys_volgroupLines3_1 _ rfl)
    (all_cons (fun _ c h => by cases h; exact obeys_volgroupLines3_3 _ rfl)
    (all_cons (fun _ c h => by cases h; exact obeys_volgroupLines3_4 _ rfl) (List.forall_mem_nil _)))))))))))))))))))))))))))))))))))))))

end Ks.Cmd
