import Verif.Commands.LineLogic
import Verif.Commands.LineTable
/-!
# The classes of the command maps do what the table of first lines says

Written by `scripts/gen_lines.py`.
-/
namespace Ks.Cmd

set_option linter.unusedVariables false

def obeys_autostepLines_0_object (_ : Nat) : Ns := [(c!"autostep", .bool true), (c!"autoscreenshot", .bool false)]

theorem obeys_autostepLines_0_base (n : Str) : Command.FirstBase (FC3_AutoStep.cls) n [] obeys_autostepLines_0_object := by
  intro b b' hb hb' line l; kernel_rfl

theorem obeys_autostepLines_0_start : Command.FirstStart (FC3_AutoStep.cls) obeys_autostepLines_0_object (autostepLines.start.getD 0 ([], [])).2 := fun _ => .inr ⟨fun _ => rfl, by kernel_rfl⟩

theorem obeys_autostepLines_0_lines (n : Str) : ∀ i ∈ [0], Command.FirstLine (FC3_AutoStep.cls) n [] obeys_autostepLines_0_object (autostepLines.lines.getD i noLine) :=
  (all_cons (by intro b b' hb hb' x hx line l; kernel_rfl)
    (List.forall_mem_nil _))

theorem obeys_autostepLines_0 : ∀ v, [Version.RHEL3, Version.FC3, Version.RHEL4, Version.FC4, Version.FC5, Version.FC6, Version.RHEL5, Version.F7, Version.F8, Version.F9, Version.F10, Version.F11, Version.F12, Version.F13, Version.RHEL6, Version.F14, Version.F15, Version.F16, Version.F17, Version.F18, Version.F19, Version.F20, Version.F21, Version.RHEL7, Version.F22, Version.F23, Version.F24, Version.F25, Version.F26, Version.F27, Version.F28, Version.RHEL8, Version.F29, Version.F30, Version.F31, Version.F32, Version.F33].contains v = true → Command.Obeys (FC3_AutoStep.cls) autostepLines v :=
  obeys_of obeys_autostepLines_0_object [0] [0] (obeys_autostepLines_0_base _) (all_cons obeys_autostepLines_0_start (List.forall_mem_nil _)) (obeys_autostepLines_0_lines _) (by decide +kernel)

theorem obeys_autostepLines : autostepLines.Obeyed := by
  unfold CommandLines.Obeyed commandMaps
  exact (all_cons (fun _ c h => by cases h; exact obeys_autostepLines_0 _ rfl)
    (all_cons (fun _ c h => by cases h; exact obeys_autostepLines_0 _ rfl)
    (all_cons (fun _ c h => by cases h; exact obeys_autostepLines_0 _ rfl)
    (all_cons (fun _ c h => by cases h; exact obeys_autostepLines_0 _ rfl)
    (all_cons (fun _ c h => by cases h; exact obeys_autostepLines_0 _ rfl)
    (all_cons (fun _ c h => by cases h; exact obeys_autostepLines_0 _ rfl)
    (all_cons (fun _ c h => by cases h; exact obeys_autostepLines_0 _ rfl)
    (all_cons (fun _ c h => by cases h; exact obeys_autostepLines_0 _ rfl)
    (all_cons (fun _ c h => by cases h; exact obeys_autostepLines_0 _ rfl)
    (all_cons (fun _ c h => by cases h; exact obeys_autostepLines_0 _ rfl)
    (all_cons (fun _ c h => by cases h; exact obeys_autostepLines_0 _ rfl)
    (all_cons (fun _ c h => by cases h; exact obeys_autostepLines_0 _ rfl)
    (all_cons (fun _ c h => by cases h; exact obeys_autostepLines_0 _ rfl)
    (all_cons (fun _ c h => by cases h; exact obeys_autostepLines_0 _ rfl)
    (all_cons (fun _ c h => by cases h; exact obeys_autostepLines_0 _ rfl)
    (all_cons (fun _ c h => by cases h; exact obeys_autostepLines_0 _ rfl)
    (all_cons (fun _ c h => by cases h; exact obeys_autostepLines_0 _ rfl)
    (all_cons (fun _ c h => by cases h; exact obeys_autostepLines_0 _ rfl)
    (all_cons (fun _ c h => by cases h; exact obeys_autostepLines_0 _ rfl)
    (all_cons (fun _ c h => by cases h; exact obeys_autostepLines_0 _ rfl)
    (all_cons (fun _ c h => by cases h; exact obeys_autostepLines_0 _ rfl)
    (all_cons (fun _ c h => by cases h; exact obeys_autostepLines_0 _ rfl)
    (all_cons (fun _ c h => by cases h; exact obeys_autostepLines_0 _ rfl)
    (all_cons (fun _ c h => by cases h; exact obeys_autostepLines_0 _ rfl)
    (all_cons (fun hv => absurd hv (by decide))
    (all_cons (fun _ c h => by cases h; exact obeys_autostepLines_0 _ rfl)
    (all_cons (fun _ c h => by cases h; exact obeys_autostepLines_0 _ rfl)
    (all_cons (fun _ c h => by cases h; exact obeys_autostepLines_0 _ rfl)
    (all_cons (fun _ c h => by cases h; exact obeys_autostepLines_0 _ rfl)
    (all_cons (fun _ c h => by cases h; exact obeys_autostepLines_0 _ rfl)
    (all_cons (fun _ c h => by cases h; exact obeys_autostepLines_0 _ rfl)
    (all_cons (fun _ c h => by cases h; exact obeys_autostepLines_0 _ rfl)
    (all_cons (fun _ c h => by cases h; exact obeys_autostepLines_0 _ rfl)
    (all_cons (fun _ c h => by cases h; exact obeys_autostepLines_0 _ rfl)
    (all_cons (fun _ c h => by cases h; exact obeys_autostepLines_0 _ rfl)
    (all_cons (fun _ c h => by cases h; exact obeys_autostepLines_0 _ rfl)
    (all_cons (fun _ c h => by cases h; exact obeys_autostepLines_0 _ rfl)
    (all_cons (fun _ c h => by cases h; exact obeys_autostepLines_0 _ rfl) (List.forall_mem_nil _)))))))))))))))))))))))))))))))))))))))

def obeys_langLines_0_object (_ : Nat) : Ns := [(c!"lang", .str c!"L")]

theorem obeys_langLines_0_base (n : Str) : Command.FirstBase (FC3_Lang.cls) n [c!"L"] obeys_langLines_0_object := by
  intro b b' hb hb' line l; kernel_rfl

theorem obeys_langLines_0_start : Command.FirstStart (FC3_Lang.cls) obeys_langLines_0_object (langLines.start.getD 0 ([], [])).2 := fun _ => .inr ⟨fun _ => rfl, by kernel_rfl⟩

theorem obeys_langLines_0_lines (n : Str) : ∀ i ∈ [0], Command.FirstLine (FC3_Lang.cls) n [c!"L"] obeys_langLines_0_object (langLines.lines.getD i noLine) :=
  (all_cons (by intro b b' hb hb' x hx line l; (cases x with | nil => exact absurd rfl hx | cons a x => kernel_rfl))
    (List.forall_mem_nil _))

theorem obeys_langLines_0 : ∀ v, [Version.RHEL3, Version.FC3, Version.RHEL4, Version.FC4, Version.FC5, Version.FC6, Version.RHEL5, Version.F7, Version.F8, Version.F9, Version.F10, Version.F11, Version.F12, Version.F13, Version.RHEL6, Version.F14, Version.F15, Version.F16, Version.F17, Version.F18].contains v = true → Command.Obeys (FC3_Lang.cls) langLines v :=
  obeys_of obeys_langLines_0_object [0] [0] (obeys_langLines_0_base _) (all_cons obeys_langLines_0_start (List.forall_mem_nil _)) (obeys_langLines_0_lines _) (by decide +kernel)

def obeys_langLines_1_object (_ : Nat) : Ns := [(c!"lang", .str c!"L"), (c!"addsupport", .list [])]

theorem obeys_langLines_1_base (n : Str) : Command.FirstBase (F19_Lang.cls) n [c!"L"] obeys_langLines_1_object := by
  intro b b' hb hb' line l; kernel_rfl

theorem obeys_langLines_1_start : Command.FirstStart (F19_Lang.cls) obeys_langLines_1_object (langLines.start.getD 0 ([], [])).2 := fun _ => .inr ⟨fun _ => rfl, by kernel_rfl⟩

theorem obeys_langLines_1_lines (n : Str) : ∀ i ∈ [1], Command.FirstLine (F19_Lang.cls) n [c!"L"] obeys_langLines_1_object (langLines.lines.getD i noLine) :=
  (all_cons (by intro b b' hb hb' x hx line l; (cases x with | nil => exact absurd rfl hx | cons a x => kernel_rfl))
    (List.forall_mem_nil _))

theorem obeys_langLines_1 : ∀ v, [Version.F19, Version.F20, Version.F21, Version.RHEL7, Version.F22, Version.F23, Version.F24, Version.F25, Version.F26, Version.F27, Version.F28, Version.RHEL8, Version.F29, Version.F30, Version.F31, Version.F32, Version.F33, Version.F34].contains v = true → Command.Obeys (F19_Lang.cls) langLines v :=
  obeys_of obeys_langLines_1_object [0] [1] (obeys_langLines_1_base _) (all_cons obeys_langLines_1_start (List.forall_mem_nil _)) (obeys_langLines_1_lines _) (by decide +kernel)

theorem obeys_langLines : langLines.Obeyed := by
  unfold CommandLines.Obeyed commandMaps
  exact (all_cons (fun _ c h => by cases h; exact obeys_langLines_0 _ rfl)
    (all_cons (fun _ c h => by cases h; exact obeys_langLines_0 _ rfl)
    (all_cons (fun _ c h => by cases h; exact obeys_langLines_0 _ rfl)
    (all_cons (fun _ c h => by cases h; exact obeys_langLines_0 _ rfl)
    (all_cons (fun _ c h => by cases h; exact obeys_langLines_0 _ rfl)
    (all_cons (fun _ c h => by cases h; exact obeys_langLines_0 _ rfl)
    (all_cons (fun _ c h => by cases h; exact obeys_langLines_0 _ rfl)
    (all_cons (fun _ c h => by cases h; exact obeys_langLines_0 _ rfl)
    (all_cons (fun _ c h => by cases h; exact obeys_langLines_0 _ rfl)
    (all_cons (fun _ c h => by cases h; exact obeys_langLines_1 _ rfl)
    (all_cons (fun _ c h => by cases h; exact obeys_langLines_1 _ rfl)
    (all_cons (fun _ c h => by cases h; exact obeys_langLines_1 _ rfl)
    (all_cons (fun _ c h => by cases h; exact obeys_langLines_1 _ rfl)
    (all_cons (fun _ c h => by cases h; exact obeys_langLines_1 _ rfl)
    (all_cons (fun _ c h => by cases h; exact obeys_langLines_1 _ rfl)
    (all_cons (fun _ c h => by cases h; exact obeys_langLines_1 _ rfl)
    (all_cons (fun _ c h => by cases h; exact obeys_langLines_1 _ rfl)
    (all_cons (fun _ c h => by cases h; exact obeys_langLines_1 _ rfl)
    (all_cons (fun _ c h => by cases h; exact obeys_langLines_1 _ rfl)
    (all_cons (fun _ c h => by cases h; exact obeys_langLines_1 _ rfl)
    (all_cons (fun _ c h => by cases h; exact obeys_langLines_1 _ rfl)
    (all_cons (fun _ c h => by cases h; exact obeys_langLines_1 _ rfl)
    (all_cons (fun _ c h => by cases h; exact obeys_langLines_1 _ rfl)
    (all_cons (fun _ c h => by cases h; exact obeys_langLines_1 _ rfl)
    (all_cons (fun _ c h => by cases h; exact obeys_langLines_1 _ rfl)
    (all_cons (fun _ c h => by cases h; exact obeys_langLines_0 _ rfl)
    (all_cons (fun _ c h => by cases h; exact obeys_langLines_0 _ rfl)
    (all_cons (fun _ c h => by cases h; exact obeys_langLines_0 _ rfl)
    (all_cons (fun _ c h => by cases h; exact obeys_langLines_0 _ rfl)
    (all_cons (fun _ c h => by cases h; exact obeys_langLines_0 _ rfl)
    (all_cons (fun _ c h => by cases h; exact obeys_langLines_0 _ rfl)
    (all_cons (fun _ c h => by cases h; exact obeys_langLines_0 _ rfl)
    (all_cons (fun _ c h => by cases h; exact obeys_langLines_0 _ rfl)
    (all_cons (fun _ c h => by cases h; exact obeys_langLines_0 _ rfl)
    (all_cons (fun _ c h => by cases h; exact obeys_langLines_0 _ rfl)
    (all_cons (fun _ c h => by cases h; exact obeys_langLines_0 _ rfl)
    (all_cons (fun _ c h => by cases h; exact obeys_langLines_1 _ rfl)
    (all_cons (fun _ c h => by cases h; exact obeys_langLines_1 _ rfl) (List.forall_mem_nil _)))))))))))))))))))))))))))))))))))))))

def obeys_raidLines_0_object (l : Nat) : Ns := [(c!"lineno", .int l), (c!"device", .int 1), (c!"fstype", .str c!""), (c!"level", .str c!"RAID1"), (c!"format", .bool true), (c!"spares", .int 0), (c!"preexist", .bool false), (c!"mountpoint", .str c!"/x"), (c!"members", .list [c!"raid.1", c!"raid.2"]), (c!"fsopts", .str c!""), (c!"fsprofile", .str c!""), (c!"encrypted", .bool false), (c!"passphrase", .str c!""), (c!"mntpoint", .list [c!"/x"]), (c!"partitions", .list [c!"raid.1", c!"raid.2"])]

theorem obeys_raidLines_0_base (n : Str) : Command.FirstBase (F9_Raid.cls F9_RaidData.cls) n [c!"/x", c!"--device=1", c!"--level=RAID1", c!"raid.1", c!"raid.2"] obeys_raidLines_0_object := by
  intro b b' hb hb' line l; kernel_rfl

theorem obeys_raidLines_0_start : Command.FirstStart (F9_Raid.cls F9_RaidData.cls) obeys_raidLines_0_object (raidLines.start.getD 0 ([], [])).2 := fun _ => .inl ⟨fun _ => rfl, (all_cons (by kernel_rfl) (all_cons (by kernel_rfl) (all_cons (by kernel_rfl) (all_cons (by kernel_rfl) (all_cons (by kernel_rfl) (all_cons (by kernel_rfl) (all_cons (by kernel_rfl) (List.forall_mem_nil _))))))))⟩

theorem obeys_raidLines_0_lines (n : Str) : ∀ i ∈ [15, 17, 20, 22, 24, 26, 28, 30, 54], Command.FirstLine (F9_Raid.cls F9_RaidData.cls) n [c!"/x", c!"--device=1", c!"--level=RAID1", c!"raid.1", c!"raid.2"] obeys_raidLines_0_object (raidLines.lines.getD i noLine) :=
  (all_cons (by intro b b' hb hb' x hx line l; kernel_rfl)
    (all_cons (by intro b b' hb hb' x hx line l; kernel_rfl)
    (all_cons (by intro b b' hb hb' x hx line l; (cases x with | nil => exact absurd rfl hx | cons a x => kernel_rfl))
    (all_cons (by intro b b' hb hb' x hx line l; (cases x with | nil => exact absurd rfl hx | cons a x => kernel_rfl))
    (all_cons (by intro b b' hb hb' x hx line l; kernel_rfl)
    (all_cons (by intro b b' hb hb' x hx line l; (cases x with | nil => exact absurd rfl hx | cons a x => kernel_rfl))
    (all_cons (by intro b b' hb hb' x hx line l; (cases x with | nil => exact absurd rfl hx | cons a x => kernel_rfl))
    (all_cons (by intro b b' hb hb' x hx line l; kernel_rfl)
    (all_cons (by intro b b' hb hb' x hx line l; kernel_rfl)
    (List.forall_mem_nil _))))))))))

theorem obeys_raidLines_0 : ∀ v, [Version.F9, Version.F10, Version.F11].contains v = true → Command.Obeys (F9_Raid.cls F9_RaidData.cls) raidLines v :=
  obeys_of obeys_raidLines_0_object [0] [15, 17, 20, 22, 24, 26, 28, 30, 54] (obeys_raidLines_0_base _) (all_cons obeys_raidLines_0_start (List.forall_mem_nil _)) (obeys_raidLines_0_lines _) (by decide +kernel)

def obeys_raidLines_1_object (l : Nat) : Ns := [(c!"lineno", .int l), (c!"device", .int 1), (c!"fstype", .str c!""), (c!"level", .str c!"RAID1"), (c!"format", .bool true), (c!"spares", .int 0), (c!"preexist", .bool false), (c!"mountpoint", .str c!"/x"), (c!"members", .list [c!"raid.1", c!"raid.2"]), (c!"fsopts", .str c!""), (c!"fsprofile", .str c!""), (c!"encrypted", .bool false), (c!"passphrase", .str c!""), (c!"escrowcert", .str c!""), (c!"backuppassphrase", .bool false), (c!"mntpoint", .list [c!"/x"]), (c!"partitions", .list [c!"raid.1", c!"raid.2"])]

theorem obeys_raidLines_1_base (n : Str) : Command.FirstBase (F12_Raid.cls F12_RaidData.cls) n [c!"/x", c!"--device=1", c!"--level=RAID1", c!"raid.1", c!"raid.2"] obeys_raidLines_1_object := by
  intro b b' hb hb' line l; kernel_rfl

theorem obeys_raidLines_1_start : Command.FirstStart (F12_Raid.cls F12_RaidData.cls) obeys_raidLines_1_object (raidLines.start.getD 0 ([], [])).2 := fun _ => .inl ⟨fun _ => rfl, (all_cons (by kernel_rfl) (all_cons (by kernel_rfl) (all_cons (by kernel_rfl) (all_cons (by kernel_rfl) (all_cons (by kernel_rfl) (all_cons (by kernel_rfl) (all_cons (by kernel_rfl) (List.forall_mem_nil _))))))))⟩

theorem obeys_raidLines_1_lines (n : Str) : ∀ i ∈ [15, 17, 29, 31, 32, 34], Command.FirstLine (F12_Raid.cls F12_RaidData.cls) n [c!"/x", c!"--device=1", c!"--level=RAID1", c!"raid.1", c!"raid.2"] obeys_raidLines_1_object (raidLines.lines.getD i noLine) :=
  (all_cons (by intro b b' hb hb' x hx line l; kernel_rfl)
    (all_cons (by intro b b' hb hb' x hx line l; kernel_rfl)
    (all_cons (by intro b b' hb hb' x hx line l; (cases x with | nil => exact absurd rfl hx | cons a x => kernel_rfl))
    (all_cons (by intro b b' hb hb' x hx line l; kernel_rfl)
    (all_cons (by intro b b' hb hb' x hx line l; kernel_rfl)
    (all_cons (by intro b b' hb hb' x hx line l; kernel_rfl)
    (List.forall_mem_nil _)))))))

theorem obeys_raidLines_1 : ∀ v, [Version.F12].contains v = true → Command.Obeys (F12_Raid.cls F12_RaidData.cls) raidLines v :=
  obeys_of obeys_raidLines_1_object [0] [15, 17, 29, 31, 32, 34] (obeys_raidLines_1_base _) (all_cons obeys_raidLines_1_start (List.forall_mem_nil _)) (obeys_raidLines_1_lines _) (by decide +kernel)

def obeys_raidLines_2_object (l : Nat) : Ns := [(c!"lineno", .int l), (c!"device", .int 1), (c!"fstype", .str c!""), (c!"level", .str c!"RAID1"), (c!"format", .bool true), (c!"spares", .int 0), (c!"preexist", .bool false), (c!"mountpoint", .str c!"/x"), (c!"members", .list [c!"raid.1", c!"raid.2"]), (c!"fsopts", .str c!""), (c!"fsprofile", .str c!""), (c!"encrypted", .bool false), (c!"passphrase", .str c!""), (c!"escrowcert", .str c!""), (c!"backuppassphrase", .bool false), (c!"mntpoint", .list [c!"/x"]), (c!"partitions", .list [c!"raid.1", c!"raid.2"])]

theorem obeys_raidLines_2_base (n : Str) : Command.FirstBase (F13_Raid.cls F13_RaidData.cls) n [c!"/x", c!"--device=1", c!"--level=RAID1", c!"raid.1", c!"raid.2"] obeys_raidLines_2_object := by
  intro b b' hb hb' line l; kernel_rfl

theorem obeys_raidLines_2_start : Command.FirstStart (F13_Raid.cls F13_RaidData.cls) obeys_raidLines_2_object (raidLines.start.getD 0 ([], [])).2 := fun _ => .inl ⟨fun _ => rfl, (all_cons (by kernel_rfl) (all_cons (by kernel_rfl) (all_cons (by kernel_rfl) (all_cons (by kernel_rfl) (all_cons (by kernel_rfl) (all_cons (by kernel_rfl) (all_cons (by kernel_rfl) (List.forall_mem_nil _))))))))⟩

theorem obeys_raidLines_2_lines (n : Str) : ∀ i ∈ [15, 17, 33, 35, 38], Command.FirstLine (F13_Raid.cls F13_RaidData.cls) n [c!"/x", c!"--device=1", c!"--level=RAID1", c!"raid.1", c!"raid.2"] obeys_raidLines_2_object (raidLines.lines.getD i noLine) :=
  (all_cons (by intro b b' hb hb' x hx line l; kernel_rfl)
    (all_cons (by intro b b' hb hb' x hx line l; kernel_rfl)
    (all_cons (by intro b b' hb hb' x hx line l; kernel_rfl)
    (all_cons (by intro b b' hb hb' x hx line l; kernel_rfl)
    (all_cons (by intro b b' hb hb' x hx line l; (cases x with | nil => exact absurd rfl hx | cons a x => kernel_rfl))
    (List.forall_mem_nil _))))))

theorem obeys_raidLines_2 : ∀ v, [Version.F13].contains v = true → Command.Obeys (F13_Raid.cls F13_RaidData.cls) raidLines v :=
  obeys_of obeys_raidLines_2_object [0] [15, 17, 33, 35, 38] (obeys_raidLines_2_base _) (all_cons obeys_raidLines_2_start (List.forall_mem_nil _)) (obeys_raidLines_2_lines _) (by decide +kernel)

def obeys_raidLines_3_object (l : Nat) : Ns := [(c!"lineno", .int l), (c!"device", .int 1), (c!"fstype", .str c!""), (c!"level", .str c!"RAID1"), (c!"format", .bool true), (c!"spares", .int 0), (c!"preexist", .bool false), (c!"mountpoint", .str c!"/x"), (c!"members", .list [c!"raid.1", c!"raid.2"]), (c!"fsopts", .str c!""), (c!"fsprofile", .str c!""), (c!"encrypted", .bool false), (c!"passphrase", .str c!""), (c!"escrowcert", .str c!""), (c!"backuppassphrase", .bool false), (c!"mntpoint", .list [c!"/x"]), (c!"partitions", .list [c!"raid.1", c!"raid.2"])]

theorem obeys_raidLines_3_base (n : Str) : Command.FirstBase (F14_Raid.cls F14_RaidData.cls) n [c!"/x", c!"--device=1", c!"--level=RAID1", c!"raid.1", c!"raid.2"] obeys_raidLines_3_object := by
  intro b b' hb hb' line l; kernel_rfl

theorem obeys_raidLines_3_start : Command.FirstStart (F14_Raid.cls F14_RaidData.cls) obeys_raidLines_3_object (raidLines.start.getD 0 ([], [])).2 := fun _ => .inl ⟨fun _ => rfl, (all_cons (by kernel_rfl) (all_cons (by kernel_rfl) (all_cons (by kernel_rfl) (all_cons (by kernel_rfl) (all_cons (by kernel_rfl) (all_cons (by kernel_rfl) (all_cons (by kernel_rfl) (List.forall_mem_nil _))))))))⟩

theorem obeys_raidLines_3_lines (n : Str) : ∀ i ∈ [15, 17, 21, 36, 38, 55], Command.FirstLine (F14_Raid.cls F14_RaidData.cls) n [c!"/x", c!"--device=1", c!"--level=RAID1", c!"raid.1", c!"raid.2"] obeys_raidLines_3_object (raidLines.lines.getD i noLine) :=
  (all_cons (by intro b b' hb hb' x hx line l; kernel_rfl)
    (all_cons (by intro b b' hb hb' x hx line l; kernel_rfl)
    (all_cons (by intro b b' hb hb' x hx line l; (cases x with | nil => exact absurd rfl hx | cons a x => kernel_rfl))
    (all_cons (by intro b b' hb hb' x hx line l; (cases x with | nil => exact absurd rfl hx | cons a x => kernel_rfl))
    (all_cons (by intro b b' hb hb' x hx line l; (cases x with | nil => exact absurd rfl hx | cons a x => kernel_rfl))
    (all_cons (by intro b b' hb hb' x hx line l; kernel_rfl)
    (List.forall_mem_nil _)))))))

theorem obeys_raidLines_3 : ∀ v, [Version.F14].contains v = true → Command.Obeys (F14_Raid.cls F14_RaidData.cls) raidLines v :=
  obeys_of obeys_raidLines_3_object [0] [15, 17, 21, 36, 38, 55] (obeys_raidLines_3_base _) (all_cons obeys_raidLines_3_start (List.forall_mem_nil _)) (obeys_raidLines_3_lines _) (by decide +kernel)

def obeys_raidLines_4_object (l : Nat) : Ns := [(c!"lineno", .int l), (c!"device", .int 1), (c!"fstype", .str c!""), (c!"level", .str c!"RAID1"), (c!"format", .bool true), (c!"spares", .int 0), (c!"preexist", .bool false), (c!"mountpoint", .str c!"/x"), (c!"members", .list [c!"raid.1", c!"raid.2"]), (c!"fsopts", .str c!""), (c!"fsprofile", .str c!""), (c!"encrypted", .bool false), (c!"passphrase", .str c!""), (c!"escrowcert", .str c!""), (c!"backuppassphrase", .bool false), (c!"label", .str c!""), (c!"mntpoint", .list [c!"/x"]), (c!"partitions", .list [c!"raid.1", c!"raid.2"])]

theorem obeys_raidLines_4_base (n : Str) : Command.FirstBase (F15_Raid.cls F15_RaidData.cls) n [c!"/x", c!"--device=1", c!"--level=RAID1", c!"raid.1", c!"raid.2"] obeys_raidLines_4_object := by
  intro b b' hb hb' line l; kernel_rfl

theorem obeys_raidLines_4_start : Command.FirstStart (F15_Raid.cls F15_RaidData.cls) obeys_raidLines_4_object (raidLines.start.getD 0 ([], [])).2 := fun _ => .inl ⟨fun _ => rfl, (all_cons (by kernel_rfl) (all_cons (by kernel_rfl) (all_cons (by kernel_rfl) (all_cons (by kernel_rfl) (all_cons (by kernel_rfl) (all_cons (by kernel_rfl) (all_cons (by kernel_rfl) (List.forall_mem_nil _))))))))⟩

theorem obeys_raidLines_4_lines (n : Str) : ∀ i ∈ [15, 17, 37, 38], Command.FirstLine (F15_Raid.cls F15_RaidData.cls) n [c!"/x", c!"--device=1", c!"--level=RAID1", c!"raid.1", c!"raid.2"] obeys_raidLines_4_object (raidLines.lines.getD i noLine) :=
  (all_cons (by intro b b' hb hb' x hx line l; kernel_rfl)
    (all_cons (by intro b b' hb hb' x hx line l; kernel_rfl)
    (all_cons (by intro b b' hb hb' x hx line l; (cases x with | nil => exact absurd rfl hx | cons a x => kernel_rfl))
    (all_cons (by intro b b' hb hb' x hx line l; (cases x with | nil => exact absurd rfl hx | cons a x => kernel_rfl))
    (List.forall_mem_nil _)))))

theorem obeys_raidLines_4 : ∀ v, [Version.F15, Version.F16, Version.F17].contains v = true → Command.Obeys (F15_Raid.cls F15_RaidData.cls) raidLines v :=
  obeys_of obeys_raidLines_4_object [0] [15, 17, 37, 38] (obeys_raidLines_4_base _) (all_cons obeys_raidLines_4_start (List.forall_mem_nil _)) (obeys_raidLines_4_lines _) (by decide +kernel)

def obeys_raidLines_5_object (l : Nat) : Ns := [(c!"lineno", .int l), (c!"device", .int 1), (c!"fstype", .str c!""), (c!"level", .str c!"RAID1"), (c!"format", .bool true), (c!"spares", .int 0), (c!"preexist", .bool false), (c!"mountpoint", .str c!"/x"), (c!"members", .list [c!"raid.1", c!"raid.2"]), (c!"fsopts", .str c!""), (c!"fsprofile", .str c!""), (c!"encrypted", .bool false), (c!"passphrase", .str c!""), (c!"escrowcert", .str c!""), (c!"backuppassphrase", .bool false), (c!"label", .str c!""), (c!"cipher", .str c!""), (c!"mntpoint", .list [c!"/x"]), (c!"partitions", .list [c!"raid.1", c!"raid.2"])]

theorem obeys_raidLines_5_base (n : Str) : Command.FirstBase (F18_Raid.cls F18_RaidData.cls) n [c!"/x", c!"--device=1", c!"--level=RAID1", c!"raid.1", c!"raid.2"] obeys_raidLines_5_object := by
  intro b b' hb hb' line l; kernel_rfl

theorem obeys_raidLines_5_start : Command.FirstStart (F18_Raid.cls F18_RaidData.cls) obeys_raidLines_5_object (raidLines.start.getD 0 ([], [])).2 := fun _ => .inl ⟨fun _ => rfl, (all_cons (by kernel_rfl) (all_cons (by kernel_rfl) (all_cons (by kernel_rfl) (all_cons (by kernel_rfl) (all_cons (by kernel_rfl) (all_cons (by kernel_rfl) (all_cons (by kernel_rfl) (List.forall_mem_nil _))))))))⟩

theorem obeys_raidLines_5_lines (n : Str) : ∀ i ∈ [0, 15, 17, 39], Command.FirstLine (F18_Raid.cls F18_RaidData.cls) n [c!"/x", c!"--device=1", c!"--level=RAID1", c!"raid.1", c!"raid.2"] obeys_raidLines_5_object (raidLines.lines.getD i noLine) :=
  (all_cons (by intro b b' hb hb' x hx line l; kernel_rfl)
    (all_cons (by intro b b' hb hb' x hx line l; kernel_rfl)
    (all_cons (by intro b b' hb hb' x hx line l; kernel_rfl)
    (all_cons (by intro b b' hb hb' x hx line l; (cases x with | nil => exact absurd rfl hx | cons a x => kernel_rfl))
    (List.forall_mem_nil _)))))

theorem obeys_raidLines_5 : ∀ v, [Version.F18].contains v = true → Command.Obeys (F18_Raid.cls F18_RaidData.cls) raidLines v :=
  obeys_of obeys_raidLines_5_object [0] [0, 15, 17, 39] (obeys_raidLines_5_base _) (all_cons obeys_raidLines_5_start (List.forall_mem_nil _)) (obeys_raidLines_5_lines _) (by decide +kernel)

def obeys_raidLines_6_object (l : Nat) : Ns := [(c!"lineno", .int l), (c!"device", .str c!"1"), (c!"fstype", .str c!""), (c!"level", .str c!"RAID1"), (c!"format", .bool true), (c!"spares", .int 0), (c!"preexist", .bool false), (c!"mountpoint", .str c!"/x"), (c!"members", .list [c!"raid.1", c!"raid.2"]), (c!"fsopts", .str c!""), (c!"fsprofile", .str c!""), (c!"encrypted", .bool false), (c!"passphrase", .str c!""), (c!"escrowcert", .str c!""), (c!"backuppassphrase", .bool false), (c!"label", .str c!""), (c!"cipher", .str c!""), (c!"mntpoint", .list [c!"/x"]), (c!"partitions", .list [c!"raid.1", c!"raid.2"])]

theorem obeys_raidLines_6_base (n : Str) : Command.FirstBase (F19_Raid.cls F18_RaidData.cls) n [c!"/x", c!"--device=1", c!"--level=RAID1", c!"raid.1", c!"raid.2"] obeys_raidLines_6_object := by
  intro b b' hb hb' line l; kernel_rfl

theorem obeys_raidLines_6_start : Command.FirstStart (F19_Raid.cls F18_RaidData.cls) obeys_raidLines_6_object (raidLines.start.getD 1 ([], [])).2 := fun _ => .inl ⟨fun _ => rfl, (all_cons (by kernel_rfl) (all_cons (by kernel_rfl) (all_cons (by kernel_rfl) (all_cons (by kernel_rfl) (all_cons (by kernel_rfl) (all_cons (by kernel_rfl) (all_cons (by kernel_rfl) (List.forall_mem_nil _))))))))⟩

theorem obeys_raidLines_6_lines (n : Str) : ∀ i ∈ [1, 15, 17], Command.FirstLine (F19_Raid.cls F18_RaidData.cls) n [c!"/x", c!"--device=1", c!"--level=RAID1", c!"raid.1", c!"raid.2"] obeys_raidLines_6_object (raidLines.lines.getD i noLine) :=
  (all_cons (by intro b b' hb hb' x hx line l; kernel_rfl)
    (all_cons (by intro b b' hb hb' x hx line l; kernel_rfl)
    (all_cons (by intro b b' hb hb' x hx line l; kernel_rfl)
    (List.forall_mem_nil _))))

theorem obeys_raidLines_6 : ∀ v, [Version.F19].contains v = true → Command.Obeys (F19_Raid.cls F18_RaidData.cls) raidLines v :=
  obeys_of obeys_raidLines_6_object [1] [1, 15, 17] (obeys_raidLines_6_base _) (all_cons obeys_raidLines_6_start (List.forall_mem_nil _)) (obeys_raidLines_6_lines _) (by decide +kernel)

def obeys_raidLines_7_object (l : Nat) : Ns := [(c!"lineno", .int l), (c!"device", .str c!"1"), (c!"fstype", .str c!""), (c!"level", .str c!"RAID1"), (c!"format", .bool true), (c!"spares", .int 0), (c!"preexist", .bool false), (c!"mountpoint", .str c!"/x"), (c!"members", .list [c!"raid.1", c!"raid.2"]), (c!"fsopts", .str c!""), (c!"fsprofile", .str c!""), (c!"encrypted", .bool false), (c!"passphrase", .str c!""), (c!"escrowcert", .str c!""), (c!"backuppassphrase", .bool false), (c!"label", .str c!""), (c!"cipher", .str c!""), (c!"mntpoint", .list [c!"/x"]), (c!"partitions", .list [c!"raid.1", c!"raid.2"])]

theorem obeys_raidLines_7_base (n : Str) : Command.FirstBase (F20_Raid.cls F18_RaidData.cls) n [c!"/x", c!"--device=1", c!"--level=RAID1", c!"raid.1", c!"raid.2"] obeys_raidLines_7_object := by
  intro b b' hb hb' line l; rcases hb with rfl | rfl <;> rcases hb' with rfl | rfl <;> kernel_rfl

theorem obeys_raidLines_7_start : Command.FirstStart (F20_Raid.cls F18_RaidData.cls) obeys_raidLines_7_object (raidLines.start.getD 1 ([], [])).2 := fun _ => .inl ⟨fun _ => rfl, (all_cons (by kernel_rfl) (all_cons (by kernel_rfl) (all_cons (by kernel_rfl) (all_cons (by kernel_rfl) (all_cons (by kernel_rfl) (all_cons (by kernel_rfl) (all_cons (by kernel_rfl) (List.forall_mem_nil _))))))))⟩

theorem obeys_raidLines_7_lines (n : Str) : ∀ i ∈ [15, 17, 40, 42], Command.FirstLine (F20_Raid.cls F18_RaidData.cls) n [c!"/x", c!"--device=1", c!"--level=RAID1", c!"raid.1", c!"raid.2"] obeys_raidLines_7_object (raidLines.lines.getD i noLine) :=
  (all_cons (by intro b b' hb hb' x hx line l; rcases hb with rfl | rfl <;> rcases hb' with rfl | rfl <;> kernel_rfl)
    (all_cons (by intro b b' hb hb' x hx line l; rcases hb with rfl | rfl <;> rcases hb' with rfl | rfl <;> kernel_rfl)
    (all_cons (by intro b b' hb hb' x hx line l; (cases x with | nil => exact absurd rfl hx | cons a x => rcases hb with rfl | rfl <;> rcases hb' with rfl | rfl <;> kernel_rfl))
    (all_cons (by intro b b' hb hb' x hx line l; rcases hb with rfl | rfl <;> rcases hb' with rfl | rfl <;> kernel_rfl)
    (List.forall_mem_nil _)))))

theorem obeys_raidLines_7 : ∀ v, [Version.F20, Version.F21, Version.F22].contains v = true → Command.Obeys (F20_Raid.cls F18_RaidData.cls) raidLines v :=
  obeys_of obeys_raidLines_7_object [1] [15, 17, 40, 42] (obeys_raidLines_7_base _) (all_cons obeys_raidLines_7_start (List.forall_mem_nil _)) (obeys_raidLines_7_lines _) (by decide +kernel)

def obeys_raidLines_8_object (l : Nat) : Ns := [(c!"lineno", .int l), (c!"device", .str c!"1"), (c!"fstype", .str c!""), (c!"level", .str c!"RAID1"), (c!"format", .bool true), (c!"spares", .int 0), (c!"preexist", .bool false), (c!"mountpoint", .str c!"/x"), (c!"members", .list [c!"raid.1", c!"raid.2"]), (c!"fsopts", .str c!""), (c!"fsprofile", .str c!""), (c!"encrypted", .bool false), (c!"passphrase", .str c!""), (c!"escrowcert", .str c!""), (c!"backuppassphrase", .bool false), (c!"label", .str c!""), (c!"cipher", .str c!""), (c!"mkfsopts", .str c!""), (c!"mntpoint", .list [c!"/x"]), (c!"partitions", .list [c!"raid.1", c!"raid.2"])]

theorem obeys_raidLines_8_base (n : Str) : Command.FirstBase (F23_Raid.cls F23_RaidData.cls) n [c!"/x", c!"--device=1", c!"--level=RAID1", c!"raid.1", c!"raid.2"] obeys_raidLines_8_object := by
  intro b b' hb hb' line l; rcases hb with rfl | rfl <;> rcases hb' with rfl | rfl <;> kernel_rfl

theorem obeys_raidLines_8_start : Command.FirstStart (F23_Raid.cls F23_RaidData.cls) obeys_raidLines_8_object (raidLines.start.getD 1 ([], [])).2 := fun _ => .inl ⟨fun _ => rfl, (all_cons (by kernel_rfl) (all_cons (by kernel_rfl) (all_cons (by kernel_rfl) (all_cons (by kernel_rfl) (all_cons (by kernel_rfl) (all_cons (by kernel_rfl) (all_cons (by kernel_rfl) (List.forall_mem_nil _))))))))⟩

theorem obeys_raidLines_8_lines (n : Str) : ∀ i ∈ [15, 17, 41, 42], Command.FirstLine (F23_Raid.cls F23_RaidData.cls) n [c!"/x", c!"--device=1", c!"--level=RAID1", c!"raid.1", c!"raid.2"] obeys_raidLines_8_object (raidLines.lines.getD i noLine) :=
  (all_cons (by intro b b' hb hb' x hx line l; rcases hb with rfl | rfl <;> rcases hb' with rfl | rfl <;> kernel_rfl)
    (all_cons (by intro b b' hb hb' x hx line l; rcases hb with rfl | rfl <;> rcases hb' with rfl | rfl <;> kernel_rfl)
    (all_cons (by intro b b' hb hb' x hx line l; (cases x with | nil => exact absurd rfl hx | cons a x => rcases hb with rfl | rfl <;> rcases hb' with rfl | rfl <;> kernel_rfl))
    (all_cons (by intro b b' hb hb' x hx line l; rcases hb with rfl | rfl <;> rcases hb' with rfl | rfl <;> kernel_rfl)
    (List.forall_mem_nil _)))))

theorem obeys_raidLines_8 : ∀ v, [Version.F23, Version.F24].contains v = true → Command.Obeys (F23_Raid.cls F23_RaidData.cls) raidLines v :=
  obeys_of obeys_raidLines_8_object [1] [15, 17, 41, 42] (obeys_raidLines_8_base _) (all_cons obeys_raidLines_8_start (List.forall_mem_nil _)) (obeys_raidLines_8_lines _) (by decide +kernel)

def obeys_raidLines_9_object (l : Nat) : Ns := [(c!"lineno", .int l), (c!"device", .str c!"1"), (c!"fstype", .str c!""), (c!"level", .str c!"RAID1"), (c!"format", .bool true), (c!"spares", .int 0), (c!"preexist", .bool false), (c!"mountpoint", .str c!"/x"), (c!"members", .list [c!"raid.1", c!"raid.2"]), (c!"fsopts", .str c!""), (c!"fsprofile", .str c!""), (c!"encrypted", .bool false), (c!"passphrase", .str c!""), (c!"escrowcert", .str c!""), (c!"backuppassphrase", .bool false), (c!"label", .str c!""), (c!"cipher", .str c!""), (c!"mkfsopts", .str c!""), (c!"chunk_size", .none), (c!"mntpoint", .list [c!"/x"]), (c!"partitions", .list [c!"raid.1", c!"raid.2"])]

theorem obeys_raidLines_9_base (n : Str) : Command.FirstBase (F25_Raid.cls F25_RaidData.cls) n [c!"/x", c!"--device=1", c!"--level=RAID1", c!"raid.1", c!"raid.2"] obeys_raidLines_9_object := by
  intro b b' hb hb' line l; rcases hb with rfl | rfl <;> rcases hb' with rfl | rfl <;> kernel_rfl

theorem obeys_raidLines_9_start : Command.FirstStart (F25_Raid.cls F25_RaidData.cls) obeys_raidLines_9_object (raidLines.start.getD 1 ([], [])).2 := fun _ => .inl ⟨fun _ => rfl, (all_cons (by kernel_rfl) (all_cons (by kernel_rfl) (all_cons (by kernel_rfl) (all_cons (by kernel_rfl) (all_cons (by kernel_rfl) (all_cons (by kernel_rfl) (all_cons (by kernel_rfl) (List.forall_mem_nil _))))))))⟩

theorem obeys_raidLines_9_lines (n : Str) : ∀ i ∈ [15, 17, 43, 44, 46, 48, 50, 52], Command.FirstLine (F25_Raid.cls F25_RaidData.cls) n [c!"/x", c!"--device=1", c!"--level=RAID1", c!"raid.1", c!"raid.2"] obeys_raidLines_9_object (raidLines.lines.getD i noLine) :=
  (all_cons (by intro b b' hb hb' x hx line l; rcases hb with rfl | rfl <;> rcases hb' with rfl | rfl <;> kernel_rfl)
    (all_cons (by intro b b' hb hb' x hx line l; rcases hb with rfl | rfl <;> rcases hb' with rfl | rfl <;> kernel_rfl)
    (all_cons (by intro b b' hb hb' x hx line l; rcases hb with rfl | rfl <;> rcases hb' with rfl | rfl <;> kernel_rfl)
    (all_cons (by intro b b' hb hb' x hx line l; (cases x with | nil => exact absurd rfl hx | cons a x => rcases hb with rfl | rfl <;> rcases hb' with rfl | rfl <;> kernel_rfl))
    (all_cons (by intro b b' hb hb' x hx line l; (cases x with | nil => exact absurd rfl hx | cons a x => rcases hb with rfl | rfl <;> rcases hb' with rfl | rfl <;> kernel_rfl))
    (all_cons (by intro b b' hb hb' x hx line l; rcases hb with rfl | rfl <;> rcases hb' with rfl | rfl <;> kernel_rfl)
    (all_cons (by intro b b' hb hb' x hx line l; rcases hb with rfl | rfl <;> rcases hb' with rfl | rfl <;> kernel_rfl)
    (all_cons (by intro b b' hb hb' x hx line l; rcases hb with rfl | rfl <;> rcases hb' with rfl | rfl <;> kernel_rfl)
    (List.forall_mem_nil _)))))))))

theorem obeys_raidLines_9 : ∀ v, [Version.F25, Version.F26, Version.F27, Version.F28].contains v = true → Command.Obeys (F25_Raid.cls F25_RaidData.cls) raidLines v :=
  obeys_of obeys_raidLines_9_object [1] [15, 17, 43, 44, 46, 48, 50, 52] (obeys_raidLines_9_base _) (all_cons obeys_raidLines_9_start (List.forall_mem_nil _)) (obeys_raidLines_9_lines _) (by decide +kernel)

def obeys_raidLines_10_object (l : Nat) : Ns := [(c!"lineno", .int l), (c!"device", .str c!"1"), (c!"fstype", .str c!""), (c!"level", .str c!"RAID1"), (c!"format", .bool true), (c!"spares", .int 0), (c!"preexist", .bool false), (c!"mountpoint", .str c!"/x"), (c!"members", .list [c!"raid.1", c!"raid.2"]), (c!"fsopts", .str c!""), (c!"fsprofile", .str c!""), (c!"encrypted", .bool false), (c!"passphrase", .str c!""), (c!"escrowcert", .str c!""), (c!"backuppassphrase", .bool false), (c!"label", .str c!""), (c!"cipher", .str c!""), (c!"mkfsopts", .str c!""), (c!"chunk_size", .none), (c!"luks_version", .str c!""), (c!"pbkdf", .str c!""), (c!"pbkdf_memory", .int 0), (c!"pbkdf_time", .int 0), (c!"pbkdf_iterations", .int 0), (c!"mntpoint", .list [c!"/x"]), (c!"partitions", .list [c!"raid.1", c!"raid.2"])]

theorem obeys_raidLines_10_base (n : Str) : Command.FirstBase (F29_Raid.cls F29_RaidData.cls) n [c!"/x", c!"--device=1", c!"--level=RAID1", c!"raid.1", c!"raid.2"] obeys_raidLines_10_object := by
  intro b b' hb hb' line l; rcases hb with rfl | rfl <;> rcases hb' with rfl | rfl <;> kernel_rfl

theorem obeys_raidLines_10_start : Command.FirstStart (F29_Raid.cls F29_RaidData.cls) obeys_raidLines_10_object (raidLines.start.getD 1 ([], [])).2 := fun _ => .inl ⟨fun _ => rfl, (all_cons (by kernel_rfl) (all_cons (by kernel_rfl) (all_cons (by kernel_rfl) (all_cons (by kernel_rfl) (all_cons (by kernel_rfl) (all_cons (by kernel_rfl) (all_cons (by kernel_rfl) (List.forall_mem_nil _))))))))⟩

theorem obeys_raidLines_10_lines (n : Str) : ∀ i ∈ [1, 2, 3, 4, 5, 6, 7, 8, 9, 10, 11, 13, 15, 16, 17, 18, 22, 24, 26, 29, 31, 33, 35, 37, 39, 41, 43, 45, 47, 49, 51, 53], Command.FirstLine (F29_Raid.cls F29_RaidData.cls) n [c!"/x", c!"--device=1", c!"--level=RAID1", c!"raid.1", c!"raid.2"] obeys_raidLines_10_object (raidLines.lines.getD i noLine) :=
  (all_cons (by intro b b' hb hb' x hx line l; rcases hb with rfl | rfl <;> rcases hb' with rfl | rfl <;> kernel_rfl)
    (all_cons (by intro b b' hb hb' x hx line l; (cases x with | nil => exact absurd rfl hx | cons a x => rcases hb with rfl | rfl <;> rcases hb' with rfl | rfl <;> kernel_rfl))
    (all_cons (by intro b b' hb hb' x hx line l; rcases hb with rfl | rfl <;> rcases hb' with rfl | rfl <;> kernel_rfl)
    (all_cons (by intro b b' hb hb' x hx line l; rcases hb with rfl | rfl <;> rcases hb' with rfl | rfl <;> kernel_rfl)
    (all_cons (by intro b b' hb hb' x hx line l; rcases hb with rfl | rfl <;> rcases hb' with rfl | rfl <;> kernel_rfl)
    (all_cons (by intro b b' hb hb' x hx line l; rcases hb with rfl | rfl <;> rcases hb' with rfl | rfl <;> kernel_rfl)
    (all_cons (by intro b b' hb hb' x hx line l; rcases hb with rfl | rfl <;> rcases hb' with rfl | rfl <;> kernel_rfl)
    (all_cons (by intro b b' hb hb' x hx line l; rcases hb with rfl | rfl <;> rcases hb' with rfl | rfl <;> kernel_rfl)
    (all_cons (by intro b b' hb hb' x hx line l; rcases hb with rfl | rfl <;> rcases hb' with rfl | rfl <;> kernel_rfl)
    (all_cons (by intro b b' hb hb' x hx line l; rcases hb with rfl | rfl <;> rcases hb' with rfl | rfl <;> kernel_rfl)
    (all_cons (by intro b b' hb hb' x hx line l; rcases hb with rfl | rfl <;> rcases hb' with rfl | rfl <;> kernel_rfl)
    (all_cons (by intro b b' hb hb' x hx line l; rcases hb with rfl | rfl <;> rcases hb' with rfl | rfl <;> kernel_rfl)
    (all_cons (by intro b b' hb hb' x hx line l; rcases hb with rfl | rfl <;> rcases hb' with rfl | rfl <;> kernel_rfl)
    (all_cons (by intro b b' hb hb' x hx line l; rcases hb with rfl | rfl <;> rcases hb' with rfl | rfl <;> kernel_rfl)
    (all_cons (by intro b b' hb hb' x hx line l; rcases hb with rfl | rfl <;> rcases hb' with rfl | rfl <;> kernel_rfl)
    (all_cons (by intro b b' hb hb' x hx line l; (cases x with | nil => exact absurd rfl hx | cons a x => rcases hb with rfl | rfl <;> rcases hb' with rfl | rfl <;> kernel_rfl))
    (all_cons (by intro b b' hb hb' x hx line l; (cases x with | nil => exact absurd rfl hx | cons a x => rcases hb with rfl | rfl <;> rcases hb' with rfl | rfl <;> kernel_rfl))
    (all_cons (by intro b b' hb hb' x hx line l; rcases hb with rfl | rfl <;> rcases hb' with rfl | rfl <;> kernel_rfl)
    (all_cons (by intro b b' hb hb' x hx line l; (cases x with | nil => exact absurd rfl hx | cons a x => rcases hb with rfl | rfl <;> rcases hb' with rfl | rfl <;> kernel_rfl))
    (all_cons (by intro b b' hb hb' x hx line l; (cases x with | nil => exact absurd rfl hx | cons a x => rcases hb with rfl | rfl <;> rcases hb' with rfl | rfl <;> kernel_rfl))
    (all_cons (by intro b b' hb hb' x hx line l; rcases hb with rfl | rfl <;> rcases hb' with rfl | rfl <;> kernel_rfl)
    (all_cons (by intro b b' hb hb' x hx line l; rcases hb with rfl | rfl <;> rcases hb' with rfl | rfl <;> kernel_rfl)
    (all_cons (by intro b b' hb hb' x hx line l; rcases hb with rfl | rfl <;> rcases hb' with rfl | rfl <;> kernel_rfl)
    (all_cons (by intro b b' hb hb' x hx line l; (cases x with | nil => exact absurd rfl hx | cons a x => rcases hb with rfl | rfl <;> rcases hb' with rfl | rfl <;> kernel_rfl))
    (all_cons (by intro b b' hb hb' x hx line l; (cases x with | nil => exact absurd rfl hx | cons a x => rcases hb with rfl | rfl <;> rcases hb' with rfl | rfl <;> kernel_rfl))
    (all_cons (by intro b b' hb hb' x hx line l; (cases x with | nil => exact absurd rfl hx | cons a x => rcases hb with rfl | rfl <;> rcases hb' with rfl | rfl <;> kernel_rfl))
    (all_cons (by intro b b' hb hb' x hx line l; rcases hb with rfl | rfl <;> rcases hb' with rfl | rfl <;> kernel_rfl)
    (all_cons (by intro b b' hb hb' x hx line l; (cases x with | nil => exact absurd rfl hx | cons a x => rcases hb with rfl | rfl <;> rcases hb' with rfl | rfl <;> kernel_rfl))
    (all_cons (by intro b b' hb hb' x hx line l; (cases x with | nil => exact absurd rfl hx | cons a x => rcases hb with rfl | rfl <;> rcases hb' with rfl | rfl <;> kernel_rfl))
    (all_cons (by intro b b' hb hb' x hx line l; rcases hb with rfl | rfl <;> rcases hb' with rfl | rfl <;> kernel_rfl)
    (all_cons (by intro b b' hb hb' x hx line l; rcases hb with rfl | rfl <;> rcases hb' with rfl | rfl <;> kernel_rfl)
    (all_cons (by intro b b' hb hb' x hx line l; rcases hb with rfl | rfl <;> rcases hb' with rfl | rfl <;> kernel_rfl)
    (List.forall_mem_nil _)))))))))))))))))))))))))))))))))

theorem obeys_raidLines_10 : ∀ v, [Version.F29, Version.F30, Version.F31, Version.F32, Version.F33, Version.F34].contains v = true → Command.Obeys (F29_Raid.cls F29_RaidData.cls) raidLines v :=
  obeys_of obeys_raidLines_10_object [1] [1, 2, 3, 4, 5, 6, 7, 8, 9, 10, 11, 13, 15, 16, 17, 18, 22, 24, 26, 29, 31, 33, 35, 37, 39, 41, 43, 45, 47, 49, 51, 53] (obeys_raidLines_10_base _) (all_cons obeys_raidLines_10_start (List.forall_mem_nil _)) (obeys_raidLines_10_lines _) (by decide +kernel)

def obeys_raidLines_11_object (l : Nat) : Ns := [(c!"lineno", .int l), (c!"device", .int 1), (c!"fstype", .str c!""), (c!"level", .str c!"RAID1"), (c!"format", .bool true), (c!"spares", .int 0), (c!"preexist", .bool false), (c!"mountpoint", .str c!"/x"), (c!"members", .list [c!"raid.1", c!"raid.2"]), (c!"fsopts", .str c!""), (c!"bytesPerInode", .int 4096), (c!"mntpoint", .list [c!"/x"]), (c!"partitions", .list [c!"raid.1", c!"raid.2"])]

theorem obeys_raidLines_11_base (n : Str) : Command.FirstBase (F7_Raid.cls F7_RaidData.cls) n [c!"/x", c!"--device=1", c!"--level=RAID1", c!"raid.1", c!"raid.2"] obeys_raidLines_11_object := by
  intro b b' hb hb' line l; kernel_rfl

theorem obeys_raidLines_11_start : Command.FirstStart (F7_Raid.cls F7_RaidData.cls) obeys_raidLines_11_object (raidLines.start.getD 2 ([], [])).2 := fun _ => .inl ⟨fun _ => rfl, (all_cons (by kernel_rfl) (all_cons (by kernel_rfl) (all_cons (by kernel_rfl) (all_cons (by kernel_rfl) (all_cons (by kernel_rfl) (all_cons (by kernel_rfl) (all_cons (by kernel_rfl) (all_cons (by kernel_rfl) (List.forall_mem_nil _)))))))))⟩

theorem obeys_raidLines_11_lines (n : Str) : ∀ i ∈ [15, 17, 21, 23, 25, 27], Command.FirstLine (F7_Raid.cls F7_RaidData.cls) n [c!"/x", c!"--device=1", c!"--level=RAID1", c!"raid.1", c!"raid.2"] obeys_raidLines_11_object (raidLines.lines.getD i noLine) :=
  (all_cons (by intro b b' hb hb' x hx line l; kernel_rfl)
    (all_cons (by intro b b' hb hb' x hx line l; kernel_rfl)
    (all_cons (by intro b b' hb hb' x hx line l; (cases x with | nil => exact absurd rfl hx | cons a x => kernel_rfl))
    (all_cons (by intro b b' hb hb' x hx line l; (cases x with | nil => exact absurd rfl hx | cons a x => kernel_rfl))
    (all_cons (by intro b b' hb hb' x hx line l; kernel_rfl)
    (all_cons (by intro b b' hb hb' x hx line l; (cases x with | nil => exact absurd rfl hx | cons a x => kernel_rfl))
    (List.forall_mem_nil _)))))))

theorem obeys_raidLines_11 : ∀ v, [Version.F7, Version.F8].contains v = true → Command.Obeys (F7_Raid.cls F7_RaidData.cls) raidLines v :=
  obeys_of obeys_raidLines_11_object [2] [15, 17, 21, 23, 25, 27] (obeys_raidLines_11_base _) (all_cons obeys_raidLines_11_start (List.forall_mem_nil _)) (obeys_raidLines_11_lines _) (by decide +kernel)

def obeys_raidLines_12_object (l : Nat) : Ns := [(c!"lineno", .int l), (c!"device", .int 1), (c!"fstype", .str c!""), (c!"level", .str c!"RAID1"), (c!"format", .bool true), (c!"spares", .int 0), (c!"preexist", .bool false), (c!"mountpoint", .str c!"/x"), (c!"members", .list [c!"raid.1", c!"raid.2"]), (c!"mntpoint", .list [c!"/x"]), (c!"partitions", .list [c!"raid.1", c!"raid.2"])]

theorem obeys_raidLines_12_base (n : Str) : Command.FirstBase (FC3_Raid.cls FC3_RaidData.cls) n [c!"/x", c!"--device=1", c!"--level=RAID1", c!"raid.1", c!"raid.2"] obeys_raidLines_12_object := by
  intro b b' hb hb' line l; kernel_rfl

theorem obeys_raidLines_12_start : Command.FirstStart (FC3_Raid.cls FC3_RaidData.cls) obeys_raidLines_12_object (raidLines.start.getD 0 ([], [])).2 := fun _ => .inl ⟨fun _ => rfl, (all_cons (by kernel_rfl) (all_cons (by kernel_rfl) (all_cons (by kernel_rfl) (all_cons (by kernel_rfl) (all_cons (by kernel_rfl) (all_cons (by kernel_rfl) (all_cons (by kernel_rfl) (List.forall_mem_nil _))))))))⟩

theorem obeys_raidLines_12_lines (n : Str) : ∀ i ∈ [2, 3, 4, 5, 6, 7, 8, 9, 10, 15, 16, 17, 19], Command.FirstLine (FC3_Raid.cls FC3_RaidData.cls) n [c!"/x", c!"--device=1", c!"--level=RAID1", c!"raid.1", c!"raid.2"] obeys_raidLines_12_object (raidLines.lines.getD i noLine) :=
  (all_cons (by intro b b' hb hb' x hx line l; (cases x with | nil => exact absurd rfl hx | cons a x => kernel_rfl))
    (all_cons (by intro b b' hb hb' x hx line l; kernel_rfl)
    (all_cons (by intro b b' hb hb' x hx line l; kernel_rfl)
    (all_cons (by intro b b' hb hb' x hx line l; kernel_rfl)
    (all_cons (by intro b b' hb hb' x hx line l; kernel_rfl)
    (all_cons (by intro b b' hb hb' x hx line l; kernel_rfl)
    (all_cons (by intro b b' hb hb' x hx line l; kernel_rfl)
    (all_cons (by intro b b' hb hb' x hx line l; kernel_rfl)
    (all_cons (by intro b b' hb hb' x hx line l; kernel_rfl)
    (all_cons (by intro b b' hb hb' x hx line l; kernel_rfl)
    (all_cons (by intro b b' hb hb' x hx line l; kernel_rfl)
    (all_cons (by intro b b' hb hb' x hx line l; kernel_rfl)
    (all_cons (by intro b b' hb hb' x hx line l; (cases x with | nil => exact absurd rfl hx | cons a x => kernel_rfl))
    (List.forall_mem_nil _))))))))))))))

theorem obeys_raidLines_12 : ∀ v, [Version.RHEL3, Version.FC3, Version.RHEL4].contains v = true → Command.Obeys (FC3_Raid.cls FC3_RaidData.cls) raidLines v :=
  obeys_of obeys_raidLines_12_object [0] [2, 3, 4, 5, 6, 7, 8, 9, 10, 15, 16, 17, 19] (obeys_raidLines_12_base _) (all_cons obeys_raidLines_12_start (List.forall_mem_nil _)) (obeys_raidLines_12_lines _) (by decide +kernel)

def obeys_raidLines_13_object (l : Nat) : Ns := [(c!"lineno", .int l), (c!"device", .int 1), (c!"fstype", .str c!""), (c!"level", .str c!"RAID1"), (c!"format", .bool true), (c!"spares", .int 0), (c!"preexist", .bool false), (c!"mountpoint", .str c!"/x"), (c!"members", .list [c!"raid.1", c!"raid.2"]), (c!"fsopts", .str c!""), (c!"mntpoint", .list [c!"/x"]), (c!"partitions", .list [c!"raid.1", c!"raid.2"])]

theorem obeys_raidLines_13_base (n : Str) : Command.FirstBase (FC4_Raid.cls FC4_RaidData.cls) n [c!"/x", c!"--device=1", c!"--level=RAID1", c!"raid.1", c!"raid.2"] obeys_raidLines_13_object := by
  intro b b' hb hb' line l; kernel_rfl

theorem obeys_raidLines_13_start : Command.FirstStart (FC4_Raid.cls FC4_RaidData.cls) obeys_raidLines_13_object (raidLines.start.getD 0 ([], [])).2 := fun _ => .inl ⟨fun _ => rfl, (all_cons (by kernel_rfl) (all_cons (by kernel_rfl) (all_cons (by kernel_rfl) (all_cons (by kernel_rfl) (all_cons (by kernel_rfl) (all_cons (by kernel_rfl) (all_cons (by kernel_rfl) (List.forall_mem_nil _))))))))⟩

theorem obeys_raidLines_13_lines (n : Str) : ∀ i ∈ [15, 17, 18, 55], Command.FirstLine (FC4_Raid.cls FC4_RaidData.cls) n [c!"/x", c!"--device=1", c!"--level=RAID1", c!"raid.1", c!"raid.2"] obeys_raidLines_13_object (raidLines.lines.getD i noLine) :=
  (all_cons (by intro b b' hb hb' x hx line l; kernel_rfl)
    (all_cons (by intro b b' hb hb' x hx line l; kernel_rfl)
    (all_cons (by intro b b' hb hb' x hx line l; (cases x with | nil => exact absurd rfl hx | cons a x => kernel_rfl))
    (all_cons (by intro b b' hb hb' x hx line l; kernel_rfl)
    (List.forall_mem_nil _)))))

theorem obeys_raidLines_13 : ∀ v, [Version.FC4].contains v = true → Command.Obeys (FC4_Raid.cls FC4_RaidData.cls) raidLines v :=
  obeys_of obeys_raidLines_13_object [0] [15, 17, 18, 55] (obeys_raidLines_13_base _) (all_cons obeys_raidLines_13_start (List.forall_mem_nil _)) (obeys_raidLines_13_lines _) (by decide +kernel)

def obeys_raidLines_14_object (l : Nat) : Ns := [(c!"lineno", .int l), (c!"device", .int 1), (c!"fstype", .str c!""), (c!"level", .str c!"RAID1"), (c!"format", .bool true), (c!"spares", .int 0), (c!"preexist", .bool false), (c!"mountpoint", .str c!"/x"), (c!"members", .list [c!"raid.1", c!"raid.2"]), (c!"fsopts", .str c!""), (c!"bytesPerInode", .int 4096), (c!"mntpoint", .list [c!"/x"]), (c!"partitions", .list [c!"raid.1", c!"raid.2"])]

theorem obeys_raidLines_14_base (n : Str) : Command.FirstBase (FC5_Raid.cls FC5_RaidData.cls) n [c!"/x", c!"--device=1", c!"--level=RAID1", c!"raid.1", c!"raid.2"] obeys_raidLines_14_object := by
  intro b b' hb hb' line l; kernel_rfl

theorem obeys_raidLines_14_start : Command.FirstStart (FC5_Raid.cls FC5_RaidData.cls) obeys_raidLines_14_object (raidLines.start.getD 2 ([], [])).2 := fun _ => .inl ⟨fun _ => rfl, (all_cons (by kernel_rfl) (all_cons (by kernel_rfl) (all_cons (by kernel_rfl) (all_cons (by kernel_rfl) (all_cons (by kernel_rfl) (all_cons (by kernel_rfl) (all_cons (by kernel_rfl) (all_cons (by kernel_rfl) (List.forall_mem_nil _)))))))))⟩

theorem obeys_raidLines_14_lines (n : Str) : ∀ i ∈ [12, 14, 15, 17, 25, 27, 56], Command.FirstLine (FC5_Raid.cls FC5_RaidData.cls) n [c!"/x", c!"--device=1", c!"--level=RAID1", c!"raid.1", c!"raid.2"] obeys_raidLines_14_object (raidLines.lines.getD i noLine) :=
  (all_cons (by intro b b' hb hb' x hx line l; kernel_rfl)
    (all_cons (by intro b b' hb hb' x hx line l; kernel_rfl)
    (all_cons (by intro b b' hb hb' x hx line l; kernel_rfl)
    (all_cons (by intro b b' hb hb' x hx line l; kernel_rfl)
    (all_cons (by intro b b' hb hb' x hx line l; kernel_rfl)
    (all_cons (by intro b b' hb hb' x hx line l; (cases x with | nil => exact absurd rfl hx | cons a x => kernel_rfl))
    (all_cons (by intro b b' hb hb' x hx line l; kernel_rfl)
    (List.forall_mem_nil _))))))))

theorem obeys_raidLines_14 : ∀ v, [Version.FC5, Version.FC6].contains v = true → Command.Obeys (FC5_Raid.cls FC5_RaidData.cls) raidLines v :=
  obeys_of obeys_raidLines_14_object [2] [12, 14, 15, 17, 25, 27, 56] (obeys_raidLines_14_base _) (all_cons obeys_raidLines_14_start (List.forall_mem_nil _)) (obeys_raidLines_14_lines _) (by decide +kernel)

def obeys_raidLines_15_object (l : Nat) : Ns := [(c!"lineno", .int l), (c!"device", .int 1), (c!"fstype", .str c!""), (c!"level", .str c!"RAID1"), (c!"format", .bool true), (c!"spares", .int 0), (c!"preexist", .bool false), (c!"mountpoint", .str c!"/x"), (c!"members", .list [c!"raid.1", c!"raid.2"]), (c!"fsopts", .str c!""), (c!"bytesPerInode", .int 4096), (c!"encrypted", .bool false), (c!"passphrase", .str c!""), (c!"mntpoint", .list [c!"/x"]), (c!"partitions", .list [c!"raid.1", c!"raid.2"])]

theorem obeys_raidLines_15_base (n : Str) : Command.FirstBase (RHEL5_Raid.cls RHEL5_RaidData.cls) n [c!"/x", c!"--device=1", c!"--level=RAID1", c!"raid.1", c!"raid.2"] obeys_raidLines_15_object := by
  intro b b' hb hb' line l; kernel_rfl

theorem obeys_raidLines_15_start : Command.FirstStart (RHEL5_Raid.cls RHEL5_RaidData.cls) obeys_raidLines_15_object (raidLines.start.getD 2 ([], [])).2 := fun _ => .inl ⟨fun _ => rfl, (all_cons (by kernel_rfl) (all_cons (by kernel_rfl) (all_cons (by kernel_rfl) (all_cons (by kernel_rfl) (all_cons (by kernel_rfl) (all_cons (by kernel_rfl) (all_cons (by kernel_rfl) (all_cons (by kernel_rfl) (List.forall_mem_nil _)))))))))⟩

theorem obeys_raidLines_15_lines (n : Str) : ∀ i ∈ [11, 13, 15, 17, 24, 26], Command.FirstLine (RHEL5_Raid.cls RHEL5_RaidData.cls) n [c!"/x", c!"--device=1", c!"--level=RAID1", c!"raid.1", c!"raid.2"] obeys_raidLines_15_object (raidLines.lines.getD i noLine) :=
  (all_cons (by intro b b' hb hb' x hx line l; kernel_rfl)
    (all_cons (by intro b b' hb hb' x hx line l; kernel_rfl)
    (all_cons (by intro b b' hb hb' x hx line l; kernel_rfl)
    (all_cons (by intro b b' hb hb' x hx line l; kernel_rfl)
    (all_cons (by intro b b' hb hb' x hx line l; kernel_rfl)
    (all_cons (by intro b b' hb hb' x hx line l; (cases x with | nil => exact absurd rfl hx | cons a x => kernel_rfl))
    (List.forall_mem_nil _)))))))

theorem obeys_raidLines_15 : ∀ v, [Version.RHEL5].contains v = true → Command.Obeys (RHEL5_Raid.cls RHEL5_RaidData.cls) raidLines v :=
  obeys_of obeys_raidLines_15_object [2] [11, 13, 15, 17, 24, 26] (obeys_raidLines_15_base _) (all_cons obeys_raidLines_15_start (List.forall_mem_nil _)) (obeys_raidLines_15_lines _) (by decide +kernel)

def obeys_raidLines_16_object (l : Nat) : Ns := [(c!"lineno", .int l), (c!"device", .int 1), (c!"fstype", .str c!""), (c!"level", .str c!"RAID1"), (c!"format", .bool true), (c!"spares", .int 0), (c!"preexist", .bool false), (c!"mountpoint", .str c!"/x"), (c!"members", .list [c!"raid.1", c!"raid.2"]), (c!"fsopts", .str c!""), (c!"fsprofile", .str c!""), (c!"encrypted", .bool false), (c!"passphrase", .str c!""), (c!"escrowcert", .str c!""), (c!"backuppassphrase", .bool false), (c!"cipher", .str c!""), (c!"mntpoint", .list [c!"/x"]), (c!"partitions", .list [c!"raid.1", c!"raid.2"])]

theorem obeys_raidLines_16_base (n : Str) : Command.FirstBase (RHEL6_Raid.cls RHEL6_RaidData.cls) n [c!"/x", c!"--device=1", c!"--level=RAID1", c!"raid.1", c!"raid.2"] obeys_raidLines_16_object := by
  intro b b' hb hb' line l; kernel_rfl

theorem obeys_raidLines_16_start : Command.FirstStart (RHEL6_Raid.cls RHEL6_RaidData.cls) obeys_raidLines_16_object (raidLines.start.getD 0 ([], [])).2 := fun _ => .inl ⟨fun _ => rfl, (all_cons (by kernel_rfl) (all_cons (by kernel_rfl) (all_cons (by kernel_rfl) (all_cons (by kernel_rfl) (all_cons (by kernel_rfl) (all_cons (by kernel_rfl) (all_cons (by kernel_rfl) (List.forall_mem_nil _))))))))⟩

theorem obeys_raidLines_16_lines (n : Str) : ∀ i ∈ [15, 17, 39], Command.FirstLine (RHEL6_Raid.cls RHEL6_RaidData.cls) n [c!"/x", c!"--device=1", c!"--level=RAID1", c!"raid.1", c!"raid.2"] obeys_raidLines_16_object (raidLines.lines.getD i noLine) :=
  (all_cons (by intro b b' hb hb' x hx line l; kernel_rfl)
    (all_cons (by intro b b' hb hb' x hx line l; kernel_rfl)
    (all_cons (by intro b b' hb hb' x hx line l; (cases x with | nil => exact absurd rfl hx | cons a x => kernel_rfl))
    (List.forall_mem_nil _))))

theorem obeys_raidLines_16 : ∀ v, [Version.RHEL6].contains v = true → Command.Obeys (RHEL6_Raid.cls RHEL6_RaidData.cls) raidLines v :=
  obeys_of obeys_raidLines_16_object [0] [15, 17, 39] (obeys_raidLines_16_base _) (all_cons obeys_raidLines_16_start (List.forall_mem_nil _)) (obeys_raidLines_16_lines _) (by decide +kernel)

def obeys_raidLines_17_object (l : Nat) : Ns := [(c!"lineno", .int l), (c!"device", .str c!"1"), (c!"fstype", .str c!""), (c!"level", .str c!"RAID1"), (c!"format", .bool true), (c!"spares", .int 0), (c!"preexist", .bool false), (c!"mountpoint", .str c!"/x"), (c!"members", .list [c!"raid.1", c!"raid.2"]), (c!"fsopts", .str c!""), (c!"fsprofile", .str c!""), (c!"encrypted", .bool false), (c!"passphrase", .str c!""), (c!"escrowcert", .str c!""), (c!"backuppassphrase", .bool false), (c!"label", .str c!""), (c!"cipher", .str c!""), (c!"mkfsopts", .str c!""), (c!"chunk_size", .none), (c!"mntpoint", .list [c!"/x"]), (c!"partitions", .list [c!"raid.1", c!"raid.2"])]

theorem obeys_raidLines_17_base (n : Str) : Command.FirstBase (RHEL7_Raid.cls RHEL7_RaidData.cls) n [c!"/x", c!"--device=1", c!"--level=RAID1", c!"raid.1", c!"raid.2"] obeys_raidLines_17_object := by
  intro b b' hb hb' line l; rcases hb with rfl | rfl <;> rcases hb' with rfl | rfl <;> kernel_rfl

theorem obeys_raidLines_17_start : Command.FirstStart (RHEL7_Raid.cls RHEL7_RaidData.cls) obeys_raidLines_17_object (raidLines.start.getD 1 ([], [])).2 := fun _ => .inl ⟨fun _ => rfl, (all_cons (by kernel_rfl) (all_cons (by kernel_rfl) (all_cons (by kernel_rfl) (all_cons (by kernel_rfl) (all_cons (by kernel_rfl) (all_cons (by kernel_rfl) (all_cons (by kernel_rfl) (List.forall_mem_nil _))))))))⟩

theorem obeys_raidLines_17_lines (n : Str) : ∀ i ∈ [15, 17, 41, 43], Command.FirstLine (RHEL7_Raid.cls RHEL7_RaidData.cls) n [c!"/x", c!"--device=1", c!"--level=RAID1", c!"raid.1", c!"raid.2"] obeys_raidLines_17_object (raidLines.lines.getD i noLine) :=
  (all_cons (by intro b b' hb hb' x hx line l; rcases hb with rfl | rfl <;> rcases hb' with rfl | rfl <;> kernel_rfl)
    (all_cons (by intro b b' hb hb' x hx line l; rcases hb with rfl | rfl <;> rcases hb' with rfl | rfl <;> kernel_rfl)
    (all_cons (by intro b b' hb hb' x hx line l; (cases x with | nil => exact absurd rfl hx | cons a x => rcases hb with rfl | rfl <;> rcases hb' with rfl | rfl <;> kernel_rfl))
    (all_cons (by intro b b' hb hb' x hx line l; rcases hb with rfl | rfl <;> rcases hb' with rfl | rfl <;> kernel_rfl)
    (List.forall_mem_nil _)))))

theorem obeys_raidLines_17 : ∀ v, [Version.RHEL7].contains v = true → Command.Obeys (RHEL7_Raid.cls RHEL7_RaidData.cls) raidLines v :=
  obeys_of obeys_raidLines_17_object [1] [15, 17, 41, 43] (obeys_raidLines_17_base _) (all_cons obeys_raidLines_17_start (List.forall_mem_nil _)) (obeys_raidLines_17_lines _) (by decide +kernel)

def obeys_raidLines_18_object (l : Nat) : Ns := [(c!"lineno", .int l), (c!"device", .str c!"1"), (c!"fstype", .str c!""), (c!"level", .str c!"RAID1"), (c!"format", .bool true), (c!"spares", .int 0), (c!"preexist", .bool false), (c!"mountpoint", .str c!"/x"), (c!"members", .list [c!"raid.1", c!"raid.2"]), (c!"fsopts", .str c!""), (c!"fsprofile", .str c!""), (c!"encrypted", .bool false), (c!"passphrase", .str c!""), (c!"escrowcert", .str c!""), (c!"backuppassphrase", .bool false), (c!"label", .str c!""), (c!"cipher", .str c!""), (c!"mkfsopts", .str c!""), (c!"chunk_size", .none), (c!"luks_version", .str c!""), (c!"pbkdf", .str c!""), (c!"pbkdf_memory", .int 0), (c!"pbkdf_time", .int 0), (c!"pbkdf_iterations", .int 0), (c!"mntpoint", .list [c!"/x"]), (c!"partitions", .list [c!"raid.1", c!"raid.2"])]

theorem obeys_raidLines_18_base (n : Str) : Command.FirstBase (RHEL8_Raid.cls RHEL8_RaidData.cls) n [c!"/x", c!"--device=1", c!"--level=RAID1", c!"raid.1", c!"raid.2"] obeys_raidLines_18_object := by
  intro b b' hb hb' line l; rcases hb with rfl | rfl <;> rcases hb' with rfl | rfl <;> kernel_rfl

theorem obeys_raidLines_18_start : Command.FirstStart (RHEL8_Raid.cls RHEL8_RaidData.cls) obeys_raidLines_18_object (raidLines.start.getD 1 ([], [])).2 := fun _ => .inl ⟨fun _ => rfl, (all_cons (by kernel_rfl) (all_cons (by kernel_rfl) (all_cons (by kernel_rfl) (all_cons (by kernel_rfl) (all_cons (by kernel_rfl) (all_cons (by kernel_rfl) (all_cons (by kernel_rfl) (List.forall_mem_nil _))))))))⟩

theorem obeys_raidLines_18_lines (n : Str) : ∀ i ∈ [15, 17, 45, 47, 49, 51, 53], Command.FirstLine (RHEL8_Raid.cls RHEL8_RaidData.cls) n [c!"/x", c!"--device=1", c!"--level=RAID1", c!"raid.1", c!"raid.2"] obeys_raidLines_18_object (raidLines.lines.getD i noLine) :=
  (all_cons (by intro b b' hb hb' x hx line l; rcases hb with rfl | rfl <;> rcases hb' with rfl | rfl <;> kernel_rfl)
    (all_cons (by intro b b' hb hb' x hx line l; rcases hb with rfl | rfl <;> rcases hb' with rfl | rfl <;> kernel_rfl)
    (all_cons (by intro b b' hb hb' x hx line l; (cases x with | nil => exact absurd rfl hx | cons a x => rcases hb with rfl | rfl <;> rcases hb' with rfl | rfl <;> kernel_rfl))
    (all_cons (by intro b b' hb hb' x hx line l; (cases x with | nil => exact absurd rfl hx | cons a x => rcases hb with rfl | rfl <;> rcases hb' with rfl | rfl <;> kernel_rfl))
    (all_cons (by intro b b' hb hb' x hx line l; rcases hb with rfl | rfl <;> rcases hb' with rfl | rfl <;> kernel_rfl)
    (all_cons (by intro b b' hb hb' x hx line l; rcases hb with rfl | rfl <;> rcases hb' with rfl | rfl <;> kernel_rfl)
    (all_cons (by intro b b' hb hb' x hx line l; rcases hb with rfl | rfl <;> rcases hb' with rfl | rfl <;> kernel_rfl)
    (List.forall_mem_nil _))))))))

theorem obeys_raidLines_18 : ∀ v, [Version.RHEL8].contains v = true → Command.Obeys (RHEL8_Raid.cls RHEL8_RaidData.cls) raidLines v :=
  obeys_of obeys_raidLines_18_object [1] [15, 17, 45, 47, 49, 51, 53] (obeys_raidLines_18_base _) (all_cons obeys_raidLines_18_start (List.forall_mem_nil _)) (obeys_raidLines_18_lines _) (by decide +kernel)

theorem obeys_raidLines : raidLines.Obeyed := by
  unfold CommandLines.Obeyed commandMaps
  exact (all_cons (fun _ c h => by cases h; exact obeys_raidLines_0 _ rfl)
    (all_cons (fun _ c h => by cases h; exact obeys_raidLines_0 _ rfl)
    (all_cons (fun _ c h => by cases h; exact obeys_raidLines_1 _ rfl)
    (all_cons (fun _ c h => by cases h; exact obeys_raidLines_2 _ rfl)
    (all_cons (fun _ c h => by cases h; exact obeys_raidLines_3 _ rfl)
    (all_cons (fun _ c h => by cases h; exact obeys_raidLines_4 _ rfl)
    (all_cons (fun _ c h => by cases h; exact obeys_raidLines_4 _ rfl)
    (all_cons (fun _ c h => by cases h; exact obeys_raidLines_4 _ rfl)
    (all_cons (fun _ c h => by cases h; exact obeys_raidLines_5 _ rfl)
    (all_cons (fun _ c h => by cases h; exact obeys_raidLines_6 _ rfl)
    (all_cons (fun _ c h => by cases h; exact obeys_raidLines_7 _ rfl)
    (all_cons (fun _ c h => by cases h; exact obeys_raidLines_7 _ rfl)
    (all_cons (fun _ c h => by cases h; exact obeys_raidLines_7 _ rfl)
    (all_cons (fun _ c h => by cases h; exact obeys_raidLines_8 _ rfl)
    (all_cons (fun _ c h => by cases h; exact obeys_raidLines_8 _ rfl)
    (all_cons (fun _ c h => by cases h; exact obeys_raidLines_9 _ rfl)
    (all_cons (fun _ c h => by cases h; exact obeys_raidLines_9 _ rfl)
    (all_cons (fun _ c h => by cases h; exact obeys_raidLines_9 _ rfl)
    (all_cons (fun _ c h => by cases h; exact obeys_raidLines_9 _ rfl)
    (all_cons (fun _ c h => by cases h; exact obeys_raidLines_10 _ rfl)
    (all_cons (fun _ c h => by cases h; exact obeys_raidLines_10 _ rfl)
    (all_cons (fun _ c h => by cases h; exact obeys_raidLines_10 _ rfl)
    (all_cons (fun _ c h => by cases h; exact obeys_raidLines_10 _ rfl)
    (all_cons (fun _ c h => by cases h; exact obeys_raidLines_10 _ rfl)
    (all_cons (fun _ c h => by cases h; exact obeys_raidLines_10 _ rfl)
    (all_cons (fun _ c h => by cases h; exact obeys_raidLines_11 _ rfl)
    (all_cons (fun _ c h => by cases h; exact obeys_raidLines_11 _ rfl)
    (all_cons (fun _ c h => by cases h; exact obeys_raidLines_0 _ rfl)
    (all_cons (fun _ c h => by cases h; exact obeys_raidLines_12 _ rfl)
    (all_cons (fun _ c h => by cases h; exact obeys_raidLines_13 _ rfl)
    (all_cons (fun _ c h => by cases h; exact obeys_raidLines_14 _ rfl)
    (all_cons (fun _ c h => by cases h; exact obeys_raidLines_14 _ rfl)
    (all_cons (fun _ c h => by cases h; exact obeys_raidLines_12 _ rfl)
    (all_cons (fun _ c h => by cases h; exact obeys_raidLines_12 _ rfl)
    (all_cons (fun _ c h => by cases h; exact obeys_raidLines_15 _ rfl)
    (all_cons (fun _ c h => by cases h; exact obeys_raidLines_16 _ rfl)
    (all_cons (fun _ c h => by cases h; exact obeys_raidLines_17 _ rfl)
    (all_cons (fun _ c h => by cases h; exact obeys_raidLines_18 _ rfl) (List.forall_mem_nil _)))))))))))))))))))))))))))))))))))))))

def obeys_raidLines2_0_object (l : Nat) : Ns := [(c!"lineno", .int l), (c!"device", .int 1), (c!"fstype", .str c!""), (c!"level", .str c!""), (c!"format", .bool false), (c!"spares", .int 0), (c!"preexist", .bool true), (c!"mountpoint", .str c!"/x"), (c!"members", .list []), (c!"fsopts", .str c!""), (c!"fsprofile", .str c!""), (c!"encrypted", .bool false), (c!"passphrase", .str c!""), (c!"mntpoint", .list [c!"/x"]), (c!"partitions", .list [])]

theorem obeys_raidLines2_0_base (n : Str) : Command.FirstBase (F9_Raid.cls F9_RaidData.cls) n [c!"/x", c!"--device=1", c!"--noformat"] obeys_raidLines2_0_object := by
  intro b b' hb hb' line l; kernel_rfl

theorem obeys_raidLines2_0_start : Command.FirstStart (F9_Raid.cls F9_RaidData.cls) obeys_raidLines2_0_object (raidLines2.start.getD 0 ([], [])).2 := fun _ => .inl ⟨fun _ => rfl, (all_cons (by kernel_rfl) (all_cons (by kernel_rfl) (all_cons (by kernel_rfl) (all_cons (by kernel_rfl) (List.forall_mem_nil _)))))⟩

theorem obeys_raidLines2_0_lines (n : Str) : ∀ i ∈ [], Command.FirstLine (F9_Raid.cls F9_RaidData.cls) n [c!"/x", c!"--device=1", c!"--noformat"] obeys_raidLines2_0_object (raidLines2.lines.getD i noLine) :=
  (List.forall_mem_nil _)

theorem obeys_raidLines2_0 : ∀ v, [Version.F9, Version.F10, Version.F11].contains v = true → Command.Obeys (F9_Raid.cls F9_RaidData.cls) raidLines2 v :=
  obeys_of obeys_raidLines2_0_object [0] [] (obeys_raidLines2_0_base _) (all_cons obeys_raidLines2_0_start (List.forall_mem_nil _)) (obeys_raidLines2_0_lines _) (by decide +kernel)

def obeys_raidLines2_1_object (l : Nat) : Ns := [(c!"lineno", .int l), (c!"device", .int 1), (c!"fstype", .str c!""), (c!"level", .str c!""), (c!"format", .bool false), (c!"spares", .int 0), (c!"preexist", .bool true), (c!"mountpoint", .str c!"/x"), (c!"members", .list []), (c!"fsopts", .str c!""), (c!"fsprofile", .str c!""), (c!"encrypted", .bool false), (c!"passphrase", .str c!""), (c!"escrowcert", .str c!""), (c!"backuppassphrase", .bool false), (c!"mntpoint", .list [c!"/x"]), (c!"partitions", .list [])]

theorem obeys_raidLines2_1_base (n : Str) : Command.FirstBase (F12_Raid.cls F12_RaidData.cls) n [c!"/x", c!"--device=1", c!"--noformat"] obeys_raidLines2_1_object := by
  intro b b' hb hb' line l; kernel_rfl

theorem obeys_raidLines2_1_start : Command.FirstStart (F12_Raid.cls F12_RaidData.cls) obeys_raidLines2_1_object (raidLines2.start.getD 0 ([], [])).2 := fun _ => .inl ⟨fun _ => rfl, (all_cons (by kernel_rfl) (all_cons (by kernel_rfl) (all_cons (by kernel_rfl) (all_cons (by kernel_rfl) (List.forall_mem_nil _)))))⟩

theorem obeys_raidLines2_1_lines (n : Str) : ∀ i ∈ [], Command.FirstLine (F12_Raid.cls F12_RaidData.cls) n [c!"/x", c!"--device=1", c!"--noformat"] obeys_raidLines2_1_object (raidLines2.lines.getD i noLine) :=
  (List.forall_mem_nil _)

theorem obeys_raidLines2_1 : ∀ v, [Version.F12].contains v = true → Command.Obeys (F12_Raid.cls F12_RaidData.cls) raidLines2 v :=
  obeys_of obeys_raidLines2_1_object [0] [] (obeys_raidLines2_1_base _) (all_cons obeys_raidLines2_1_start (List.forall_mem_nil _)) (obeys_raidLines2_1_lines _) (by decide +kernel)

def obeys_raidLines2_2_object (l : Nat) : Ns := [(c!"lineno", .int l), (c!"device", .int 1), (c!"fstype", .str c!""), (c!"level", .str c!""), (c!"format", .bool false), (c!"spares", .int 0), (c!"preexist", .bool true), (c!"mountpoint", .str c!"/x"), (c!"members", .list []), (c!"fsopts", .str c!""), (c!"fsprofile", .str c!""), (c!"encrypted", .bool false), (c!"passphrase", .str c!""), (c!"escrowcert", .str c!""), (c!"backuppassphrase", .bool false), (c!"mntpoint", .list [c!"/x"]), (c!"partitions", .list [])]

theorem obeys_raidLines2_2_base (n : Str) : Command.FirstBase (F13_Raid.cls F13_RaidData.cls) n [c!"/x", c!"--device=1", c!"--noformat"] obeys_raidLines2_2_object := by
  intro b b' hb hb' line l; kernel_rfl

theorem obeys_raidLines2_2_start : Command.FirstStart (F13_Raid.cls F13_RaidData.cls) obeys_raidLines2_2_object (raidLines2.start.getD 0 ([], [])).2 := fun _ => .inl ⟨fun _ => rfl, (all_cons (by kernel_rfl) (all_cons (by kernel_rfl) (all_cons (by kernel_rfl) (all_cons (by kernel_rfl) (List.forall_mem_nil _)))))⟩

theorem obeys_raidLines2_2_lines (n : Str) : ∀ i ∈ [], Command.FirstLine (F13_Raid.cls F13_RaidData.cls) n [c!"/x", c!"--device=1", c!"--noformat"] obeys_raidLines2_2_object (raidLines2.lines.getD i noLine) :=
  (List.forall_mem_nil _)

theorem obeys_raidLines2_2 : ∀ v, [Version.F13].contains v = true → Command.Obeys (F13_Raid.cls F13_RaidData.cls) raidLines2 v :=
  obeys_of obeys_raidLines2_2_object [0] [] (obeys_raidLines2_2_base _) (all_cons obeys_raidLines2_2_start (List.forall_mem_nil _)) (obeys_raidLines2_2_lines _) (by decide +kernel)

def obeys_raidLines2_3_object (l : Nat) : Ns := [(c!"lineno", .int l), (c!"device", .int 1), (c!"fstype", .str c!""), (c!"level", .str c!""), (c!"format", .bool false), (c!"spares", .int 0), (c!"preexist", .bool true), (c!"mountpoint", .str c!"/x"), (c!"members", .list []), (c!"fsopts", .str c!""), (c!"fsprofile", .str c!""), (c!"encrypted", .bool false), (c!"passphrase", .str c!""), (c!"escrowcert", .str c!""), (c!"backuppassphrase", .bool false), (c!"mntpoint", .list [c!"/x"]), (c!"partitions", .list [])]

theorem obeys_raidLines2_3_base (n : Str) : Command.FirstBase (F14_Raid.cls F14_RaidData.cls) n [c!"/x", c!"--device=1", c!"--noformat"] obeys_raidLines2_3_object := by
  intro b b' hb hb' line l; kernel_rfl

theorem obeys_raidLines2_3_start : Command.FirstStart (F14_Raid.cls F14_RaidData.cls) obeys_raidLines2_3_object (raidLines2.start.getD 0 ([], [])).2 := fun _ => .inl ⟨fun _ => rfl, (all_cons (by kernel_rfl) (all_cons (by kernel_rfl) (all_cons (by kernel_rfl) (all_cons (by kernel_rfl) (List.forall_mem_nil _)))))⟩

theorem obeys_raidLines2_3_lines (n : Str) : ∀ i ∈ [1], Command.FirstLine (F14_Raid.cls F14_RaidData.cls) n [c!"/x", c!"--device=1", c!"--noformat"] obeys_raidLines2_3_object (raidLines2.lines.getD i noLine) :=
  (all_cons (by intro b b' hb hb' x hx line l; (cases x with | nil => exact absurd rfl hx | cons a x => kernel_rfl))
    (List.forall_mem_nil _))

theorem obeys_raidLines2_3 : ∀ v, [Version.F14].contains v = true → Command.Obeys (F14_Raid.cls F14_RaidData.cls) raidLines2 v :=
  obeys_of obeys_raidLines2_3_object [0] [1] (obeys_raidLines2_3_base _) (all_cons obeys_raidLines2_3_start (List.forall_mem_nil _)) (obeys_raidLines2_3_lines _) (by decide +kernel)

def obeys_raidLines2_4_object (l : Nat) : Ns := [(c!"lineno", .int l), (c!"device", .int 1), (c!"fstype", .str c!""), (c!"level", .str c!""), (c!"format", .bool false), (c!"spares", .int 0), (c!"preexist", .bool true), (c!"mountpoint", .str c!"/x"), (c!"members", .list []), (c!"fsopts", .str c!""), (c!"fsprofile", .str c!""), (c!"encrypted", .bool false), (c!"passphrase", .str c!""), (c!"escrowcert", .str c!""), (c!"backuppassphrase", .bool false), (c!"label", .str c!""), (c!"mntpoint", .list [c!"/x"]), (c!"partitions", .list [])]

theorem obeys_raidLines2_4_base (n : Str) : Command.FirstBase (F15_Raid.cls F15_RaidData.cls) n [c!"/x", c!"--device=1", c!"--noformat"] obeys_raidLines2_4_object := by
  intro b b' hb hb' line l; kernel_rfl

theorem obeys_raidLines2_4_start : Command.FirstStart (F15_Raid.cls F15_RaidData.cls) obeys_raidLines2_4_object (raidLines2.start.getD 0 ([], [])).2 := fun _ => .inl ⟨fun _ => rfl, (all_cons (by kernel_rfl) (all_cons (by kernel_rfl) (all_cons (by kernel_rfl) (all_cons (by kernel_rfl) (List.forall_mem_nil _)))))⟩

theorem obeys_raidLines2_4_lines (n : Str) : ∀ i ∈ [2], Command.FirstLine (F15_Raid.cls F15_RaidData.cls) n [c!"/x", c!"--device=1", c!"--noformat"] obeys_raidLines2_4_object (raidLines2.lines.getD i noLine) :=
  (all_cons (by intro b b' hb hb' x hx line l; (cases x with | nil => exact absurd rfl hx | cons a x => kernel_rfl))
    (List.forall_mem_nil _))

theorem obeys_raidLines2_4 : ∀ v, [Version.F15, Version.F16, Version.F17].contains v = true → Command.Obeys (F15_Raid.cls F15_RaidData.cls) raidLines2 v :=
  obeys_of obeys_raidLines2_4_object [0] [2] (obeys_raidLines2_4_base _) (all_cons obeys_raidLines2_4_start (List.forall_mem_nil _)) (obeys_raidLines2_4_lines _) (by decide +kernel)

def obeys_raidLines2_5_object (l : Nat) : Ns := [(c!"lineno", .int l), (c!"device", .int 1), (c!"fstype", .str c!""), (c!"level", .str c!""), (c!"format", .bool false), (c!"spares", .int 0), (c!"preexist", .bool true), (c!"mountpoint", .str c!"/x"), (c!"members", .list []), (c!"fsopts", .str c!""), (c!"fsprofile", .str c!""), (c!"encrypted", .bool false), (c!"passphrase", .str c!""), (c!"escrowcert", .str c!""), (c!"backuppassphrase", .bool false), (c!"label", .str c!""), (c!"cipher", .str c!""), (c!"mntpoint", .list [c!"/x"]), (c!"partitions", .list [])]

theorem obeys_raidLines2_5_base (n : Str) : Command.FirstBase (F18_Raid.cls F18_RaidData.cls) n [c!"/x", c!"--device=1", c!"--noformat"] obeys_raidLines2_5_object := by
  intro b b' hb hb' line l; kernel_rfl

theorem obeys_raidLines2_5_start : Command.FirstStart (F18_Raid.cls F18_RaidData.cls) obeys_raidLines2_5_object (raidLines2.start.getD 0 ([], [])).2 := fun _ => .inl ⟨fun _ => rfl, (all_cons (by kernel_rfl) (all_cons (by kernel_rfl) (all_cons (by kernel_rfl) (all_cons (by kernel_rfl) (List.forall_mem_nil _)))))⟩

theorem obeys_raidLines2_5_lines (n : Str) : ∀ i ∈ [], Command.FirstLine (F18_Raid.cls F18_RaidData.cls) n [c!"/x", c!"--device=1", c!"--noformat"] obeys_raidLines2_5_object (raidLines2.lines.getD i noLine) :=
  (List.forall_mem_nil _)

theorem obeys_raidLines2_5 : ∀ v, [Version.F18].contains v = true → Command.Obeys (F18_Raid.cls F18_RaidData.cls) raidLines2 v :=
  obeys_of obeys_raidLines2_5_object [0] [] (obeys_raidLines2_5_base _) (all_cons obeys_raidLines2_5_start (List.forall_mem_nil _)) (obeys_raidLines2_5_lines _) (by decide +kernel)

def obeys_raidLines2_6_object (l : Nat) : Ns := [(c!"lineno", .int l), (c!"device", .str c!"1"), (c!"fstype", .str c!""), (c!"level", .str c!""), (c!"format", .bool false), (c!"spares", .int 0), (c!"preexist", .bool true), (c!"mountpoint", .str c!"/x"), (c!"members", .list []), (c!"fsopts", .str c!""), (c!"fsprofile", .str c!""), (c!"encrypted", .bool false), (c!"passphrase", .str c!""), (c!"escrowcert", .str c!""), (c!"backuppassphrase", .bool false), (c!"label", .str c!""), (c!"cipher", .str c!""), (c!"mntpoint", .list [c!"/x"]), (c!"partitions", .list [])]

theorem obeys_raidLines2_6_base (n : Str) : Command.FirstBase (F19_Raid.cls F18_RaidData.cls) n [c!"/x", c!"--device=1", c!"--noformat"] obeys_raidLines2_6_object := by
  intro b b' hb hb' line l; kernel_rfl

theorem obeys_raidLines2_6_start : Command.FirstStart (F19_Raid.cls F18_RaidData.cls) obeys_raidLines2_6_object (raidLines2.start.getD 1 ([], [])).2 := fun _ => .inl ⟨fun _ => rfl, (all_cons (by kernel_rfl) (all_cons (by kernel_rfl) (all_cons (by kernel_rfl) (all_cons (by kernel_rfl) (List.forall_mem_nil _)))))⟩

theorem obeys_raidLines2_6_lines (n : Str) : ∀ i ∈ [], Command.FirstLine (F19_Raid.cls F18_RaidData.cls) n [c!"/x", c!"--device=1", c!"--noformat"] obeys_raidLines2_6_object (raidLines2.lines.getD i noLine) :=
  (List.forall_mem_nil _)

theorem obeys_raidLines2_6 : ∀ v, [Version.F19].contains v = true → Command.Obeys (F19_Raid.cls F18_RaidData.cls) raidLines2 v :=
  obeys_of obeys_raidLines2_6_object [1] [] (obeys_raidLines2_6_base _) (all_cons obeys_raidLines2_6_start (List.forall_mem_nil _)) (obeys_raidLines2_6_lines _) (by decide +kernel)

def obeys_raidLines2_7_object (l : Nat) : Ns := [(c!"lineno", .int l), (c!"device", .str c!"1"), (c!"fstype", .str c!""), (c!"level", .str c!""), (c!"format", .bool false), (c!"spares", .int 0), (c!"preexist", .bool true), (c!"mountpoint", .str c!"/x"), (c!"members", .list []), (c!"fsopts", .str c!""), (c!"fsprofile", .str c!""), (c!"encrypted", .bool false), (c!"passphrase", .str c!""), (c!"escrowcert", .str c!""), (c!"backuppassphrase", .bool false), (c!"label", .str c!""), (c!"cipher", .str c!""), (c!"mntpoint", .list [c!"/x"]), (c!"partitions", .list [])]

theorem obeys_raidLines2_7_base (n : Str) : Command.FirstBase (F20_Raid.cls F18_RaidData.cls) n [c!"/x", c!"--device=1", c!"--noformat"] obeys_raidLines2_7_object := by
  intro b b' hb hb' line l; rcases hb with rfl | rfl <;> rcases hb' with rfl | rfl <;> kernel_rfl

theorem obeys_raidLines2_7_start : Command.FirstStart (F20_Raid.cls F18_RaidData.cls) obeys_raidLines2_7_object (raidLines2.start.getD 1 ([], [])).2 := fun _ => .inl ⟨fun _ => rfl, (all_cons (by kernel_rfl) (all_cons (by kernel_rfl) (all_cons (by kernel_rfl) (all_cons (by kernel_rfl) (List.forall_mem_nil _)))))⟩

theorem obeys_raidLines2_7_lines (n : Str) : ∀ i ∈ [], Command.FirstLine (F20_Raid.cls F18_RaidData.cls) n [c!"/x", c!"--device=1", c!"--noformat"] obeys_raidLines2_7_object (raidLines2.lines.getD i noLine) :=
  (List.forall_mem_nil _)

theorem obeys_raidLines2_7 : ∀ v, [Version.F20, Version.F21, Version.F22].contains v = true → Command.Obeys (F20_Raid.cls F18_RaidData.cls) raidLines2 v :=
  obeys_of obeys_raidLines2_7_object [1] [] (obeys_raidLines2_7_base _) (all_cons obeys_raidLines2_7_start (List.forall_mem_nil _)) (obeys_raidLines2_7_lines _) (by decide +kernel)

def obeys_raidLines2_8_object (l : Nat) : Ns := [(c!"lineno", .int l), (c!"device", .str c!"1"), (c!"fstype", .str c!""), (c!"level", .str c!""), (c!"format", .bool false), (c!"spares", .int 0), (c!"preexist", .bool true), (c!"mountpoint", .str c!"/x"), (c!"members", .list []), (c!"fsopts", .str c!""), (c!"fsprofile", .str c!""), (c!"encrypted", .bool false), (c!"passphrase", .str c!""), (c!"escrowcert", .str c!""), (c!"backuppassphrase", .bool false), (c!"label", .str c!""), (c!"cipher", .str c!""), (c!"mkfsopts", .str c!""), (c!"mntpoint", .list [c!"/x"]), (c!"partitions", .list [])]

theorem obeys_raidLines2_8_base (n : Str) : Command.FirstBase (F23_Raid.cls F23_RaidData.cls) n [c!"/x", c!"--device=1", c!"--noformat"] obeys_raidLines2_8_object := by
  intro b b' hb hb' line l; rcases hb with rfl | rfl <;> rcases hb' with rfl | rfl <;> kernel_rfl

theorem obeys_raidLines2_8_start : Command.FirstStart (F23_Raid.cls F23_RaidData.cls) obeys_raidLines2_8_object (raidLines2.start.getD 1 ([], [])).2 := fun _ => .inl ⟨fun _ => rfl, (all_cons (by kernel_rfl) (all_cons (by kernel_rfl) (all_cons (by kernel_rfl) (all_cons (by kernel_rfl) (List.forall_mem_nil _)))))⟩

theorem obeys_raidLines2_8_lines (n : Str) : ∀ i ∈ [], Command.FirstLine (F23_Raid.cls F23_RaidData.cls) n [c!"/x", c!"--device=1", c!"--noformat"] obeys_raidLines2_8_object (raidLines2.lines.getD i noLine) :=
  (List.forall_mem_nil _)

theorem obeys_raidLines2_8 : ∀ v, [Version.F23, Version.F24].contains v = true → Command.Obeys (F23_Raid.cls F23_RaidData.cls) raidLines2 v :=
  obeys_of obeys_raidLines2_8_object [1] [] (obeys_raidLines2_8_base _) (all_cons obeys_raidLines2_8_start (List.forall_mem_nil _)) (obeys_raidLines2_8_lines _) (by decide +kernel)

def obeys_raidLines2_9_object (l : Nat) : Ns := [(c!"lineno", .int l), (c!"device", .str c!"1"), (c!"fstype", .str c!""), (c!"level", .str c!""), (c!"format", .bool false), (c!"spares", .int 0), (c!"preexist", .bool true), (c!"mountpoint", .str c!"/x"), (c!"members", .list []), (c!"fsopts", .str c!""), (c!"fsprofile", .str c!""), (c!"encrypted", .bool false), (c!"passphrase", .str c!""), (c!"escrowcert", .str c!""), (c!"backuppassphrase", .bool false), (c!"label", .str c!""), (c!"cipher", .str c!""), (c!"mkfsopts", .str c!""), (c!"chunk_size", .none), (c!"mntpoint", .list [c!"/x"]), (c!"partitions", .list [])]

theorem obeys_raidLines2_9_base (n : Str) : Command.FirstBase (F25_Raid.cls F25_RaidData.cls) n [c!"/x", c!"--device=1", c!"--noformat"] obeys_raidLines2_9_object := by
  intro b b' hb hb' line l; rcases hb with rfl | rfl <;> rcases hb' with rfl | rfl <;> kernel_rfl

theorem obeys_raidLines2_9_start : Command.FirstStart (F25_Raid.cls F25_RaidData.cls) obeys_raidLines2_9_object (raidLines2.start.getD 1 ([], [])).2 := fun _ => .inl ⟨fun _ => rfl, (all_cons (by kernel_rfl) (all_cons (by kernel_rfl) (all_cons (by kernel_rfl) (all_cons (by kernel_rfl) (List.forall_mem_nil _)))))⟩

theorem obeys_raidLines2_9_lines (n : Str) : ∀ i ∈ [], Command.FirstLine (F25_Raid.cls F25_RaidData.cls) n [c!"/x", c!"--device=1", c!"--noformat"] obeys_raidLines2_9_object (raidLines2.lines.getD i noLine) :=
  (List.forall_mem_nil _)

theorem obeys_raidLines2_9 : ∀ v, [Version.F25, Version.F26, Version.F27, Version.F28].contains v = true → Command.Obeys (F25_Raid.cls F25_RaidData.cls) raidLines2 v :=
  obeys_of obeys_raidLines2_9_object [1] [] (obeys_raidLines2_9_base _) (all_cons obeys_raidLines2_9_start (List.forall_mem_nil _)) (obeys_raidLines2_9_lines _) (by decide +kernel)

def obeys_raidLines2_10_object (l : Nat) : Ns := [(c!"lineno", .int l), (c!"device", .str c!"1"), (c!"fstype", .str c!""), (c!"level", .str c!""), (c!"format", .bool false), (c!"spares", .int 0), (c!"preexist", .bool true), (c!"mountpoint", .str c!"/x"), (c!"members", .list []), (c!"fsopts", .str c!""), (c!"fsprofile", .str c!""), (c!"encrypted", .bool false), (c!"passphrase", .str c!""), (c!"escrowcert", .str c!""), (c!"backuppassphrase", .bool false), (c!"label", .str c!""), (c!"cipher", .str c!""), (c!"mkfsopts", .str c!""), (c!"chunk_size", .none), (c!"luks_version", .str c!""), (c!"pbkdf", .str c!""), (c!"pbkdf_memory", .int 0), (c!"pbkdf_time", .int 0), (c!"pbkdf_iterations", .int 0), (c!"mntpoint", .list [c!"/x"]), (c!"partitions", .list [])]

theorem obeys_raidLines2_10_base (n : Str) : Command.FirstBase (F29_Raid.cls F29_RaidData.cls) n [c!"/x", c!"--device=1", c!"--noformat"] obeys_raidLines2_10_object := by
  intro b b' hb hb' line l; rcases hb with rfl | rfl <;> rcases hb' with rfl | rfl <;> kernel_rfl

theorem obeys_raidLines2_10_start : Command.FirstStart (F29_Raid.cls F29_RaidData.cls) obeys_raidLines2_10_object (raidLines2.start.getD 1 ([], [])).2 := fun _ => .inl ⟨fun _ => rfl, (all_cons (by kernel_rfl) (all_cons (by kernel_rfl) (all_cons (by kernel_rfl) (all_cons (by kernel_rfl) (List.forall_mem_nil _)))))⟩

theorem obeys_raidLines2_10_lines (n : Str) : ∀ i ∈ [0, 2], Command.FirstLine (F29_Raid.cls F29_RaidData.cls) n [c!"/x", c!"--device=1", c!"--noformat"] obeys_raidLines2_10_object (raidLines2.lines.getD i noLine) :=
  (all_cons (by intro b b' hb hb' x hx line l; rcases hb with rfl | rfl <;> rcases hb' with rfl | rfl <;> kernel_rfl)
    (all_cons (by intro b b' hb hb' x hx line l; (cases x with | nil => exact absurd rfl hx | cons a x => rcases hb with rfl | rfl <;> rcases hb' with rfl | rfl <;> kernel_rfl))
    (List.forall_mem_nil _)))

theorem obeys_raidLines2_10 : ∀ v, [Version.F29, Version.F30, Version.F31, Version.F32, Version.F33, Version.F34].contains v = true → Command.Obeys (F29_Raid.cls F29_RaidData.cls) raidLines2 v :=
  obeys_of obeys_raidLines2_10_object [1] [0, 2] (obeys_raidLines2_10_base _) (all_cons obeys_raidLines2_10_start (List.forall_mem_nil _)) (obeys_raidLines2_10_lines _) (by decide +kernel)

def obeys_raidLines2_11_object (l : Nat) : Ns := [(c!"lineno", .int l), (c!"device", .int 1), (c!"fstype", .str c!""), (c!"level", .str c!""), (c!"format", .bool false), (c!"spares", .int 0), (c!"preexist", .bool true), (c!"mountpoint", .str c!"/x"), (c!"members", .list []), (c!"fsopts", .str c!""), (c!"bytesPerInode", .int 4096), (c!"mntpoint", .list [c!"/x"]), (c!"partitions", .list [])]

theorem obeys_raidLines2_11_base (n : Str) : Command.FirstBase (F7_Raid.cls F7_RaidData.cls) n [c!"/x", c!"--device=1", c!"--noformat"] obeys_raidLines2_11_object := by
  intro b b' hb hb' line l; kernel_rfl

theorem obeys_raidLines2_11_start : Command.FirstStart (F7_Raid.cls F7_RaidData.cls) obeys_raidLines2_11_object (raidLines2.start.getD 2 ([], [])).2 := fun _ => .inl ⟨fun _ => rfl, (all_cons (by kernel_rfl) (all_cons (by kernel_rfl) (all_cons (by kernel_rfl) (all_cons (by kernel_rfl) (all_cons (by kernel_rfl) (List.forall_mem_nil _))))))⟩

theorem obeys_raidLines2_11_lines (n : Str) : ∀ i ∈ [], Command.FirstLine (F7_Raid.cls F7_RaidData.cls) n [c!"/x", c!"--device=1", c!"--noformat"] obeys_raidLines2_11_object (raidLines2.lines.getD i noLine) :=
  (List.forall_mem_nil _)

theorem obeys_raidLines2_11 : ∀ v, [Version.F7, Version.F8].contains v = true → Command.Obeys (F7_Raid.cls F7_RaidData.cls) raidLines2 v :=
  obeys_of obeys_raidLines2_11_object [2] [] (obeys_raidLines2_11_base _) (all_cons obeys_raidLines2_11_start (List.forall_mem_nil _)) (obeys_raidLines2_11_lines _) (by decide +kernel)

def obeys_raidLines2_12_object (l : Nat) : Ns := [(c!"lineno", .int l), (c!"device", .int 1), (c!"fstype", .str c!""), (c!"level", .str c!""), (c!"format", .bool false), (c!"spares", .int 0), (c!"preexist", .bool true), (c!"mountpoint", .str c!"/x"), (c!"members", .list []), (c!"mntpoint", .list [c!"/x"]), (c!"partitions", .list [])]

theorem obeys_raidLines2_12_base (n : Str) : Command.FirstBase (FC3_Raid.cls FC3_RaidData.cls) n [c!"/x", c!"--device=1", c!"--noformat"] obeys_raidLines2_12_object := by
  intro b b' hb hb' line l; kernel_rfl

theorem obeys_raidLines2_12_start : Command.FirstStart (FC3_Raid.cls FC3_RaidData.cls) obeys_raidLines2_12_object (raidLines2.start.getD 0 ([], [])).2 := fun _ => .inl ⟨fun _ => rfl, (all_cons (by kernel_rfl) (all_cons (by kernel_rfl) (all_cons (by kernel_rfl) (all_cons (by kernel_rfl) (List.forall_mem_nil _)))))⟩

theorem obeys_raidLines2_12_lines (n : Str) : ∀ i ∈ [0], Command.FirstLine (FC3_Raid.cls FC3_RaidData.cls) n [c!"/x", c!"--device=1", c!"--noformat"] obeys_raidLines2_12_object (raidLines2.lines.getD i noLine) :=
  (all_cons (by intro b b' hb hb' x hx line l; kernel_rfl)
    (List.forall_mem_nil _))

theorem obeys_raidLines2_12 : ∀ v, [Version.RHEL3, Version.FC3, Version.RHEL4].contains v = true → Command.Obeys (FC3_Raid.cls FC3_RaidData.cls) raidLines2 v :=
  obeys_of obeys_raidLines2_12_object [0] [0] (obeys_raidLines2_12_base _) (all_cons obeys_raidLines2_12_start (List.forall_mem_nil _)) (obeys_raidLines2_12_lines _) (by decide +kernel)

def obeys_raidLines2_13_object (l : Nat) : Ns := [(c!"lineno", .int l), (c!"device", .int 1), (c!"fstype", .str c!""), (c!"level", .str c!""), (c!"format", .bool false), (c!"spares", .int 0), (c!"preexist", .bool true), (c!"mountpoint", .str c!"/x"), (c!"members", .list []), (c!"fsopts", .str c!""), (c!"mntpoint", .list [c!"/x"]), (c!"partitions", .list [])]

theorem obeys_raidLines2_13_base (n : Str) : Command.FirstBase (FC4_Raid.cls FC4_RaidData.cls) n [c!"/x", c!"--device=1", c!"--noformat"] obeys_raidLines2_13_object := by
  intro b b' hb hb' line l; kernel_rfl

theorem obeys_raidLines2_13_start : Command.FirstStart (FC4_Raid.cls FC4_RaidData.cls) obeys_raidLines2_13_object (raidLines2.start.getD 0 ([], [])).2 := fun _ => .inl ⟨fun _ => rfl, (all_cons (by kernel_rfl) (all_cons (by kernel_rfl) (all_cons (by kernel_rfl) (all_cons (by kernel_rfl) (List.forall_mem_nil _)))))⟩

theorem obeys_raidLines2_13_lines (n : Str) : ∀ i ∈ [], Command.FirstLine (FC4_Raid.cls FC4_RaidData.cls) n [c!"/x", c!"--device=1", c!"--noformat"] obeys_raidLines2_13_object (raidLines2.lines.getD i noLine) :=
  (List.forall_mem_nil _)

theorem obeys_raidLines2_13 : ∀ v, [Version.FC4].contains v = true → Command.Obeys (FC4_Raid.cls FC4_RaidData.cls) raidLines2 v :=
  obeys_of obeys_raidLines2_13_object [0] [] (obeys_raidLines2_13_base _) (all_cons obeys_raidLines2_13_start (List.forall_mem_nil _)) (obeys_raidLines2_13_lines _) (by decide +kernel)

def obeys_raidLines2_14_object (l : Nat) : Ns := [(c!"lineno", .int l), (c!"device", .int 1), (c!"fstype", .str c!""), (c!"level", .str c!""), (c!"format", .bool false), (c!"spares", .int 0), (c!"preexist", .bool true), (c!"mountpoint", .str c!"/x"), (c!"members", .list []), (c!"fsopts", .str c!""), (c!"bytesPerInode", .int 4096), (c!"mntpoint", .list [c!"/x"]), (c!"partitions", .list [])]

theorem obeys_raidLines2_14_base (n : Str) : Command.FirstBase (FC5_Raid.cls FC5_RaidData.cls) n [c!"/x", c!"--device=1", c!"--noformat"] obeys_raidLines2_14_object := by
  intro b b' hb hb' line l; kernel_rfl

theorem obeys_raidLines2_14_start : Command.FirstStart (FC5_Raid.cls FC5_RaidData.cls) obeys_raidLines2_14_object (raidLines2.start.getD 2 ([], [])).2 := fun _ => .inl ⟨fun _ => rfl, (all_cons (by kernel_rfl) (all_cons (by kernel_rfl) (all_cons (by kernel_rfl) (all_cons (by kernel_rfl) (all_cons (by kernel_rfl) (List.forall_mem_nil _))))))⟩

theorem obeys_raidLines2_14_lines (n : Str) : ∀ i ∈ [], Command.FirstLine (FC5_Raid.cls FC5_RaidData.cls) n [c!"/x", c!"--device=1", c!"--noformat"] obeys_raidLines2_14_object (raidLines2.lines.getD i noLine) :=
  (List.forall_mem_nil _)

theorem obeys_raidLines2_14 : ∀ v, [Version.FC5, Version.FC6].contains v = true → Command.Obeys (FC5_Raid.cls FC5_RaidData.cls) raidLines2 v :=
  obeys_of obeys_raidLines2_14_object [2] [] (obeys_raidLines2_14_base _) (all_cons obeys_raidLines2_14_start (List.forall_mem_nil _)) (obeys_raidLines2_14_lines _) (by decide +kernel)

def obeys_raidLines2_15_object (l : Nat) : Ns := [(c!"lineno", .int l), (c!"device", .int 1), (c!"fstype", .str c!""), (c!"level", .str c!""), (c!"format", .bool false), (c!"spares", .int 0), (c!"preexist", .bool true), (c!"mountpoint", .str c!"/x"), (c!"members", .list []), (c!"fsopts", .str c!""), (c!"bytesPerInode", .int 4096), (c!"encrypted", .bool false), (c!"passphrase", .str c!""), (c!"mntpoint", .list [c!"/x"]), (c!"partitions", .list [])]

theorem obeys_raidLines2_15_base (n : Str) : Command.FirstBase (RHEL5_Raid.cls RHEL5_RaidData.cls) n [c!"/x", c!"--device=1", c!"--noformat"] obeys_raidLines2_15_object := by
  intro b b' hb hb' line l; kernel_rfl

theorem obeys_raidLines2_15_start : Command.FirstStart (RHEL5_Raid.cls RHEL5_RaidData.cls) obeys_raidLines2_15_object (raidLines2.start.getD 2 ([], [])).2 := fun _ => .inl ⟨fun _ => rfl, (all_cons (by kernel_rfl) (all_cons (by kernel_rfl) (all_cons (by kernel_rfl) (all_cons (by kernel_rfl) (all_cons (by kernel_rfl) (List.forall_mem_nil _))))))⟩

theorem obeys_raidLines2_15_lines (n : Str) : ∀ i ∈ [], Command.FirstLine (RHEL5_Raid.cls RHEL5_RaidData.cls) n [c!"/x", c!"--device=1", c!"--noformat"] obeys_raidLines2_15_object (raidLines2.lines.getD i noLine) :=
  (List.forall_mem_nil _)

theorem obeys_raidLines2_15 : ∀ v, [Version.RHEL5].contains v = true → Command.Obeys (RHEL5_Raid.cls RHEL5_RaidData.cls) raidLines2 v :=
  obeys_of obeys_raidLines2_15_object [2] [] (obeys_raidLines2_15_base _) (all_cons obeys_raidLines2_15_start (List.forall_mem_nil _)) (obeys_raidLines2_15_lines _) (by decide +kernel)

def obeys_raidLines2_16_object (l : Nat) : Ns := [(c!"lineno", .int l), (c!"device", .int 1), (c!"fstype", .str c!""), (c!"level", .str c!""), (c!"format", .bool false), (c!"spares", .int 0), (c!"preexist", .bool true), (c!"mountpoint", .str c!"/x"), (c!"members", .list []), (c!"fsopts", .str c!""), (c!"fsprofile", .str c!""), (c!"encrypted", .bool false), (c!"passphrase", .str c!""), (c!"escrowcert", .str c!""), (c!"backuppassphrase", .bool false), (c!"cipher", .str c!""), (c!"mntpoint", .list [c!"/x"]), (c!"partitions", .list [])]

theorem obeys_raidLines2_16_base (n : Str) : Command.FirstBase (RHEL6_Raid.cls RHEL6_RaidData.cls) n [c!"/x", c!"--device=1", c!"--noformat"] obeys_raidLines2_16_object := by
  intro b b' hb hb' line l; kernel_rfl

theorem obeys_raidLines2_16_start : Command.FirstStart (RHEL6_Raid.cls RHEL6_RaidData.cls) obeys_raidLines2_16_object (raidLines2.start.getD 0 ([], [])).2 := fun _ => .inl ⟨fun _ => rfl, (all_cons (by kernel_rfl) (all_cons (by kernel_rfl) (all_cons (by kernel_rfl) (all_cons (by kernel_rfl) (List.forall_mem_nil _)))))⟩

theorem obeys_raidLines2_16_lines (n : Str) : ∀ i ∈ [], Command.FirstLine (RHEL6_Raid.cls RHEL6_RaidData.cls) n [c!"/x", c!"--device=1", c!"--noformat"] obeys_raidLines2_16_object (raidLines2.lines.getD i noLine) :=
  (List.forall_mem_nil _)

theorem obeys_raidLines2_16 : ∀ v, [Version.RHEL6].contains v = true → Command.Obeys (RHEL6_Raid.cls RHEL6_RaidData.cls) raidLines2 v :=
  obeys_of obeys_raidLines2_16_object [0] [] (obeys_raidLines2_16_base _) (all_cons obeys_raidLines2_16_start (List.forall_mem_nil _)) (obeys_raidLines2_16_lines _) (by decide +kernel)

def obeys_raidLines2_17_object (l : Nat) : Ns := [(c!"lineno", .int l), (c!"device", .str c!"1"), (c!"fstype", .str c!""), (c!"level", .str c!""), (c!"format", .bool false), (c!"spares", .int 0), (c!"preexist", .bool true), (c!"mountpoint", .str c!"/x"), (c!"members", .list []), (c!"fsopts", .str c!""), (c!"fsprofile", .str c!""), (c!"encrypted", .bool false), (c!"passphrase", .str c!""), (c!"escrowcert", .str c!""), (c!"backuppassphrase", .bool false), (c!"label", .str c!""), (c!"cipher", .str c!""), (c!"mkfsopts", .str c!""), (c!"chunk_size", .none), (c!"mntpoint", .list [c!"/x"]), (c!"partitions", .list [])]

theorem obeys_raidLines2_17_base (n : Str) : Command.FirstBase (RHEL7_Raid.cls RHEL7_RaidData.cls) n [c!"/x", c!"--device=1", c!"--noformat"] obeys_raidLines2_17_object := by
  intro b b' hb hb' line l; rcases hb with rfl | rfl <;> rcases hb' with rfl | rfl <;> kernel_rfl

theorem obeys_raidLines2_17_start : Command.FirstStart (RHEL7_Raid.cls RHEL7_RaidData.cls) obeys_raidLines2_17_object (raidLines2.start.getD 1 ([], [])).2 := fun _ => .inl ⟨fun _ => rfl, (all_cons (by kernel_rfl) (all_cons (by kernel_rfl) (all_cons (by kernel_rfl) (all_cons (by kernel_rfl) (List.forall_mem_nil _)))))⟩

theorem obeys_raidLines2_17_lines (n : Str) : ∀ i ∈ [], Command.FirstLine (RHEL7_Raid.cls RHEL7_RaidData.cls) n [c!"/x", c!"--device=1", c!"--noformat"] obeys_raidLines2_17_object (raidLines2.lines.getD i noLine) :=
  (List.forall_mem_nil _)

theorem obeys_raidLines2_17 : ∀ v, [Version.RHEL7].contains v = true → Command.Obeys (RHEL7_Raid.cls RHEL7_RaidData.cls) raidLines2 v :=
  obeys_of obeys_raidLines2_17_object [1] [] (obeys_raidLines2_17_base _) (all_cons obeys_raidLines2_17_start (List.forall_mem_nil _)) (obeys_raidLines2_17_lines _) (by decide +kernel)

def obeys_raidLines2_18_object (l : Nat) : Ns := [(c!"lineno", .int l), (c!"device", .str c!"1"), (c!"fstype", .str c!""), (c!"level", .str c!""), (c!"format", .bool false), (c!"spares", .int 0), (c!"preexist", .bool true), (c!"mountpoint", .str c!"/x"), (c!"members", .list []), (c!"fsopts", .str c!""), (c!"fsprofile", .str c!""), (c!"encrypted", .bool false), (c!"passphrase", .str c!""), (c!"escrowcert", .str c!""), (c!"backuppassphrase", .bool false), (c!"label", .str c!""), (c!"cipher", .str c!""), (c!"mkfsopts", .str c!""), (c!"chunk_size", .none), (c!"luks_version", .str c!""), (c!"pbkdf", .str c!""), (c!"pbkdf_memory", .int 0), (c!"pbkdf_time", .int 0), (c!"pbkdf_iterations", .int 0), (c!"mntpoint", .list [c!"/x"]), (c!"partitions", .list [])]

theorem obeys_raidLines2_18_base (n : Str) : Command.FirstBase (RHEL8_Raid.cls RHEL8_RaidData.cls) n [c!"/x", c!"--device=1", c!"--noformat"] obeys_raidLines2_18_object := by
  intro b b' hb hb' line l; rcases hb with rfl | rfl <;> rcases hb' with rfl | rfl <;> kernel_rfl

theorem obeys_raidLines2_18_start : Command.FirstStart (RHEL8_Raid.cls RHEL8_RaidData.cls) obeys_raidLines2_18_object (raidLines2.start.getD 1 ([], [])).2 := fun _ => .inl ⟨fun _ => rfl, (all_cons (by kernel_rfl) (all_cons (by kernel_rfl) (all_cons (by kernel_rfl) (all_cons (by kernel_rfl) (List.forall_mem_nil _)))))⟩

theorem obeys_raidLines2_18_lines (n : Str) : ∀ i ∈ [], Command.FirstLine (RHEL8_Raid.cls RHEL8_RaidData.cls) n [c!"/x", c!"--device=1", c!"--noformat"] obeys_raidLines2_18_object (raidLines2.lines.getD i noLine) :=
  (List.forall_mem_nil _)

theorem obeys_raidLines2_18 : ∀ v, [Version.RHEL8].contains v = true → Command.Obeys (RHEL8_Raid.cls RHEL8_RaidData.cls) raidLines2 v :=
  obeys_of obeys_raidLines2_18_object [1] [] (obeys_raidLines2_18_base _) (all_cons obeys_raidLines2_18_start (List.forall_mem_nil _)) (obeys_raidLines2_18_lines _) (by decide +kernel)

theorem obeys_raidLines2 : raidLines2.Obeyed := by
  unfold CommandLines.Obeyed commandMaps
  exact (all_cons (fun _ c h => by cases h; exact obeys_raidLines2_0 _ rfl)
    (all_cons (fun _ c h => by cases h; exact obeys_raidLines2_0 _ rfl)
    (all_cons (fun _ c h => by cases h; exact obeys_raidLines2_1 _ rfl)
    (all_cons (fun _ c h => by cases h; exact obeys_raidLines2_2 _ rfl)
    (all_cons (fun _ c h => by cases h; exact obeys_raidLines2_3 _ rfl)
    (all_cons (fun _ c h => by cases h; exact obeys_raidLines2_4 _ rfl)
    (all_cons (fun _ c h => by cases h; exact obeys_raidLines2_4 _ rfl)
    (all_cons (fun _ c h => by cases h; exact obeys_raidLines2_4 _ rfl)
    (all_cons (fun _ c h => by cases h; exact obeys_raidLines2_5 _ rfl)
    (all_cons (fun _ c h => by cases h; exact obeys_raidLines2_6 _ rfl)
    (all_cons (fun _ c h => by cases h; exact obeys_raidLines2_7 _ rfl)
    (all_cons (fun _ c h => by cases h; exact obeys_raidLines2_7 _ rfl)
    (all_cons (fun _ c h => by cases h; exact obeys_raidLines2_7 _ rfl)
    (all_cons (fun _ c h => by cases h; exact obeys_raidLines2_8 _ rfl)
    (all_cons (fun _ c h => by cases h; exact obeys_raidLines2_8 _ rfl)
    (all_cons (fun _ c h => by cases h; exact obeys_raidLines2_9 _ rfl)
    (all_cons (fun _ c h => by cases h; exact obeys_raidLines2_9 _ rfl)
    (all_cons (fun _ c h => by cases h; exact obeys_raidLines2_9 _ rfl)
    (all_cons (fun _ c h => by cases h; exact obeys_raidLines2_9 _ rfl)
    (all_cons (fun _ c h => by cases h; exact obeys_raidLines2_10 _ rfl)
    (all_cons (fun _ c h => by cases h; exact obeys_raidLines2_10 _ rfl)
    (all_cons (fun _ c h => by cases h; exact obeys_raidLines2_10 _ rfl)
    (all_cons (fun _ c h => by cases h; exact obeys_raidLines2_10 _ rfl)
    (all_cons (fun _ c h => by cases h; exact obeys_raidLines2_10 _ rfl)
    (all_cons (fun _ c h => by cases h; exact obeys_raidLines2_10 _ rfl)
    (all_cons (fun _ c h => by cases h; exact obeys_raidLines2_11 _ rfl)
    (all_cons (fun _ c h => by cases h; exact obeys_raidLines2_11 _ rfl)
    (all_cons (fun _ c h => by cases h; exact obeys_raidLines2_0 _ rfl)
    (all_cons (fun _ c h => by cases h; exact obeys_raidLines2_12 _ rfl)
    (all_cons (fun _ c h => by cases h; exact obeys_raidLines2_13 _ rfl)
    (all_cons (fun _ c h => by cases h; exact obeys_raidLines2_14 _ rfl)
    (all_cons (fun _ c h => by cases h; exact obeys_raidLines2_14 _ rfl)
    (all_cons (fun _ c h => by cases h; exact obeys_raidLines2_12 _ rfl)
    (all_cons (fun _ c h => by cases h; exact obeys_raidLines2_12 _ rfl)
    (all_cons (fun _ c h => by cases h; exact obeys_raidLines2_15 _ rfl)
    (all_cons (fun _ c h => by cases h; exact obeys_raidLines2_16 _ rfl)
    (all_cons (fun _ c h => by cases h; exact obeys_raidLines2_17 _ rfl)
    (all_cons (fun _ c h => by cases h; exact obeys_raidLines2_18 _ rfl) (List.forall_mem_nil _)))))))))))))))))))))))))))))))))))))))

def obeys_raidLines3_0_object (l : Nat) : Ns := [(c!"lineno", .int l), (c!"device", .int 1), (c!"fstype", .str c!""), (c!"level", .str c!""), (c!"format", .bool true), (c!"spares", .int 0), (c!"preexist", .bool true), (c!"mountpoint", .str c!"/x"), (c!"members", .list []), (c!"fsopts", .str c!""), (c!"fsprofile", .str c!""), (c!"encrypted", .bool false), (c!"passphrase", .str c!""), (c!"mntpoint", .list [c!"/x"]), (c!"partitions", .list [])]

theorem obeys_raidLines3_0_base (n : Str) : Command.FirstBase (F9_Raid.cls F9_RaidData.cls) n [c!"/x", c!"--device=1", c!"--useexisting"] obeys_raidLines3_0_object := by
  intro b b' hb hb' line l; kernel_rfl

theorem obeys_raidLines3_0_start : Command.FirstStart (F9_Raid.cls F9_RaidData.cls) obeys_raidLines3_0_object (raidLines3.start.getD 0 ([], [])).2 := fun _ => .inl ⟨fun _ => rfl, (all_cons (by kernel_rfl) (all_cons (by kernel_rfl) (all_cons (by kernel_rfl) (all_cons (by kernel_rfl) (all_cons (by kernel_rfl) (List.forall_mem_nil _))))))⟩

theorem obeys_raidLines3_0_lines (n : Str) : ∀ i ∈ [], Command.FirstLine (F9_Raid.cls F9_RaidData.cls) n [c!"/x", c!"--device=1", c!"--useexisting"] obeys_raidLines3_0_object (raidLines3.lines.getD i noLine) :=
  (List.forall_mem_nil _)

theorem obeys_raidLines3_0 : ∀ v, [Version.F9, Version.F10, Version.F11].contains v = true → Command.Obeys (F9_Raid.cls F9_RaidData.cls) raidLines3 v :=
  obeys_of obeys_raidLines3_0_object [0] [] (obeys_raidLines3_0_base _) (all_cons obeys_raidLines3_0_start (List.forall_mem_nil _)) (obeys_raidLines3_0_lines _) (by decide +kernel)

def obeys_raidLines3_1_object (l : Nat) : Ns := [(c!"lineno", .int l), (c!"device", .int 1), (c!"fstype", .str c!""), (c!"level", .str c!""), (c!"format", .bool true), (c!"spares", .int 0), (c!"preexist", .bool true), (c!"mountpoint", .str c!"/x"), (c!"members", .list []), (c!"fsopts", .str c!""), (c!"fsprofile", .str c!""), (c!"encrypted", .bool false), (c!"passphrase", .str c!""), (c!"escrowcert", .str c!""), (c!"backuppassphrase", .bool false), (c!"mntpoint", .list [c!"/x"]), (c!"partitions", .list [])]

theorem obeys_raidLines3_1_base (n : Str) : Command.FirstBase (F12_Raid.cls F12_RaidData.cls) n [c!"/x", c!"--device=1", c!"--useexisting"] obeys_raidLines3_1_object := by
  intro b b' hb hb' line l; kernel_rfl

theorem obeys_raidLines3_1_start : Command.FirstStart (F12_Raid.cls F12_RaidData.cls) obeys_raidLines3_1_object (raidLines3.start.getD 0 ([], [])).2 := fun _ => .inl ⟨fun _ => rfl, (all_cons (by kernel_rfl) (all_cons (by kernel_rfl) (all_cons (by kernel_rfl) (all_cons (by kernel_rfl) (all_cons (by kernel_rfl) (List.forall_mem_nil _))))))⟩

theorem obeys_raidLines3_1_lines (n : Str) : ∀ i ∈ [], Command.FirstLine (F12_Raid.cls F12_RaidData.cls) n [c!"/x", c!"--device=1", c!"--useexisting"] obeys_raidLines3_1_object (raidLines3.lines.getD i noLine) :=
  (List.forall_mem_nil _)

theorem obeys_raidLines3_1 : ∀ v, [Version.F12].contains v = true → Command.Obeys (F12_Raid.cls F12_RaidData.cls) raidLines3 v :=
  obeys_of obeys_raidLines3_1_object [0] [] (obeys_raidLines3_1_base _) (all_cons obeys_raidLines3_1_start (List.forall_mem_nil _)) (obeys_raidLines3_1_lines _) (by decide +kernel)

def obeys_raidLines3_2_object (l : Nat) : Ns := [(c!"lineno", .int l), (c!"device", .int 1), (c!"fstype", .str c!""), (c!"level", .str c!""), (c!"format", .bool true), (c!"spares", .int 0), (c!"preexist", .bool true), (c!"mountpoint", .str c!"/x"), (c!"members", .list []), (c!"fsopts", .str c!""), (c!"fsprofile", .str c!""), (c!"encrypted", .bool false), (c!"passphrase", .str c!""), (c!"escrowcert", .str c!""), (c!"backuppassphrase", .bool false), (c!"mntpoint", .list [c!"/x"]), (c!"partitions", .list [])]

theorem obeys_raidLines3_2_base (n : Str) : Command.FirstBase (F13_Raid.cls F13_RaidData.cls) n [c!"/x", c!"--device=1", c!"--useexisting"] obeys_raidLines3_2_object := by
  intro b b' hb hb' line l; kernel_rfl

theorem obeys_raidLines3_2_start : Command.FirstStart (F13_Raid.cls F13_RaidData.cls) obeys_raidLines3_2_object (raidLines3.start.getD 0 ([], [])).2 := fun _ => .inl ⟨fun _ => rfl, (all_cons (by kernel_rfl) (all_cons (by kernel_rfl) (all_cons (by kernel_rfl) (all_cons (by kernel_rfl) (all_cons (by kernel_rfl) (List.forall_mem_nil _))))))⟩

theorem obeys_raidLines3_2_lines (n : Str) : ∀ i ∈ [], Command.FirstLine (F13_Raid.cls F13_RaidData.cls) n [c!"/x", c!"--device=1", c!"--useexisting"] obeys_raidLines3_2_object (raidLines3.lines.getD i noLine) :=
  (List.forall_mem_nil _)

theorem obeys_raidLines3_2 : ∀ v, [Version.F13].contains v = true → Command.Obeys (F13_Raid.cls F13_RaidData.cls) raidLines3 v :=
  obeys_of obeys_raidLines3_2_object [0] [] (obeys_raidLines3_2_base _) (all_cons obeys_raidLines3_2_start (List.forall_mem_nil _)) (obeys_raidLines3_2_lines _) (by decide +kernel)

def obeys_raidLines3_3_object (l : Nat) : Ns := [(c!"lineno", .int l), (c!"device", .int 1), (c!"fstype", .str c!""), (c!"level", .str c!""), (c!"format", .bool true), (c!"spares", .int 0), (c!"preexist", .bool true), (c!"mountpoint", .str c!"/x"), (c!"members", .list []), (c!"fsopts", .str c!""), (c!"fsprofile", .str c!""), (c!"encrypted", .bool false), (c!"passphrase", .str c!""), (c!"escrowcert", .str c!""), (c!"backuppassphrase", .bool false), (c!"mntpoint", .list [c!"/x"]), (c!"partitions", .list [])]

theorem obeys_raidLines3_3_base (n : Str) : Command.FirstBase (F14_Raid.cls F14_RaidData.cls) n [c!"/x", c!"--device=1", c!"--useexisting"] obeys_raidLines3_3_object := by
  intro b b' hb hb' line l; kernel_rfl

theorem obeys_raidLines3_3_start : Command.FirstStart (F14_Raid.cls F14_RaidData.cls) obeys_raidLines3_3_object (raidLines3.start.getD 0 ([], [])).2 := fun _ => .inl ⟨fun _ => rfl, (all_cons (by kernel_rfl) (all_cons (by kernel_rfl) (all_cons (by kernel_rfl) (all_cons (by kernel_rfl) (all_cons (by kernel_rfl) (List.forall_mem_nil _))))))⟩

theorem obeys_raidLines3_3_lines (n : Str) : ∀ i ∈ [1], Command.FirstLine (F14_Raid.cls F14_RaidData.cls) n [c!"/x", c!"--device=1", c!"--useexisting"] obeys_raidLines3_3_object (raidLines3.lines.getD i noLine) :=
  (all_cons (by intro b b' hb hb' x hx line l; (cases x with | nil => exact absurd rfl hx | cons a x => kernel_rfl))
    (List.forall_mem_nil _))

theorem obeys_raidLines3_3 : ∀ v, [Version.F14].contains v = true → Command.Obeys (F14_Raid.cls F14_RaidData.cls) raidLines3 v :=
  obeys_of obeys_raidLines3_3_object [0] [1] (obeys_raidLines3_3_base _) (all_cons obeys_raidLines3_3_start (List.forall_mem_nil _)) (obeys_raidLines3_3_lines _) (by decide +kernel)

def obeys_raidLines3_4_object (l : Nat) : Ns := [(c!"lineno", .int l), (c!"device", .int 1), (c!"fstype", .str c!""), (c!"level", .str c!""), (c!"format", .bool true), (c!"spares", .int 0), (c!"preexist", .bool true), (c!"mountpoint", .str c!"/x"), (c!"members", .list []), (c!"fsopts", .str c!""), (c!"fsprofile", .str c!""), (c!"encrypted", .bool false), (c!"passphrase", .str c!""), (c!"escrowcert", .str c!""), (c!"backuppassphrase", .bool false), (c!"label", .str c!""), (c!"mntpoint", .list [c!"/x"]), (c!"partitions", .list [])]

theorem obeys_raidLines3_4_base (n : Str) : Command.FirstBase (F15_Raid.cls F15_RaidData.cls) n [c!"/x", c!"--device=1", c!"--useexisting"] obeys_raidLines3_4_object := by
  intro b b' hb hb' line l; kernel_rfl

theorem obeys_raidLines3_4_start : Command.FirstStart (F15_Raid.cls F15_RaidData.cls) obeys_raidLines3_4_object (raidLines3.start.getD 0 ([], [])).2 := fun _ => .inl ⟨fun _ => rfl, (all_cons (by kernel_rfl) (all_cons (by kernel_rfl) (all_cons (by kernel_rfl) (all_cons (by kernel_rfl) (all_cons (by kernel_rfl) (List.forall_mem_nil _))))))⟩

theorem obeys_raidLines3_4_lines (n : Str) : ∀ i ∈ [2], Command.FirstLine (F15_Raid.cls F15_RaidData.cls) n [c!"/x", c!"--device=1", c!"--useexisting"] obeys_raidLines3_4_object (raidLines3.lines.getD i noLine) :=
  (all_cons (by intro b b' hb hb' x hx line l; (cases x with | nil => exact absurd rfl hx | cons a x => kernel_rfl))
    (List.forall_mem_nil _))

theorem obeys_raidLines3_4 : ∀ v, [Version.F15, Version.F16, Version.F17].contains v = true → Command.Obeys (F15_Raid.cls F15_RaidData.cls) raidLines3 v :=
  obeys_of obeys_raidLines3_4_object [0] [2] (obeys_raidLines3_4_base _) (all_cons obeys_raidLines3_4_start (List.forall_mem_nil _)) (obeys_raidLines3_4_lines _) (by decide +kernel)

def obeys_raidLines3_5_object (l : Nat) : Ns := [(c!"lineno", .int l), (c!"device", .int 1), (c!"fstype", .str c!""), (c!"level", .str c!""), (c!"format", .bool true), (c!"spares", .int 0), (c!"preexist", .bool true), (c!"mountpoint", .str c!"/x"), (c!"members", .list []), (c!"fsopts", .str c!""), (c!"fsprofile", .str c!""), (c!"encrypted", .bool false), (c!"passphrase", .str c!""), (c!"escrowcert", .str c!""), (c!"backuppassphrase", .bool false), (c!"label", .str c!""), (c!"cipher", .str c!""), (c!"mntpoint", .list [c!"/x"]), (c!"partitions", .list [])]

theorem obeys_raidLines3_5_base (n : Str) : Command.FirstBase (F18_Raid.cls F18_RaidData.cls) n [c!"/x", c!"--device=1", c!"--useexisting"] obeys_raidLines3_5_object := by
  intro b b' hb hb' line l; kernel_rfl

theorem obeys_raidLines3_5_start : Command.FirstStart (F18_Raid.cls F18_RaidData.cls) obeys_raidLines3_5_object (raidLines3.start.getD 0 ([], [])).2 := fun _ => .inl ⟨fun _ => rfl, (all_cons (by kernel_rfl) (all_cons (by kernel_rfl) (all_cons (by kernel_rfl) (all_cons (by kernel_rfl) (all_cons (by kernel_rfl) (List.forall_mem_nil _))))))⟩

theorem obeys_raidLines3_5_lines (n : Str) : ∀ i ∈ [], Command.FirstLine (F18_Raid.cls F18_RaidData.cls) n [c!"/x", c!"--device=1", c!"--useexisting"] obeys_raidLines3_5_object (raidLines3.lines.getD i noLine) :=
  (List.forall_mem_nil _)

theorem obeys_raidLines3_5 : ∀ v, [Version.F18].contains v = true → Command.Obeys (F18_Raid.cls F18_RaidData.cls) raidLines3 v :=
  obeys_of obeys_raidLines3_5_object [0] [] (obeys_raidLines3_5_base _) (all_cons obeys_raidLines3_5_start (List.forall_mem_nil _)) (obeys_raidLines3_5_lines _) (by decide +kernel)

def obeys_raidLines3_6_object (l : Nat) : Ns := [(c!"lineno", .int l), (c!"device", .str c!"1"), (c!"fstype", .str c!""), (c!"level", .str c!""), (c!"format", .bool true), (c!"spares", .int 0), (c!"preexist", .bool true), (c!"mountpoint", .str c!"/x"), (c!"members", .list []), (c!"fsopts", .str c!""), (c!"fsprofile", .str c!""), (c!"encrypted", .bool false), (c!"passphrase", .str c!""), (c!"escrowcert", .str c!""), (c!"backuppassphrase", .bool false), (c!"label", .str c!""), (c!"cipher", .str c!""), (c!"mntpoint", .list [c!"/x"]), (c!"partitions", .list [])]

theorem obeys_raidLines3_6_base (n : Str) : Command.FirstBase (F19_Raid.cls F18_RaidData.cls) n [c!"/x", c!"--device=1", c!"--useexisting"] obeys_raidLines3_6_object := by
  intro b b' hb hb' line l; kernel_rfl

theorem obeys_raidLines3_6_start : Command.FirstStart (F19_Raid.cls F18_RaidData.cls) obeys_raidLines3_6_object (raidLines3.start.getD 1 ([], [])).2 := fun _ => .inl ⟨fun _ => rfl, (all_cons (by kernel_rfl) (all_cons (by kernel_rfl) (all_cons (by kernel_rfl) (all_cons (by kernel_rfl) (all_cons (by kernel_rfl) (List.forall_mem_nil _))))))⟩

theorem obeys_raidLines3_6_lines (n : Str) : ∀ i ∈ [], Command.FirstLine (F19_Raid.cls F18_RaidData.cls) n [c!"/x", c!"--device=1", c!"--useexisting"] obeys_raidLines3_6_object (raidLines3.lines.getD i noLine) :=
  (List.forall_mem_nil _)

theorem obeys_raidLines3_6 : ∀ v, [Version.F19].contains v = true → Command.Obeys (F19_Raid.cls F18_RaidData.cls) raidLines3 v :=
  obeys_of obeys_raidLines3_6_object [1] [] (obeys_raidLines3_6_base _) (all_cons obeys_raidLines3_6_start (List.forall_mem_nil _)) (obeys_raidLines3_6_lines _) (by decide +kernel)

def obeys_raidLines3_7_object (l : Nat) : Ns := [(c!"lineno", .int l), (c!"device", .str c!"1"), (c!"fstype", .str c!""), (c!"level", .str c!""), (c!"format", .bool true), (c!"spares", .int 0), (c!"preexist", .bool true), (c!"mountpoint", .str c!"/x"), (c!"members", .list []), (c!"fsopts", .str c!""), (c!"fsprofile", .str c!""), (c!"encrypted", .bool false), (c!"passphrase", .str c!""), (c!"escrowcert", .str c!""), (c!"backuppassphrase", .bool false), (c!"label", .str c!""), (c!"cipher", .str c!""), (c!"mntpoint", .list [c!"/x"]), (c!"partitions", .list [])]

theorem obeys_raidLines3_7_base (n : Str) : Command.FirstBase (F20_Raid.cls F18_RaidData.cls) n [c!"/x", c!"--device=1", c!"--useexisting"] obeys_raidLines3_7_object := by
  intro b b' hb hb' line l; rcases hb with rfl | rfl <;> rcases hb' with rfl | rfl <;> kernel_rfl

theorem obeys_raidLines3_7_start : Command.FirstStart (F20_Raid.cls F18_RaidData.cls) obeys_raidLines3_7_object (raidLines3.start.getD 1 ([], [])).2 := fun _ => .inl ⟨fun _ => rfl, (all_cons (by kernel_rfl) (all_cons (by kernel_rfl) (all_cons (by kernel_rfl) (all_cons (by kernel_rfl) (all_cons (by kernel_rfl) (List.forall_mem_nil _))))))⟩

theorem obeys_raidLines3_7_lines (n : Str) : ∀ i ∈ [], Command.FirstLine (F20_Raid.cls F18_RaidData.cls) n [c!"/x", c!"--device=1", c!"--useexisting"] obeys_raidLines3_7_object (raidLines3.lines.getD i noLine) :=
  (List.forall_mem_nil _)

theorem obeys_raidLines3_7 : ∀ v, [Version.F20, Version.F21, Version.F22].contains v = true → Command.Obeys (F20_Raid.cls F18_RaidData.cls) raidLines3 v :=
  obeys_of obeys_raidLines3_7_object [1] [] (obeys_raidLines3_7_base _) (all_cons obeys_raidLines3_7_start (List.forall_mem_nil _)) (obeys_raidLines3_7_lines _) (by decide +kernel)

def obeys_raidLines3_8_object (l : Nat) : Ns := [(c!"lineno", .int l), (c!"device", .str c!"1"), (c!"fstype", .str c!""), (c!"level", .str c!""), (c!"format", .bool true), (c!"spares", .int 0), (c!"preexist", .bool true), (c!"mountpoint", .str c!"/x"), (c!"members", .list []), (c!"fsopts", .str c!""), (c!"fsprofile", .str c!""), (c!"encrypted", .bool false), (c!"passphrase", .str c!""), (c!"escrowcert", .str c!""), (c!"backuppassphrase", .bool false), (c!"label", .str c!""), (c!"cipher", .str c!""), (c!"mkfsopts", .str c!""), (c!"mntpoint", .list [c!"/x"]), (c!"partitions", .list [])]

theorem obeys_raidLines3_8_base (n : Str) : Command.FirstBase (F23_Raid.cls F23_RaidData.cls) n [c!"/x", c!"--device=1", c!"--useexisting"] obeys_raidLines3_8_object := by
  intro b b' hb hb' line l; rcases hb with rfl | rfl <;> rcases hb' with rfl | rfl <;> kernel_rfl

theorem obeys_raidLines3_8_start : Command.FirstStart (F23_Raid.cls F23_RaidData.cls) obeys_raidLines3_8_object (raidLines3.start.getD 1 ([], [])).2 := fun _ => .inl ⟨fun _ => rfl, (all_cons (by kernel_rfl) (all_cons (by kernel_rfl) (all_cons (by kernel_rfl) (all_cons (by kernel_rfl) (all_cons (by kernel_rfl) (List.forall_mem_nil _))))))⟩

theorem obeys_raidLines3_8_lines (n : Str) : ∀ i ∈ [], Command.FirstLine (F23_Raid.cls F23_RaidData.cls) n [c!"/x", c!"--device=1", c!"--useexisting"] obeys_raidLines3_8_object (raidLines3.lines.getD i noLine) :=
  (List.forall_mem_nil _)

theorem obeys_raidLines3_8 : ∀ v, [Version.F23, Version.F24].contains v = true → Command.Obeys (F23_Raid.cls F23_RaidData.cls) raidLines3 v :=
  obeys_of obeys_raidLines3_8_object [1] [] (obeys_raidLines3_8_base _) (all_cons obeys_raidLines3_8_start (List.forall_mem_nil _)) (obeys_raidLines3_8_lines _) (by decide +kernel)

def obeys_raidLines3_9_object (l : Nat) : Ns := [(c!"lineno", .int l), (c!"device", .str c!"1"), (c!"fstype", .str c!""), (c!"level", .str c!""), (c!"format", .bool true), (c!"spares", .int 0), (c!"preexist", .bool true), (c!"mountpoint", .str c!"/x"), (c!"members", .list []), (c!"fsopts", .str c!""), (c!"fsprofile", .str c!""), (c!"encrypted", .bool false), (c!"passphrase", .str c!""), (c!"escrowcert", .str c!""), (c!"backuppassphrase", .bool false), (c!"label", .str c!""), (c!"cipher", .str c!""), (c!"mkfsopts", .str c!""), (c!"chunk_size", .none), (c!"mntpoint", .list [c!"/x"]), (c!"partitions", .list [])]

theorem obeys_raidLines3_9_base (n : Str) : Command.FirstBase (F25_Raid.cls F25_RaidData.cls) n [c!"/x", c!"--device=1", c!"--useexisting"] obeys_raidLines3_9_object := by
  intro b b' hb hb' line l; rcases hb with rfl | rfl <;> rcases hb' with rfl | rfl <;> kernel_rfl

theorem obeys_raidLines3_9_start : Command.FirstStart (F25_Raid.cls F25_RaidData.cls) obeys_raidLines3_9_object (raidLines3.start.getD 1 ([], [])).2 := fun _ => .inl ⟨fun _ => rfl, (all_cons (by kernel_rfl) (all_cons (by kernel_rfl) (all_cons (by kernel_rfl) (all_cons (by kernel_rfl) (all_cons (by kernel_rfl) (List.forall_mem_nil _))))))⟩

theorem obeys_raidLines3_9_lines (n : Str) : ∀ i ∈ [], Command.FirstLine (F25_Raid.cls F25_RaidData.cls) n [c!"/x", c!"--device=1", c!"--useexisting"] obeys_raidLines3_9_object (raidLines3.lines.getD i noLine) :=
  (List.forall_mem_nil _)

theorem obeys_raidLines3_9 : ∀ v, [Version.F25, Version.F26, Version.F27, Version.F28].contains v = true → Command.Obeys (F25_Raid.cls F25_RaidData.cls) raidLines3 v :=
  obeys_of obeys_raidLines3_9_object [1] [] (obeys_raidLines3_9_base _) (all_cons obeys_raidLines3_9_start (List.forall_mem_nil _)) (obeys_raidLines3_9_lines _) (by decide +kernel)

def obeys_raidLines3_10_object (l : Nat) : Ns := [(c!"lineno", .int l), (c!"device", .str c!"1"), (c!"fstype", .str c!""), (c!"level", .str c!""), (c!"format", .bool true), (c!"spares", .int 0), (c!"preexist", .bool true), (c!"mountpoint", .str c!"/x"), (c!"members", .list []), (c!"fsopts", .str c!""), (c!"fsprofile", .str c!""), (c!"encrypted", .bool false), (c!"passphrase", .str c!""), (c!"escrowcert", .str c!""), (c!"backuppassphrase", .bool false), (c!"label", .str c!""), (c!"cipher", .str c!""), (c!"mkfsopts", .str c!""), (c!"chunk_size", .none), (c!"luks_version", .str c!""), (c!"pbkdf", .str c!""), (c!"pbkdf_memory", .int 0), (c!"pbkdf_time", .int 0), (c!"pbkdf_iterations", .int 0), (c!"mntpoint", .list [c!"/x"]), (c!"partitions", .list [])]

theorem obeys_raidLines3_10_base (n : Str) : Command.FirstBase (F29_Raid.cls F29_RaidData.cls) n [c!"/x", c!"--device=1", c!"--useexisting"] obeys_raidLines3_10_object := by
  intro b b' hb hb' line l; rcases hb with rfl | rfl <;> rcases hb' with rfl | rfl <;> kernel_rfl

theorem obeys_raidLines3_10_start : Command.FirstStart (F29_Raid.cls F29_RaidData.cls) obeys_raidLines3_10_object (raidLines3.start.getD 1 ([], [])).2 := fun _ => .inl ⟨fun _ => rfl, (all_cons (by kernel_rfl) (all_cons (by kernel_rfl) (all_cons (by kernel_rfl) (all_cons (by kernel_rfl) (all_cons (by kernel_rfl) (List.forall_mem_nil _))))))⟩

theorem obeys_raidLines3_10_lines (n : Str) : ∀ i ∈ [0, 2], Command.FirstLine (F29_Raid.cls F29_RaidData.cls) n [c!"/x", c!"--device=1", c!"--useexisting"] obeys_raidLines3_10_object (raidLines3.lines.getD i noLine) :=
  (all_cons (by intro b b' hb hb' x hx line l; rcases hb with rfl | rfl <;> rcases hb' with rfl | rfl <;> kernel_rfl)
    (all_cons (by intro b b' hb hb' x hx line l; (cases x with | nil => exact absurd rfl hx | cons a x => rcases hb with rfl | rfl <;> rcases hb' with rfl | rfl <;> kernel_rfl))
    (List.forall_mem_nil _)))

theorem obeys_raidLines3_10 : ∀ v, [Version.F29, Version.F30, Version.F31, Version.F32, Version.F33, Version.F34].contains v = true → Command.Obeys (F29_Raid.cls F29_RaidData.cls) raidLines3 v :=
  obeys_of obeys_raidLines3_10_object [1] [0, 2] (obeys_raidLines3_10_base _) (all_cons obeys_raidLines3_10_start (List.forall_mem_nil _)) (obeys_raidLines3_10_lines _) (by decide +kernel)

def obeys_raidLines3_11_object (l : Nat) : Ns := [(c!"lineno", .int l), (c!"device", .int 1), (c!"fstype", .str c!""), (c!"level", .str c!""), (c!"format", .bool true), (c!"spares", .int 0), (c!"preexist", .bool true), (c!"mountpoint", .str c!"/x"), (c!"members", .list []), (c!"fsopts", .str c!""), (c!"bytesPerInode", .int 4096), (c!"mntpoint", .list [c!"/x"]), (c!"partitions", .list [])]

theorem obeys_raidLines3_11_base (n : Str) : Command.FirstBase (F7_Raid.cls F7_RaidData.cls) n [c!"/x", c!"--device=1", c!"--useexisting"] obeys_raidLines3_11_object := by
  intro b b' hb hb' line l; kernel_rfl

theorem obeys_raidLines3_11_start : Command.FirstStart (F7_Raid.cls F7_RaidData.cls) obeys_raidLines3_11_object (raidLines3.start.getD 2 ([], [])).2 := fun _ => .inl ⟨fun _ => rfl, (all_cons (by kernel_rfl) (all_cons (by kernel_rfl) (all_cons (by kernel_rfl) (all_cons (by kernel_rfl) (all_cons (by kernel_rfl) (all_cons (by kernel_rfl) (List.forall_mem_nil _)))))))⟩

theorem obeys_raidLines3_11_lines (n : Str) : ∀ i ∈ [], Command.FirstLine (F7_Raid.cls F7_RaidData.cls) n [c!"/x", c!"--device=1", c!"--useexisting"] obeys_raidLines3_11_object (raidLines3.lines.getD i noLine) :=
  (List.forall_mem_nil _)

theorem obeys_raidLines3_11 : ∀ v, [Version.F7, Version.F8].contains v = true → Command.Obeys (F7_Raid.cls F7_RaidData.cls) raidLines3 v :=
  obeys_of obeys_raidLines3_11_object [2] [] (obeys_raidLines3_11_base _) (all_cons obeys_raidLines3_11_start (List.forall_mem_nil _)) (obeys_raidLines3_11_lines _) (by decide +kernel)

def obeys_raidLines3_12_object (l : Nat) : Ns := [(c!"lineno", .int l), (c!"device", .int 1), (c!"fstype", .str c!""), (c!"level", .str c!""), (c!"format", .bool true), (c!"spares", .int 0), (c!"preexist", .bool true), (c!"mountpoint", .str c!"/x"), (c!"members", .list []), (c!"mntpoint", .list [c!"/x"]), (c!"partitions", .list [])]

theorem obeys_raidLines3_12_base (n : Str) : Command.FirstBase (FC3_Raid.cls FC3_RaidData.cls) n [c!"/x", c!"--device=1", c!"--useexisting"] obeys_raidLines3_12_object := by
  intro b b' hb hb' line l; kernel_rfl

theorem obeys_raidLines3_12_start : Command.FirstStart (FC3_Raid.cls FC3_RaidData.cls) obeys_raidLines3_12_object (raidLines3.start.getD 0 ([], [])).2 := fun _ => .inl ⟨fun _ => rfl, (all_cons (by kernel_rfl) (all_cons (by kernel_rfl) (all_cons (by kernel_rfl) (all_cons (by kernel_rfl) (all_cons (by kernel_rfl) (List.forall_mem_nil _))))))⟩

theorem obeys_raidLines3_12_lines (n : Str) : ∀ i ∈ [0], Command.FirstLine (FC3_Raid.cls FC3_RaidData.cls) n [c!"/x", c!"--device=1", c!"--useexisting"] obeys_raidLines3_12_object (raidLines3.lines.getD i noLine) :=
  (all_cons (by intro b b' hb hb' x hx line l; kernel_rfl)
    (List.forall_mem_nil _))

theorem obeys_raidLines3_12 : ∀ v, [Version.RHEL3, Version.FC3, Version.RHEL4].contains v = true → Command.Obeys (FC3_Raid.cls FC3_RaidData.cls) raidLines3 v :=
  obeys_of obeys_raidLines3_12_object [0] [0] (obeys_raidLines3_12_base _) (all_cons obeys_raidLines3_12_start (List.forall_mem_nil _)) (obeys_raidLines3_12_lines _) (by decide +kernel)

def obeys_raidLines3_13_object (l : Nat) : Ns := [(c!"lineno", .int l), (c!"device", .int 1), (c!"fstype", .str c!""), (c!"level", .str c!""), (c!"format", .bool true), (c!"spares", .int 0), (c!"preexist", .bool true), (c!"mountpoint", .str c!"/x"), (c!"members", .list []), (c!"fsopts", .str c!""), (c!"mntpoint", .list [c!"/x"]), (c!"partitions", .list [])]

theorem obeys_raidLines3_13_base (n : Str) : Command.FirstBase (FC4_Raid.cls FC4_RaidData.cls) n [c!"/x", c!"--device=1", c!"--useexisting"] obeys_raidLines3_13_object := by
  intro b b' hb hb' line l; kernel_rfl

theorem obeys_raidLines3_13_start : Command.FirstStart (FC4_Raid.cls FC4_RaidData.cls) obeys_raidLines3_13_object (raidLines3.start.getD 0 ([], [])).2 := fun _ => .inl ⟨fun _ => rfl, (all_cons (by kernel_rfl) (all_cons (by kernel_rfl) (all_cons (by kernel_rfl) (all_cons (by kernel_rfl) (all_cons (by kernel_rfl) (List.forall_mem_nil _))))))⟩

theorem obeys_raidLines3_13_lines (n : Str) : ∀ i ∈ [], Command.FirstLine (FC4_Raid.cls FC4_RaidData.cls) n [c!"/x", c!"--device=1", c!"--useexisting"] obeys_raidLines3_13_object (raidLines3.lines.getD i noLine) :=
  (List.forall_mem_nil _)

theorem obeys_raidLines3_13 : ∀ v, [Version.FC4].contains v = true → Command.Obeys (FC4_Raid.cls FC4_RaidData.cls) raidLines3 v :=
  obeys_of obeys_raidLines3_13_object [0] [] (obeys_raidLines3_13_base _) (all_cons obeys_raidLines3_13_start (List.forall_mem_nil _)) (obeys_raidLines3_13_lines _) (by decide +kernel)

def obeys_raidLines3_14_object (l : Nat) : Ns := [(c!"lineno", .int l), (c!"device", .int 1), (c!"fstype", .str c!""), (c!"level", .str c!""), (c!"format", .bool true), (c!"spares", .int 0), (c!"preexist", .bool true), (c!"mountpoint", .str c!"/x"), (c!"members", .list []), (c!"fsopts", .str c!""), (c!"bytesPerInode", .int 4096), (c!"mntpoint", .list [c!"/x"]), (c!"partitions", .list [])]

theorem obeys_raidLines3_14_base (n : Str) : Command.FirstBase (FC5_Raid.cls FC5_RaidData.cls) n [c!"/x", c!"--device=1", c!"--useexisting"] obeys_raidLines3_14_object := by
  intro b b' hb hb' line l; kernel_rfl

theorem obeys_raidLines3_14_start : Command.FirstStart (FC5_Raid.cls FC5_RaidData.cls) obeys_raidLines3_14_object (raidLines3.start.getD 2 ([], [])).2 := fun _ => .inl ⟨fun _ => rfl, (all_cons (by kernel_rfl) (all_cons (by kernel_rfl) (all_cons (by kernel_rfl) (all_cons (by kernel_rfl) (all_cons (by kernel_rfl) (all_cons (by kernel_rfl) (List.forall_mem_nil _)))))))⟩

theorem obeys_raidLines3_14_lines (n : Str) : ∀ i ∈ [], Command.FirstLine (FC5_Raid.cls FC5_RaidData.cls) n [c!"/x", c!"--device=1", c!"--useexisting"] obeys_raidLines3_14_object (raidLines3.lines.getD i noLine) :=
  (List.forall_mem_nil _)

theorem obeys_raidLines3_14 : ∀ v, [Version.FC5, Version.FC6].contains v = true → Command.Obeys (FC5_Raid.cls FC5_RaidData.cls) raidLines3 v :=
  obeys_of obeys_raidLines3_14_object [2] [] (obeys_raidLines3_14_base _) (all_cons obeys_raidLines3_14_start (List.forall_mem_nil _)) (obeys_raidLines3_14_lines _) (by decide +kernel)

def obeys_raidLines3_15_object (l : Nat) : Ns := [(c!"lineno", .int l), (c!"device", .int 1), (c!"fstype", .str c!""), (c!"level", .str c!""), (c!"format", .bool true), (c!"spares", .int 0), (c!"preexist", .bool true), (c!"mountpoint", .str c!"/x"), (c!"members", .list []), (c!"fsopts", .str c!""), (c!"bytesPerInode", .int 4096), (c!"encrypted", .bool false), (c!"passphrase", .str c!""), (c!"mntpoint", .list [c!"/x"]), (c!"partitions", .list [])]

theorem obeys_raidLines3_15_base (n : Str) : Command.FirstBase (RHEL5_Raid.cls RHEL5_RaidData.cls) n [c!"/x", c!"--device=1", c!"--useexisting"] obeys_raidLines3_15_object := by
  intro b b' hb hb' line l; kernel_rfl

theorem obeys_raidLines3_15_start : Command.FirstStart (RHEL5_Raid.cls RHEL5_RaidData.cls) obeys_raidLines3_15_object (raidLines3.start.getD 2 ([], [])).2 := fun _ => .inl ⟨fun _ => rfl, (all_cons (by kernel_rfl) (all_cons (by kernel_rfl) (all_cons (by kernel_rfl) (all_cons (by kernel_rfl) (all_cons (by kernel_rfl) (all_cons (by kernel_rfl) (List.forall_mem_nil _)))))))⟩

theorem obeys_raidLines3_15_lines (n : Str) : ∀ i ∈ [], Command.FirstLine (RHEL5_Raid.cls RHEL5_RaidData.cls) n [c!"/x", c!"--device=1", c!"--useexisting"] obeys_raidLines3_15_object (raidLines3.lines.getD i noLine) :=
  (List.forall_mem_nil _)

theorem obeys_raidLines3_15 : ∀ v, [Version.RHEL5].contains v = true → Command.Obeys (RHEL5_Raid.cls RHEL5_RaidData.cls) raidLines3 v :=
  obeys_of obeys_raidLines3_15_object [2] [] (obeys_raidLines3_15_base _) (all_cons obeys_raidLines3_15_start (List.forall_mem_nil _)) (obeys_raidLines3_15_lines _) (by decide +kernel)

def obeys_raidLines3_16_object (l : Nat) : Ns := [(c!"lineno", .int l), (c!"device", .int 1), (c!"fstype", .str c!""), (c!"level", .str c!""), (c!"format", .bool true), (c!"spares", .int 0), (c!"preexist", .bool true), (c!"mountpoint", .str c!"/x"), (c!"members", .list []), (c!"fsopts", .str c!""), (c!"fsprofile", .str c!""), (c!"encrypted", .bool false), (c!"passphrase", .str c!""), (c!"escrowcert", .str c!""), (c!"backuppassphrase", .bool false), (c!"cipher", .str c!""), (c!"mntpoint", .list [c!"/x"]), (c!"partitions", .list [])]

theorem obeys_raidLines3_16_base (n : Str) : Command.FirstBase (RHEL6_Raid.cls RHEL6_RaidData.cls) n [c!"/x", c!"--device=1", c!"--useexisting"] obeys_raidLines3_16_object := by
  intro b b' hb hb' line l; kernel_rfl

theorem obeys_raidLines3_16_start : Command.FirstStart (RHEL6_Raid.cls RHEL6_RaidData.cls) obeys_raidLines3_16_object (raidLines3.start.getD 0 ([], [])).2 := fun _ => .inl ⟨fun _ => rfl, (all_cons (by kernel_rfl) (all_cons (by kernel_rfl) (all_cons (by kernel_rfl) (all_cons (by kernel_rfl) (all_cons (by kernel_rfl) (List.forall_mem_nil _))))))⟩

theorem obeys_raidLines3_16_lines (n : Str) : ∀ i ∈ [], Command.FirstLine (RHEL6_Raid.cls RHEL6_RaidData.cls) n [c!"/x", c!"--device=1", c!"--useexisting"] obeys_raidLines3_16_object (raidLines3.lines.getD i noLine) :=
  (List.forall_mem_nil _)

theorem obeys_raidLines3_16 : ∀ v, [Version.RHEL6].contains v = true → Command.Obeys (RHEL6_Raid.cls RHEL6_RaidData.cls) raidLines3 v :=
  obeys_of obeys_raidLines3_16_object [0] [] (obeys_raidLines3_16_base _) (all_cons obeys_raidLines3_16_start (List.forall_mem_nil _)) (obeys_raidLines3_16_lines _) (by decide +kernel)

def obeys_raidLines3_17_object (l : Nat) : Ns := [(c!"lineno", .int l), (c!"device", .str c!"1"), (c!"fstype", .str c!""), (c!"level", .str c!""), (c!"format", .bool true), (c!"spares", .int 0), (c!"preexist", .bool true), (c!"mountpoint", .str c!"/x"), (c!"members", .list []), (c!"fsopts", .str c!""), (c!"fsprofile", .str c!""), (c!"encrypted", .bool false), (c!"passphrase", .str c!""), (c!"escrowcert", .str c!""), (c!"backuppassphrase", .bool false), (c!"label", .str c!""), (c!"cipher", .str c!""), (c!"mkfsopts", .str c!""), (c!"chunk_size", .none), (c!"mntpoint", .list [c!"/x"]), (c!"partitions", .list [])]

theorem obeys_raidLines3_17_base (n : Str) : Command.FirstBase (RHEL7_Raid.cls RHEL7_RaidData.cls) n [c!"/x", c!"--device=1", c!"--useexisting"] obeys_raidLines3_17_object := by
  intro b b' hb hb' line l; rcases hb with rfl | rfl <;> rcases hb' with rfl | rfl <;> kernel_rfl

theorem obeys_raidLines3_17_start : Command.FirstStart (RHEL7_Raid.cls RHEL7_RaidData.cls) obeys_raidLines3_17_object (raidLines3.start.getD 1 ([], [])).2 := fun _ => .inl ⟨fun _ => rfl, (all_cons (by kernel_rfl) (all_cons (by kernel_rfl) (all_cons (by kernel_rfl) (all_cons (by kernel_rfl) (all_cons (by kernel_rfl) (List.forall_mem_nil _))))))⟩

theorem obeys_raidLines3_17_lines (n : Str) : ∀ i ∈ [], Command.FirstLine (RHEL7_Raid.cls RHEL7_RaidData.cls) n [c!"/x", c!"--device=1", c!"--useexisting"] obeys_raidLines3_17_object (raidLines3.lines.getD i noLine) :=
  (List.forall_mem_nil _)

theorem obeys_raidLines3_17 : ∀ v, [Version.RHEL7].contains v = true → Command.Obeys (RHEL7_Raid.cls RHEL7_RaidData.cls) raidLines3 v :=
  obeys_of obeys_raidLines3_17_object [1] [] (obeys_raidLines3_17_base _) (all_cons obeys_raidLines3_17_start (List.forall_mem_nil _)) (obeys_raidLines3_17_lines _) (by decide +kernel)

def obeys_raidLines3_18_object (l : Nat) : Ns := [(c!"lineno", .int l), (c!"device", .str c!"1"), (c!"fstype", .str c!""), (c!"level", .str c!""), (c!"format", .bool true), (c!"spares", .int 0), (c!"preexist", .bool true), (c!"mountpoint", .str c!"/x"), (c!"members", .list []), (c!"fsopts", .str c!""), (c!"fsprofile", .str c!""), (c!"encrypted", .bool false), (c!"passphrase", .str c!""), (c!"escrowcert", .str c!""), (c!"backuppassphrase", .bool false), (c!"label", .str c!""), (c!"cipher", .str c!""), (c!"mkfsopts", .str c!""), (c!"chunk_size", .none), (c!"luks_version", .str c!""), (c!"pbkdf", .str c!""), (c!"pbkdf_memory", .int 0), (c!"pbkdf_time", .int 0), (c!"pbkdf_iterations", .int 0), (c!"mntpoint", .list [c!"/x"]), (c!"partitions", .list [])]

theorem obeys_raidLines3_18_base (n : Str) : Command.FirstBase (RHEL8_Raid.cls RHEL8_RaidData.cls) n [c!"/x", c!"--device=1", c!"--useexisting"] obeys_raidLines3_18_object := by
  intro b b' hb hb' line l; rcases hb with rfl | rfl <;> rcases hb' with rfl | rfl <;> kernel_rfl

theorem obeys_raidLines3_18_start : Command.FirstStart (RHEL8_Raid.cls RHEL8_RaidData.cls) obeys_raidLines3_18_object (raidLines3.start.getD 1 ([], [])).2 := fun _ => .inl ⟨fun _ => rfl, (all_cons (by kernel_rfl) (all_cons (by kernel_rfl) (all_cons (by kernel_rfl) (all_cons (by kernel_rfl) (all_cons (by kernel_rfl) (List.forall_mem_nil _))))))⟩

theorem obeys_raidLines3_18_lines (n : Str) : ∀ i ∈ [], Command.FirstLine (RHEL8_Raid.cls RHEL8_RaidData.cls) n [c!"/x", c!"--device=1", c!"--useexisting"] obeys_raidLines3_18_object (raidLines3.lines.getD i noLine) :=
  (List.forall_mem_nil _)

theorem obeys_raidLines3_18 : ∀ v, [Version.RHEL8].contains v = true → Command.Obeys (RHEL8_Raid.cls RHEL8_RaidData.cls) raidLines3 v :=
  obeys_of obeys_raidLines3_18_object [1] [] (obeys_raidLines3_18_base _) (all_cons obeys_raidLines3_18_start (List.forall_mem_nil _)) (obeys_raidLines3_18_lines _) (by decide +kernel)

theorem obeys_raidLines3 : raidLines3.Obeyed := by
  unfold CommandLines.Obeyed commandMaps
  exact (all_cons (fun _ c h => by cases h; exact obeys_raidLines3_0 _ rfl)
    (all_cons (fun _ c h => by cases h; exact obeys_raidLines3_0 _ rfl)
    (all_cons (fun _ c h => by cases h; exact obeys_raidLines3_1 _ rfl)
    (all_cons (fun _ c h => by cases h; exact obeys_raidLines3_2 _ rfl)
    (all_cons (fun _ c h => by cases h; exact obeys_raidLines3_3 _ rfl)
    (all_cons (fun _ c h => by cases h; exact obeys_raidLines3_4 _ rfl)
    (all_cons (fun _ c h => by cases h; exact obeys_raidLines3_4 _ rfl)
    (all_cons (fun _ c h => by cases h; exact obeys_raidLines3_4 _ rfl)
    (all_cons (fun _ c h => by cases h; exact obeys_raidLines3_5 _ rfl)
    (all_cons (fun _ c h => by cases h; exact obeys_raidLines3_6 _ rfl)
    (all_cons (fun _ c h => by cases h; exact obeys_raidLines3_7 _ rfl)
    (all_cons (fun _ c h => by cases h; exact obeys_raidLines3_7 _ rfl)
    (all_cons (fun _ c h => by cases h; exact obeys_raidLines3_7 _ rfl)
    (all_cons (fun _ c h => by cases h; exact obeys_raidLines3_8 _ rfl)
    (all_cons (fun _ c h => by cases h; exact obeys_raidLines3_8 _ rfl)
    (all_cons (fun _ c h => by cases h; exact obeys_raidLines3_9 _ rfl)
    (all_cons (fun _ c h => by cases h; exact obeys_raidLines3_9 _ rfl)
    (all_cons (fun _ c h => by cases h; exact obeys_raidLines3_9 _ rfl)
    (all_cons (fun _ c h => by cases h; exact obeys_raidLines3_9 _ rfl)
    (all_cons (fun _ c h => by cases h; exact obeys_raidLines3_10 _ rfl)
    (all_cons (fun _ c h => by cases h; exact obeys_raidLines3_10 _ rfl)
    (all_cons (fun _ c h => by cases h; exact obeys_raidLines3_10 _ rfl)
    (all_cons (fun _ c h => by cases h; exact obeys_raidLines3_10 _ rfl)
    (all_cons (fun _ c h => by cases h; exact obeys_raidLines3_10 _ rfl)
    (all_cons (fun _ c h => by cases h; exact obeys_raidLines3_10 _ rfl)
    (all_cons (fun _ c h => by cases h; exact obeys_raidLines3_11 _ rfl)
    (all_cons (fun _ c h => by cases h; exact obeys_raidLines3_11 _ rfl)
    (all_cons (fun _ c h => by cases h; exact obeys_raidLines3_0 _ rfl)
    (all_cons (fun _ c h => by cases h; exact obeys_raidLines3_12 _ rfl)
    (all_cons (fun _ c h => by cases h; exact obeys_raidLines3_13 _ rfl)
    (all_cons (fun _ c h => by cases h; exact obeys_raidLines3_14 _ rfl)
    (all_cons (fun _ c h => by cases h; exact obeys_raidLines3_14 _ rfl)
    (all_cons (fun _ c h => by cases h; exact obeys_raidLines3_12 _ rfl)
    (all_cons (fun _ c h => by cases h; exact obeys_raidLines3_12 _ rfl)
    (all_cons (fun _ c h => by cases h; exact obeys_raidLines3_15 _ rfl)
    (all_cons (fun _ c h => by cases h; exact obeys_raidLines3_16 _ rfl)
    (all_cons (fun _ c h => by cases h; exact obeys_raidLines3_17 _ rfl)
    (all_cons (fun _ c h => by cases h; exact obeys_raidLines3_18 _ rfl) (List.forall_mem_nil _)))))))))))))))))))))))))))))))))))))))

def obeys_raidLines4_0_object (l : Nat) : Ns := [(c!"lineno", .int l), (c!"device", .int 1), (c!"fstype", .str c!""), (c!"level", .str c!"RAID1"), (c!"format", .bool true), (c!"spares", .int 0), (c!"preexist", .bool false), (c!"mountpoint", .str c!"/x"), (c!"members", .list [c!"raid.1", c!"raid.2", c!"raid.3"]), (c!"fsopts", .str c!""), (c!"fsprofile", .str c!""), (c!"encrypted", .bool false), (c!"passphrase", .str c!""), (c!"mntpoint", .list [c!"/x"]), (c!"partitions", .list [c!"raid.1", c!"raid.2", c!"raid.3"])]

theorem obeys_raidLines4_0_base (n : Str) : Command.FirstBase (F9_Raid.cls F9_RaidData.cls) n [c!"/x", c!"--device=1", c!"--level=RAID1", c!"raid.1", c!"raid.2", c!"raid.3"] obeys_raidLines4_0_object := by
  intro b b' hb hb' line l; kernel_rfl

theorem obeys_raidLines4_0_start : Command.FirstStart (F9_Raid.cls F9_RaidData.cls) obeys_raidLines4_0_object (raidLines4.start.getD 0 ([], [])).2 := fun _ => .inl ⟨fun _ => rfl, (all_cons (by kernel_rfl) (all_cons (by kernel_rfl) (all_cons (by kernel_rfl) (all_cons (by kernel_rfl) (all_cons (by kernel_rfl) (all_cons (by kernel_rfl) (all_cons (by kernel_rfl) (List.forall_mem_nil _))))))))⟩

theorem obeys_raidLines4_0_lines (n : Str) : ∀ i ∈ [9], Command.FirstLine (F9_Raid.cls F9_RaidData.cls) n [c!"/x", c!"--device=1", c!"--level=RAID1", c!"raid.1", c!"raid.2", c!"raid.3"] obeys_raidLines4_0_object (raidLines4.lines.getD i noLine) :=
  (all_cons (by intro b b' hb hb' x hx line l; kernel_rfl)
    (List.forall_mem_nil _))

theorem obeys_raidLines4_0 : ∀ v, [Version.F9, Version.F10, Version.F11].contains v = true → Command.Obeys (F9_Raid.cls F9_RaidData.cls) raidLines4 v :=
  obeys_of obeys_raidLines4_0_object [0] [9] (obeys_raidLines4_0_base _) (all_cons obeys_raidLines4_0_start (List.forall_mem_nil _)) (obeys_raidLines4_0_lines _) (by decide +kernel)

def obeys_raidLines4_1_object (l : Nat) : Ns := [(c!"lineno", .int l), (c!"device", .int 1), (c!"fstype", .str c!""), (c!"level", .str c!"RAID1"), (c!"format", .bool true), (c!"spares", .int 0), (c!"preexist", .bool false), (c!"mountpoint", .str c!"/x"), (c!"members", .list [c!"raid.1", c!"raid.2", c!"raid.3"]), (c!"fsopts", .str c!""), (c!"fsprofile", .str c!""), (c!"encrypted", .bool false), (c!"passphrase", .str c!""), (c!"escrowcert", .str c!""), (c!"backuppassphrase", .bool false), (c!"mntpoint", .list [c!"/x"]), (c!"partitions", .list [c!"raid.1", c!"raid.2", c!"raid.3"])]

theorem obeys_raidLines4_1_base (n : Str) : Command.FirstBase (F12_Raid.cls F12_RaidData.cls) n [c!"/x", c!"--device=1", c!"--level=RAID1", c!"raid.1", c!"raid.2", c!"raid.3"] obeys_raidLines4_1_object := by
  intro b b' hb hb' line l; kernel_rfl

theorem obeys_raidLines4_1_start : Command.FirstStart (F12_Raid.cls F12_RaidData.cls) obeys_raidLines4_1_object (raidLines4.start.getD 0 ([], [])).2 := fun _ => .inl ⟨fun _ => rfl, (all_cons (by kernel_rfl) (all_cons (by kernel_rfl) (all_cons (by kernel_rfl) (all_cons (by kernel_rfl) (all_cons (by kernel_rfl) (all_cons (by kernel_rfl) (all_cons (by kernel_rfl) (List.forall_mem_nil _))))))))⟩

theorem obeys_raidLines4_1_lines (n : Str) : ∀ i ∈ [9], Command.FirstLine (F12_Raid.cls F12_RaidData.cls) n [c!"/x", c!"--device=1", c!"--level=RAID1", c!"raid.1", c!"raid.2", c!"raid.3"] obeys_raidLines4_1_object (raidLines4.lines.getD i noLine) :=
  (all_cons (by intro b b' hb hb' x hx line l; kernel_rfl)
    (List.forall_mem_nil _))

theorem obeys_raidLines4_1 : ∀ v, [Version.F12].contains v = true → Command.Obeys (F12_Raid.cls F12_RaidData.cls) raidLines4 v :=
  obeys_of obeys_raidLines4_1_object [0] [9] (obeys_raidLines4_1_base _) (all_cons obeys_raidLines4_1_start (List.forall_mem_nil _)) (obeys_raidLines4_1_lines _) (by decide +kernel)

def obeys_raidLines4_2_object (l : Nat) : Ns := [(c!"lineno", .int l), (c!"device", .int 1), (c!"fstype", .str c!""), (c!"level", .str c!"RAID1"), (c!"format", .bool true), (c!"spares", .int 0), (c!"preexist", .bool false), (c!"mountpoint", .str c!"/x"), (c!"members", .list [c!"raid.1", c!"raid.2", c!"raid.3"]), (c!"fsopts", .str c!""), (c!"fsprofile", .str c!""), (c!"encrypted", .bool false), (c!"passphrase", .str c!""), (c!"escrowcert", .str c!""), (c!"backuppassphrase", .bool false), (c!"mntpoint", .list [c!"/x"]), (c!"partitions", .list [c!"raid.1", c!"raid.2", c!"raid.3"])]

theorem obeys_raidLines4_2_base (n : Str) : Command.FirstBase (F13_Raid.cls F13_RaidData.cls) n [c!"/x", c!"--device=1", c!"--level=RAID1", c!"raid.1", c!"raid.2", c!"raid.3"] obeys_raidLines4_2_object := by
  intro b b' hb hb' line l; kernel_rfl

theorem obeys_raidLines4_2_start : Command.FirstStart (F13_Raid.cls F13_RaidData.cls) obeys_raidLines4_2_object (raidLines4.start.getD 0 ([], [])).2 := fun _ => .inl ⟨fun _ => rfl, (all_cons (by kernel_rfl) (all_cons (by kernel_rfl) (all_cons (by kernel_rfl) (all_cons (by kernel_rfl) (all_cons (by kernel_rfl) (all_cons (by kernel_rfl) (all_cons (by kernel_rfl) (List.forall_mem_nil _))))))))⟩

theorem obeys_raidLines4_2_lines (n : Str) : ∀ i ∈ [9], Command.FirstLine (F13_Raid.cls F13_RaidData.cls) n [c!"/x", c!"--device=1", c!"--level=RAID1", c!"raid.1", c!"raid.2", c!"raid.3"] obeys_raidLines4_2_object (raidLines4.lines.getD i noLine) :=
  (all_cons (by intro b b' hb hb' x hx line l; kernel_rfl)
    (List.forall_mem_nil _))

theorem obeys_raidLines4_2 : ∀ v, [Version.F13].contains v = true → Command.Obeys (F13_Raid.cls F13_RaidData.cls) raidLines4 v :=
  obeys_of obeys_raidLines4_2_object [0] [9] (obeys_raidLines4_2_base _) (all_cons obeys_raidLines4_2_start (List.forall_mem_nil _)) (obeys_raidLines4_2_lines _) (by decide +kernel)

def obeys_raidLines4_3_object (l : Nat) : Ns := [(c!"lineno", .int l), (c!"device", .int 1), (c!"fstype", .str c!""), (c!"level", .str c!"RAID1"), (c!"format", .bool true), (c!"spares", .int 0), (c!"preexist", .bool false), (c!"mountpoint", .str c!"/x"), (c!"members", .list [c!"raid.1", c!"raid.2", c!"raid.3"]), (c!"fsopts", .str c!""), (c!"fsprofile", .str c!""), (c!"encrypted", .bool false), (c!"passphrase", .str c!""), (c!"escrowcert", .str c!""), (c!"backuppassphrase", .bool false), (c!"mntpoint", .list [c!"/x"]), (c!"partitions", .list [c!"raid.1", c!"raid.2", c!"raid.3"])]

theorem obeys_raidLines4_3_base (n : Str) : Command.FirstBase (F14_Raid.cls F14_RaidData.cls) n [c!"/x", c!"--device=1", c!"--level=RAID1", c!"raid.1", c!"raid.2", c!"raid.3"] obeys_raidLines4_3_object := by
  intro b b' hb hb' line l; kernel_rfl

theorem obeys_raidLines4_3_start : Command.FirstStart (F14_Raid.cls F14_RaidData.cls) obeys_raidLines4_3_object (raidLines4.start.getD 0 ([], [])).2 := fun _ => .inl ⟨fun _ => rfl, (all_cons (by kernel_rfl) (all_cons (by kernel_rfl) (all_cons (by kernel_rfl) (all_cons (by kernel_rfl) (all_cons (by kernel_rfl) (all_cons (by kernel_rfl) (all_cons (by kernel_rfl) (List.forall_mem_nil _))))))))⟩

theorem obeys_raidLines4_3_lines (n : Str) : ∀ i ∈ [9], Command.FirstLine (F14_Raid.cls F14_RaidData.cls) n [c!"/x", c!"--device=1", c!"--level=RAID1", c!"raid.1", c!"raid.2", c!"raid.3"] obeys_raidLines4_3_object (raidLines4.lines.getD i noLine) :=
  (all_cons (by intro b b' hb hb' x hx line l; kernel_rfl)
    (List.forall_mem_nil _))

theorem obeys_raidLines4_3 : ∀ v, [Version.F14].contains v = true → Command.Obeys (F14_Raid.cls F14_RaidData.cls) raidLines4 v :=
  obeys_of obeys_raidLines4_3_object [0] [9] (obeys_raidLines4_3_base _) (all_cons obeys_raidLines4_3_start (List.forall_mem_nil _)) (obeys_raidLines4_3_lines _) (by decide +kernel)

def obeys_raidLines4_4_object (l : Nat) : Ns := [(c!"lineno", .int l), (c!"device", .int 1), (c!"fstype", .str c!""), (c!"level", .str c!"RAID1"), (c!"format", .bool true), (c!"spares", .int 0), (c!"preexist", .bool false), (c!"mountpoint", .str c!"/x"), (c!"members", .list [c!"raid.1", c!"raid.2", c!"raid.3"]), (c!"fsopts", .str c!""), (c!"fsprofile", .str c!""), (c!"encrypted", .bool false), (c!"passphrase", .str c!""), (c!"escrowcert", .str c!""), (c!"backuppassphrase", .bool false), (c!"label", .str c!""), (c!"mntpoint", .list [c!"/x"]), (c!"partitions", .list [c!"raid.1", c!"raid.2", c!"raid.3"])]

theorem obeys_raidLines4_4_base (n : Str) : Command.FirstBase (F15_Raid.cls F15_RaidData.cls) n [c!"/x", c!"--device=1", c!"--level=RAID1", c!"raid.1", c!"raid.2", c!"raid.3"] obeys_raidLines4_4_object := by
  intro b b' hb hb' line l; kernel_rfl

theorem obeys_raidLines4_4_start : Command.FirstStart (F15_Raid.cls F15_RaidData.cls) obeys_raidLines4_4_object (raidLines4.start.getD 0 ([], [])).2 := fun _ => .inl ⟨fun _ => rfl, (all_cons (by kernel_rfl) (all_cons (by kernel_rfl) (all_cons (by kernel_rfl) (all_cons (by kernel_rfl) (all_cons (by kernel_rfl) (all_cons (by kernel_rfl) (all_cons (by kernel_rfl) (List.forall_mem_nil _))))))))⟩

theorem obeys_raidLines4_4_lines (n : Str) : ∀ i ∈ [9], Command.FirstLine (F15_Raid.cls F15_RaidData.cls) n [c!"/x", c!"--device=1", c!"--level=RAID1", c!"raid.1", c!"raid.2", c!"raid.3"] obeys_raidLines4_4_object (raidLines4.lines.getD i noLine) :=
  (all_cons (by intro b b' hb hb' x hx line l; kernel_rfl)
    (List.forall_mem_nil _))

theorem obeys_raidLines4_4 : ∀ v, [Version.F15, Version.F16, Version.F17].contains v = true → Command.Obeys (F15_Raid.cls F15_RaidData.cls) raidLines4 v :=
  obeys_of obeys_raidLines4_4_object [0] [9] (obeys_raidLines4_4_base _) (all_cons obeys_raidLines4_4_start (List.forall_mem_nil _)) (obeys_raidLines4_4_lines _) (by decide +kernel)

def obeys_raidLines4_5_object (l : Nat) : Ns := [(c!"lineno", .int l), (c!"device", .int 1), (c!"fstype", .str c!""), (c!"level", .str c!"RAID1"), (c!"format", .bool true), (c!"spares", .int 0), (c!"preexist", .bool false), (c!"mountpoint", .str c!"/x"), (c!"members", .list [c!"raid.1", c!"raid.2", c!"raid.3"]), (c!"fsopts", .str c!""), (c!"fsprofile", .str c!""), (c!"encrypted", .bool false), (c!"passphrase", .str c!""), (c!"escrowcert", .str c!""), (c!"backuppassphrase", .bool false), (c!"label", .str c!""), (c!"cipher", .str c!""), (c!"mntpoint", .list [c!"/x"]), (c!"partitions", .list [c!"raid.1", c!"raid.2", c!"raid.3"])]

theorem obeys_raidLines4_5_base (n : Str) : Command.FirstBase (F18_Raid.cls F18_RaidData.cls) n [c!"/x", c!"--device=1", c!"--level=RAID1", c!"raid.1", c!"raid.2", c!"raid.3"] obeys_raidLines4_5_object := by
  intro b b' hb hb' line l; kernel_rfl

theorem obeys_raidLines4_5_start : Command.FirstStart (F18_Raid.cls F18_RaidData.cls) obeys_raidLines4_5_object (raidLines4.start.getD 0 ([], [])).2 := fun _ => .inl ⟨fun _ => rfl, (all_cons (by kernel_rfl) (all_cons (by kernel_rfl) (all_cons (by kernel_rfl) (all_cons (by kernel_rfl) (all_cons (by kernel_rfl) (all_cons (by kernel_rfl) (all_cons (by kernel_rfl) (List.forall_mem_nil _))))))))⟩

theorem obeys_raidLines4_5_lines (n : Str) : ∀ i ∈ [2, 9], Command.FirstLine (F18_Raid.cls F18_RaidData.cls) n [c!"/x", c!"--device=1", c!"--level=RAID1", c!"raid.1", c!"raid.2", c!"raid.3"] obeys_raidLines4_5_object (raidLines4.lines.getD i noLine) :=
  (all_cons (by intro b b' hb hb' x hx line l; kernel_rfl)
    (all_cons (by intro b b' hb hb' x hx line l; kernel_rfl)
    (List.forall_mem_nil _)))

theorem obeys_raidLines4_5 : ∀ v, [Version.F18].contains v = true → Command.Obeys (F18_Raid.cls F18_RaidData.cls) raidLines4 v :=
  obeys_of obeys_raidLines4_5_object [0] [2, 9] (obeys_raidLines4_5_base _) (all_cons obeys_raidLines4_5_start (List.forall_mem_nil _)) (obeys_raidLines4_5_lines _) (by decide +kernel)

def obeys_raidLines4_6_object (l : Nat) : Ns := [(c!"lineno", .int l), (c!"device", .str c!"1"), (c!"fstype", .str c!""), (c!"level", .str c!"RAID1"), (c!"format", .bool true), (c!"spares", .int 0), (c!"preexist", .bool false), (c!"mountpoint", .str c!"/x"), (c!"members", .list [c!"raid.1", c!"raid.2", c!"raid.3"]), (c!"fsopts", .str c!""), (c!"fsprofile", .str c!""), (c!"encrypted", .bool false), (c!"passphrase", .str c!""), (c!"escrowcert", .str c!""), (c!"backuppassphrase", .bool false), (c!"label", .str c!""), (c!"cipher", .str c!""), (c!"mntpoint", .list [c!"/x"]), (c!"partitions", .list [c!"raid.1", c!"raid.2", c!"raid.3"])]

theorem obeys_raidLines4_6_base (n : Str) : Command.FirstBase (F19_Raid.cls F18_RaidData.cls) n [c!"/x", c!"--device=1", c!"--level=RAID1", c!"raid.1", c!"raid.2", c!"raid.3"] obeys_raidLines4_6_object := by
  intro b b' hb hb' line l; kernel_rfl

theorem obeys_raidLines4_6_start : Command.FirstStart (F19_Raid.cls F18_RaidData.cls) obeys_raidLines4_6_object (raidLines4.start.getD 1 ([], [])).2 := fun _ => .inl ⟨fun _ => rfl, (all_cons (by kernel_rfl) (all_cons (by kernel_rfl) (all_cons (by kernel_rfl) (all_cons (by kernel_rfl) (all_cons (by kernel_rfl) (all_cons (by kernel_rfl) (all_cons (by kernel_rfl) (List.forall_mem_nil _))))))))⟩

theorem obeys_raidLines4_6_lines (n : Str) : ∀ i ∈ [0, 3, 9], Command.FirstLine (F19_Raid.cls F18_RaidData.cls) n [c!"/x", c!"--device=1", c!"--level=RAID1", c!"raid.1", c!"raid.2", c!"raid.3"] obeys_raidLines4_6_object (raidLines4.lines.getD i noLine) :=
  (all_cons (by intro b b' hb hb' x hx line l; kernel_rfl)
    (all_cons (by intro b b' hb hb' x hx line l; kernel_rfl)
    (all_cons (by intro b b' hb hb' x hx line l; kernel_rfl)
    (List.forall_mem_nil _))))

theorem obeys_raidLines4_6 : ∀ v, [Version.F19].contains v = true → Command.Obeys (F19_Raid.cls F18_RaidData.cls) raidLines4 v :=
  obeys_of obeys_raidLines4_6_object [1] [0, 3, 9] (obeys_raidLines4_6_base _) (all_cons obeys_raidLines4_6_start (List.forall_mem_nil _)) (obeys_raidLines4_6_lines _) (by decide +kernel)

def obeys_raidLines4_7_object (l : Nat) : Ns := [(c!"lineno", .int l), (c!"device", .str c!"1"), (c!"fstype", .str c!""), (c!"level", .str c!"RAID1"), (c!"format", .bool true), (c!"spares", .int 0), (c!"preexist", .bool false), (c!"mountpoint", .str c!"/x"), (c!"members", .list [c!"raid.1", c!"raid.2", c!"raid.3"]), (c!"fsopts", .str c!""), (c!"fsprofile", .str c!""), (c!"encrypted", .bool false), (c!"passphrase", .str c!""), (c!"escrowcert", .str c!""), (c!"backuppassphrase", .bool false), (c!"label", .str c!""), (c!"cipher", .str c!""), (c!"mntpoint", .list [c!"/x"]), (c!"partitions", .list [c!"raid.1", c!"raid.2", c!"raid.3"])]

theorem obeys_raidLines4_7_base (n : Str) : Command.FirstBase (F20_Raid.cls F18_RaidData.cls) n [c!"/x", c!"--device=1", c!"--level=RAID1", c!"raid.1", c!"raid.2", c!"raid.3"] obeys_raidLines4_7_object := by
  intro b b' hb hb' line l; rcases hb with rfl | rfl <;> rcases hb' with rfl | rfl <;> kernel_rfl

theorem obeys_raidLines4_7_start : Command.FirstStart (F20_Raid.cls F18_RaidData.cls) obeys_raidLines4_7_object (raidLines4.start.getD 1 ([], [])).2 := fun _ => .inl ⟨fun _ => rfl, (all_cons (by kernel_rfl) (all_cons (by kernel_rfl) (all_cons (by kernel_rfl) (all_cons (by kernel_rfl) (all_cons (by kernel_rfl) (all_cons (by kernel_rfl) (all_cons (by kernel_rfl) (List.forall_mem_nil _))))))))⟩

theorem obeys_raidLines4_7_lines (n : Str) : ∀ i ∈ [9], Command.FirstLine (F20_Raid.cls F18_RaidData.cls) n [c!"/x", c!"--device=1", c!"--level=RAID1", c!"raid.1", c!"raid.2", c!"raid.3"] obeys_raidLines4_7_object (raidLines4.lines.getD i noLine) :=
  (all_cons (by intro b b' hb hb' x hx line l; rcases hb with rfl | rfl <;> rcases hb' with rfl | rfl <;> kernel_rfl)
    (List.forall_mem_nil _))

theorem obeys_raidLines4_7 : ∀ v, [Version.F20, Version.F21, Version.F22].contains v = true → Command.Obeys (F20_Raid.cls F18_RaidData.cls) raidLines4 v :=
  obeys_of obeys_raidLines4_7_object [1] [9] (obeys_raidLines4_7_base _) (all_cons obeys_raidLines4_7_start (List.forall_mem_nil _)) (obeys_raidLines4_7_lines _) (by decide +kernel)

def obeys_raidLines4_8_object (l : Nat) : Ns := [(c!"lineno", .int l), (c!"device", .str c!"1"), (c!"fstype", .str c!""), (c!"level", .str c!"RAID1"), (c!"format", .bool true), (c!"spares", .int 0), (c!"preexist", .bool false), (c!"mountpoint", .str c!"/x"), (c!"members", .list [c!"raid.1", c!"raid.2", c!"raid.3"]), (c!"fsopts", .str c!""), (c!"fsprofile", .str c!""), (c!"encrypted", .bool false), (c!"passphrase", .str c!""), (c!"escrowcert", .str c!""), (c!"backuppassphrase", .bool false), (c!"label", .str c!""), (c!"cipher", .str c!""), (c!"mkfsopts", .str c!""), (c!"mntpoint", .list [c!"/x"]), (c!"partitions", .list [c!"raid.1", c!"raid.2", c!"raid.3"])]

theorem obeys_raidLines4_8_base (n : Str) : Command.FirstBase (F23_Raid.cls F23_RaidData.cls) n [c!"/x", c!"--device=1", c!"--level=RAID1", c!"raid.1", c!"raid.2", c!"raid.3"] obeys_raidLines4_8_object := by
  intro b b' hb hb' line l; rcases hb with rfl | rfl <;> rcases hb' with rfl | rfl <;> kernel_rfl

theorem obeys_raidLines4_8_start : Command.FirstStart (F23_Raid.cls F23_RaidData.cls) obeys_raidLines4_8_object (raidLines4.start.getD 1 ([], [])).2 := fun _ => .inl ⟨fun _ => rfl, (all_cons (by kernel_rfl) (all_cons (by kernel_rfl) (all_cons (by kernel_rfl) (all_cons (by kernel_rfl) (all_cons (by kernel_rfl) (all_cons (by kernel_rfl) (all_cons (by kernel_rfl) (List.forall_mem_nil _))))))))⟩

theorem obeys_raidLines4_8_lines (n : Str) : ∀ i ∈ [9], Command.FirstLine (F23_Raid.cls F23_RaidData.cls) n [c!"/x", c!"--device=1", c!"--level=RAID1", c!"raid.1", c!"raid.2", c!"raid.3"] obeys_raidLines4_8_object (raidLines4.lines.getD i noLine) :=
  (all_cons (by intro b b' hb hb' x hx line l; rcases hb with rfl | rfl <;> rcases hb' with rfl | rfl <;> kernel_rfl)
    (List.forall_mem_nil _))

theorem obeys_raidLines4_8 : ∀ v, [Version.F23, Version.F24].contains v = true → Command.Obeys (F23_Raid.cls F23_RaidData.cls) raidLines4 v :=
  obeys_of obeys_raidLines4_8_object [1] [9] (obeys_raidLines4_8_base _) (all_cons obeys_raidLines4_8_start (List.forall_mem_nil _)) (obeys_raidLines4_8_lines _) (by decide +kernel)

def obeys_raidLines4_9_object (l : Nat) : Ns := [(c!"lineno", .int l), (c!"device", .str c!"1"), (c!"fstype", .str c!""), (c!"level", .str c!"RAID1"), (c!"format", .bool true), (c!"spares", .int 0), (c!"preexist", .bool false), (c!"mountpoint", .str c!"/x"), (c!"members", .list [c!"raid.1", c!"raid.2", c!"raid.3"]), (c!"fsopts", .str c!""), (c!"fsprofile", .str c!""), (c!"encrypted", .bool false), (c!"passphrase", .str c!""), (c!"escrowcert", .str c!""), (c!"backuppassphrase", .bool false), (c!"label", .str c!""), (c!"cipher", .str c!""), (c!"mkfsopts", .str c!""), (c!"chunk_size", .none), (c!"mntpoint", .list [c!"/x"]), (c!"partitions", .list [c!"raid.1", c!"raid.2", c!"raid.3"])]

theorem obeys_raidLines4_9_base (n : Str) : Command.FirstBase (F25_Raid.cls F25_RaidData.cls) n [c!"/x", c!"--device=1", c!"--level=RAID1", c!"raid.1", c!"raid.2", c!"raid.3"] obeys_raidLines4_9_object := by
  intro b b' hb hb' line l; rcases hb with rfl | rfl <;> rcases hb' with rfl | rfl <;> kernel_rfl

theorem obeys_raidLines4_9_start : Command.FirstStart (F25_Raid.cls F25_RaidData.cls) obeys_raidLines4_9_object (raidLines4.start.getD 1 ([], [])).2 := fun _ => .inl ⟨fun _ => rfl, (all_cons (by kernel_rfl) (all_cons (by kernel_rfl) (all_cons (by kernel_rfl) (all_cons (by kernel_rfl) (all_cons (by kernel_rfl) (all_cons (by kernel_rfl) (all_cons (by kernel_rfl) (List.forall_mem_nil _))))))))⟩

theorem obeys_raidLines4_9_lines (n : Str) : ∀ i ∈ [9], Command.FirstLine (F25_Raid.cls F25_RaidData.cls) n [c!"/x", c!"--device=1", c!"--level=RAID1", c!"raid.1", c!"raid.2", c!"raid.3"] obeys_raidLines4_9_object (raidLines4.lines.getD i noLine) :=
  (all_cons (by intro b b' hb hb' x hx line l; rcases hb with rfl | rfl <;> rcases hb' with rfl | rfl <;> kernel_rfl)
    (List.forall_mem_nil _))

theorem obeys_raidLines4_9 : ∀ v, [Version.F25, Version.F26, Version.F27, Version.F28].contains v = true → Command.Obeys (F25_Raid.cls F25_RaidData.cls) raidLines4 v :=
  obeys_of obeys_raidLines4_9_object [1] [9] (obeys_raidLines4_9_base _) (all_cons obeys_raidLines4_9_start (List.forall_mem_nil _)) (obeys_raidLines4_9_lines _) (by decide +kernel)

def obeys_raidLines4_10_object (l : Nat) : Ns := [(c!"lineno", .int l), (c!"device", .str c!"1"), (c!"fstype", .str c!""), (c!"level", .str c!"RAID1"), (c!"format", .bool true), (c!"spares", .int 0), (c!"preexist", .bool false), (c!"mountpoint", .str c!"/x"), (c!"members", .list [c!"raid.1", c!"raid.2", c!"raid.3"]), (c!"fsopts", .str c!""), (c!"fsprofile", .str c!""), (c!"encrypted", .bool false), (c!"passphrase", .str c!""), (c!"escrowcert", .str c!""), (c!"backuppassphrase", .bool false), (c!"label", .str c!""), (c!"cipher", .str c!""), (c!"mkfsopts", .str c!""), (c!"chunk_size", .none), (c!"luks_version", .str c!""), (c!"pbkdf", .str c!""), (c!"pbkdf_memory", .int 0), (c!"pbkdf_time", .int 0), (c!"pbkdf_iterations", .int 0), (c!"mntpoint", .list [c!"/x"]), (c!"partitions", .list [c!"raid.1", c!"raid.2", c!"raid.3"])]

theorem obeys_raidLines4_10_base (n : Str) : Command.FirstBase (F29_Raid.cls F29_RaidData.cls) n [c!"/x", c!"--device=1", c!"--level=RAID1", c!"raid.1", c!"raid.2", c!"raid.3"] obeys_raidLines4_10_object := by
  intro b b' hb hb' line l; rcases hb with rfl | rfl <;> rcases hb' with rfl | rfl <;> kernel_rfl

theorem obeys_raidLines4_10_start : Command.FirstStart (F29_Raid.cls F29_RaidData.cls) obeys_raidLines4_10_object (raidLines4.start.getD 1 ([], [])).2 := fun _ => .inl ⟨fun _ => rfl, (all_cons (by kernel_rfl) (all_cons (by kernel_rfl) (all_cons (by kernel_rfl) (all_cons (by kernel_rfl) (all_cons (by kernel_rfl) (all_cons (by kernel_rfl) (all_cons (by kernel_rfl) (List.forall_mem_nil _))))))))⟩

theorem obeys_raidLines4_10_lines (n : Str) : ∀ i ∈ [0, 3, 4, 5, 6, 7, 9, 10, 11], Command.FirstLine (F29_Raid.cls F29_RaidData.cls) n [c!"/x", c!"--device=1", c!"--level=RAID1", c!"raid.1", c!"raid.2", c!"raid.3"] obeys_raidLines4_10_object (raidLines4.lines.getD i noLine) :=
  (all_cons (by intro b b' hb hb' x hx line l; rcases hb with rfl | rfl <;> rcases hb' with rfl | rfl <;> kernel_rfl)
    (all_cons (by intro b b' hb hb' x hx line l; rcases hb with rfl | rfl <;> rcases hb' with rfl | rfl <;> kernel_rfl)
    (all_cons (by intro b b' hb hb' x hx line l; rcases hb with rfl | rfl <;> rcases hb' with rfl | rfl <;> kernel_rfl)
    (all_cons (by intro b b' hb hb' x hx line l; rcases hb with rfl | rfl <;> rcases hb' with rfl | rfl <;> kernel_rfl)
    (all_cons (by intro b b' hb hb' x hx line l; rcases hb with rfl | rfl <;> rcases hb' with rfl | rfl <;> kernel_rfl)
    (all_cons (by intro b b' hb hb' x hx line l; rcases hb with rfl | rfl <;> rcases hb' with rfl | rfl <;> kernel_rfl)
    (all_cons (by intro b b' hb hb' x hx line l; rcases hb with rfl | rfl <;> rcases hb' with rfl | rfl <;> kernel_rfl)
    (all_cons (by intro b b' hb hb' x hx line l; rcases hb with rfl | rfl <;> rcases hb' with rfl | rfl <;> kernel_rfl)
    (all_cons (by intro b b' hb hb' x hx line l; rcases hb with rfl | rfl <;> rcases hb' with rfl | rfl <;> kernel_rfl)
    (List.forall_mem_nil _))))))))))

theorem obeys_raidLines4_10 : ∀ v, [Version.F29, Version.F30, Version.F31, Version.F32, Version.F33, Version.F34].contains v = true → Command.Obeys (F29_Raid.cls F29_RaidData.cls) raidLines4 v :=
  obeys_of obeys_raidLines4_10_object [1] [0, 3, 4, 5, 6, 7, 9, 10, 11] (obeys_raidLines4_10_base _) (all_cons obeys_raidLines4_10_start (List.forall_mem_nil _)) (obeys_raidLines4_10_lines _) (by decide +kernel)

def obeys_raidLines4_11_object (l : Nat) : Ns := [(c!"lineno", .int l), (c!"device", .int 1), (c!"fstype", .str c!""), (c!"level", .str c!"RAID1"), (c!"format", .bool true), (c!"spares", .int 0), (c!"preexist", .bool false), (c!"mountpoint", .str c!"/x"), (c!"members", .list [c!"raid.1", c!"raid.2", c!"raid.3"]), (c!"fsopts", .str c!""), (c!"bytesPerInode", .int 4096), (c!"mntpoint", .list [c!"/x"]), (c!"partitions", .list [c!"raid.1", c!"raid.2", c!"raid.3"])]

theorem obeys_raidLines4_11_base (n : Str) : Command.FirstBase (F7_Raid.cls F7_RaidData.cls) n [c!"/x", c!"--device=1", c!"--level=RAID1", c!"raid.1", c!"raid.2", c!"raid.3"] obeys_raidLines4_11_object := by
  intro b b' hb hb' line l; kernel_rfl

theorem obeys_raidLines4_11_start : Command.FirstStart (F7_Raid.cls F7_RaidData.cls) obeys_raidLines4_11_object (raidLines4.start.getD 2 ([], [])).2 := fun _ => .inl ⟨fun _ => rfl, (all_cons (by kernel_rfl) (all_cons (by kernel_rfl) (all_cons (by kernel_rfl) (all_cons (by kernel_rfl) (all_cons (by kernel_rfl) (all_cons (by kernel_rfl) (all_cons (by kernel_rfl) (all_cons (by kernel_rfl) (List.forall_mem_nil _)))))))))⟩

theorem obeys_raidLines4_11_lines (n : Str) : ∀ i ∈ [9], Command.FirstLine (F7_Raid.cls F7_RaidData.cls) n [c!"/x", c!"--device=1", c!"--level=RAID1", c!"raid.1", c!"raid.2", c!"raid.3"] obeys_raidLines4_11_object (raidLines4.lines.getD i noLine) :=
  (all_cons (by intro b b' hb hb' x hx line l; kernel_rfl)
    (List.forall_mem_nil _))

theorem obeys_raidLines4_11 : ∀ v, [Version.F7, Version.F8].contains v = true → Command.Obeys (F7_Raid.cls F7_RaidData.cls) raidLines4 v :=
  obeys_of obeys_raidLines4_11_object [2] [9] (obeys_raidLines4_11_base _) (all_cons obeys_raidLines4_11_start (List.forall_mem_nil _)) (obeys_raidLines4_11_lines _) (by decide +kernel)

def obeys_raidLines4_12_object (l : Nat) : Ns := [(c!"lineno", .int l), (c!"device", .int 1), (c!"fstype", .str c!""), (c!"level", .str c!"RAID1"), (c!"format", .bool true), (c!"spares", .int 0), (c!"preexist", .bool false), (c!"mountpoint", .str c!"/x"), (c!"members", .list [c!"raid.1", c!"raid.2", c!"raid.3"]), (c!"mntpoint", .list [c!"/x"]), (c!"partitions", .list [c!"raid.1", c!"raid.2", c!"raid.3"])]

theorem obeys_raidLines4_12_base (n : Str) : Command.FirstBase (FC3_Raid.cls FC3_RaidData.cls) n [c!"/x", c!"--device=1", c!"--level=RAID1", c!"raid.1", c!"raid.2", c!"raid.3"] obeys_raidLines4_12_object := by
  intro b b' hb hb' line l; kernel_rfl

theorem obeys_raidLines4_12_start : Command.FirstStart (FC3_Raid.cls FC3_RaidData.cls) obeys_raidLines4_12_object (raidLines4.start.getD 0 ([], [])).2 := fun _ => .inl ⟨fun _ => rfl, (all_cons (by kernel_rfl) (all_cons (by kernel_rfl) (all_cons (by kernel_rfl) (all_cons (by kernel_rfl) (all_cons (by kernel_rfl) (all_cons (by kernel_rfl) (all_cons (by kernel_rfl) (List.forall_mem_nil _))))))))⟩

theorem obeys_raidLines4_12_lines (n : Str) : ∀ i ∈ [1, 4, 5, 6, 9, 10, 11], Command.FirstLine (FC3_Raid.cls FC3_RaidData.cls) n [c!"/x", c!"--device=1", c!"--level=RAID1", c!"raid.1", c!"raid.2", c!"raid.3"] obeys_raidLines4_12_object (raidLines4.lines.getD i noLine) :=
  (all_cons (by intro b b' hb hb' x hx line l; kernel_rfl)
    (all_cons (by intro b b' hb hb' x hx line l; kernel_rfl)
    (all_cons (by intro b b' hb hb' x hx line l; kernel_rfl)
    (all_cons (by intro b b' hb hb' x hx line l; kernel_rfl)
    (all_cons (by intro b b' hb hb' x hx line l; kernel_rfl)
    (all_cons (by intro b b' hb hb' x hx line l; kernel_rfl)
    (all_cons (by intro b b' hb hb' x hx line l; kernel_rfl)
    (List.forall_mem_nil _))))))))

theorem obeys_raidLines4_12 : ∀ v, [Version.RHEL3, Version.FC3, Version.RHEL4].contains v = true → Command.Obeys (FC3_Raid.cls FC3_RaidData.cls) raidLines4 v :=
  obeys_of obeys_raidLines4_12_object [0] [1, 4, 5, 6, 9, 10, 11] (obeys_raidLines4_12_base _) (all_cons obeys_raidLines4_12_start (List.forall_mem_nil _)) (obeys_raidLines4_12_lines _) (by decide +kernel)

def obeys_raidLines4_13_object (l : Nat) : Ns := [(c!"lineno", .int l), (c!"device", .int 1), (c!"fstype", .str c!""), (c!"level", .str c!"RAID1"), (c!"format", .bool true), (c!"spares", .int 0), (c!"preexist", .bool false), (c!"mountpoint", .str c!"/x"), (c!"members", .list [c!"raid.1", c!"raid.2", c!"raid.3"]), (c!"fsopts", .str c!""), (c!"mntpoint", .list [c!"/x"]), (c!"partitions", .list [c!"raid.1", c!"raid.2", c!"raid.3"])]

theorem obeys_raidLines4_13_base (n : Str) : Command.FirstBase (FC4_Raid.cls FC4_RaidData.cls) n [c!"/x", c!"--device=1", c!"--level=RAID1", c!"raid.1", c!"raid.2", c!"raid.3"] obeys_raidLines4_13_object := by
  intro b b' hb hb' line l; kernel_rfl

theorem obeys_raidLines4_13_start : Command.FirstStart (FC4_Raid.cls FC4_RaidData.cls) obeys_raidLines4_13_object (raidLines4.start.getD 0 ([], [])).2 := fun _ => .inl ⟨fun _ => rfl, (all_cons (by kernel_rfl) (all_cons (by kernel_rfl) (all_cons (by kernel_rfl) (all_cons (by kernel_rfl) (all_cons (by kernel_rfl) (all_cons (by kernel_rfl) (all_cons (by kernel_rfl) (List.forall_mem_nil _))))))))⟩

theorem obeys_raidLines4_13_lines (n : Str) : ∀ i ∈ [9], Command.FirstLine (FC4_Raid.cls FC4_RaidData.cls) n [c!"/x", c!"--device=1", c!"--level=RAID1", c!"raid.1", c!"raid.2", c!"raid.3"] obeys_raidLines4_13_object (raidLines4.lines.getD i noLine) :=
  (all_cons (by intro b b' hb hb' x hx line l; kernel_rfl)
    (List.forall_mem_nil _))

theorem obeys_raidLines4_13 : ∀ v, [Version.FC4].contains v = true → Command.Obeys (FC4_Raid.cls FC4_RaidData.cls) raidLines4 v :=
  obeys_of obeys_raidLines4_13_object [0] [9] (obeys_raidLines4_13_base _) (all_cons obeys_raidLines4_13_start (List.forall_mem_nil _)) (obeys_raidLines4_13_lines _) (by decide +kernel)

def obeys_raidLines4_14_object (l : Nat) : Ns := [(c!"lineno", .int l), (c!"device", .int 1), (c!"fstype", .str c!""), (c!"level", .str c!"RAID1"), (c!"format", .bool true), (c!"spares", .int 0), (c!"preexist", .bool false), (c!"mountpoint", .str c!"/x"), (c!"members", .list [c!"raid.1", c!"raid.2", c!"raid.3"]), (c!"fsopts", .str c!""), (c!"bytesPerInode", .int 4096), (c!"mntpoint", .list [c!"/x"]), (c!"partitions", .list [c!"raid.1", c!"raid.2", c!"raid.3"])]

theorem obeys_raidLines4_14_base (n : Str) : Command.FirstBase (FC5_Raid.cls FC5_RaidData.cls) n [c!"/x", c!"--device=1", c!"--level=RAID1", c!"raid.1", c!"raid.2", c!"raid.3"] obeys_raidLines4_14_object := by
  intro b b' hb hb' line l; kernel_rfl

theorem obeys_raidLines4_14_start : Command.FirstStart (FC5_Raid.cls FC5_RaidData.cls) obeys_raidLines4_14_object (raidLines4.start.getD 2 ([], [])).2 := fun _ => .inl ⟨fun _ => rfl, (all_cons (by kernel_rfl) (all_cons (by kernel_rfl) (all_cons (by kernel_rfl) (all_cons (by kernel_rfl) (all_cons (by kernel_rfl) (all_cons (by kernel_rfl) (all_cons (by kernel_rfl) (all_cons (by kernel_rfl) (List.forall_mem_nil _)))))))))⟩

theorem obeys_raidLines4_14_lines (n : Str) : ∀ i ∈ [8, 9], Command.FirstLine (FC5_Raid.cls FC5_RaidData.cls) n [c!"/x", c!"--device=1", c!"--level=RAID1", c!"raid.1", c!"raid.2", c!"raid.3"] obeys_raidLines4_14_object (raidLines4.lines.getD i noLine) :=
  (all_cons (by intro b b' hb hb' x hx line l; kernel_rfl)
    (all_cons (by intro b b' hb hb' x hx line l; kernel_rfl)
    (List.forall_mem_nil _)))

theorem obeys_raidLines4_14 : ∀ v, [Version.FC5, Version.FC6].contains v = true → Command.Obeys (FC5_Raid.cls FC5_RaidData.cls) raidLines4 v :=
  obeys_of obeys_raidLines4_14_object [2] [8, 9] (obeys_raidLines4_14_base _) (all_cons obeys_raidLines4_14_start (List.forall_mem_nil _)) (obeys_raidLines4_14_lines _) (by decide +kernel)

def obeys_raidLines4_15_object (l : Nat) : Ns := [(c!"lineno", .int l), (c!"device", .int 1), (c!"fstype", .str c!""), (c!"level", .str c!"RAID1"), (c!"format", .bool true), (c!"spares", .int 0), (c!"preexist", .bool false), (c!"mountpoint", .str c!"/x"), (c!"members", .list [c!"raid.1", c!"raid.2", c!"raid.3"]), (c!"fsopts", .str c!""), (c!"bytesPerInode", .int 4096), (c!"encrypted", .bool false), (c!"passphrase", .str c!""), (c!"mntpoint", .list [c!"/x"]), (c!"partitions", .list [c!"raid.1", c!"raid.2", c!"raid.3"])]

theorem obeys_raidLines4_15_base (n : Str) : Command.FirstBase (RHEL5_Raid.cls RHEL5_RaidData.cls) n [c!"/x", c!"--device=1", c!"--level=RAID1", c!"raid.1", c!"raid.2", c!"raid.3"] obeys_raidLines4_15_object := by
  intro b b' hb hb' line l; kernel_rfl

theorem obeys_raidLines4_15_start : Command.FirstStart (RHEL5_Raid.cls RHEL5_RaidData.cls) obeys_raidLines4_15_object (raidLines4.start.getD 2 ([], [])).2 := fun _ => .inl ⟨fun _ => rfl, (all_cons (by kernel_rfl) (all_cons (by kernel_rfl) (all_cons (by kernel_rfl) (all_cons (by kernel_rfl) (all_cons (by kernel_rfl) (all_cons (by kernel_rfl) (all_cons (by kernel_rfl) (all_cons (by kernel_rfl) (List.forall_mem_nil _)))))))))⟩

theorem obeys_raidLines4_15_lines (n : Str) : ∀ i ∈ [7, 9], Command.FirstLine (RHEL5_Raid.cls RHEL5_RaidData.cls) n [c!"/x", c!"--device=1", c!"--level=RAID1", c!"raid.1", c!"raid.2", c!"raid.3"] obeys_raidLines4_15_object (raidLines4.lines.getD i noLine) :=
  (all_cons (by intro b b' hb hb' x hx line l; kernel_rfl)
    (all_cons (by intro b b' hb hb' x hx line l; kernel_rfl)
    (List.forall_mem_nil _)))

theorem obeys_raidLines4_15 : ∀ v, [Version.RHEL5].contains v = true → Command.Obeys (RHEL5_Raid.cls RHEL5_RaidData.cls) raidLines4 v :=
  obeys_of obeys_raidLines4_15_object [2] [7, 9] (obeys_raidLines4_15_base _) (all_cons obeys_raidLines4_15_start (List.forall_mem_nil _)) (obeys_raidLines4_15_lines _) (by decide +kernel)

def obeys_raidLines4_16_object (l : Nat) : Ns := [(c!"lineno", .int l), (c!"device", .int 1), (c!"fstype", .str c!""), (c!"level", .str c!"RAID1"), (c!"format", .bool true), (c!"spares", .int 0), (c!"preexist", .bool false), (c!"mountpoint", .str c!"/x"), (c!"members", .list [c!"raid.1", c!"raid.2", c!"raid.3"]), (c!"fsopts", .str c!""), (c!"fsprofile", .str c!""), (c!"encrypted", .bool false), (c!"passphrase", .str c!""), (c!"escrowcert", .str c!""), (c!"backuppassphrase", .bool false), (c!"cipher", .str c!""), (c!"mntpoint", .list [c!"/x"]), (c!"partitions", .list [c!"raid.1", c!"raid.2", c!"raid.3"])]

theorem obeys_raidLines4_16_base (n : Str) : Command.FirstBase (RHEL6_Raid.cls RHEL6_RaidData.cls) n [c!"/x", c!"--device=1", c!"--level=RAID1", c!"raid.1", c!"raid.2", c!"raid.3"] obeys_raidLines4_16_object := by
  intro b b' hb hb' line l; kernel_rfl

theorem obeys_raidLines4_16_start : Command.FirstStart (RHEL6_Raid.cls RHEL6_RaidData.cls) obeys_raidLines4_16_object (raidLines4.start.getD 0 ([], [])).2 := fun _ => .inl ⟨fun _ => rfl, (all_cons (by kernel_rfl) (all_cons (by kernel_rfl) (all_cons (by kernel_rfl) (all_cons (by kernel_rfl) (all_cons (by kernel_rfl) (all_cons (by kernel_rfl) (all_cons (by kernel_rfl) (List.forall_mem_nil _))))))))⟩

theorem obeys_raidLines4_16_lines (n : Str) : ∀ i ∈ [9], Command.FirstLine (RHEL6_Raid.cls RHEL6_RaidData.cls) n [c!"/x", c!"--device=1", c!"--level=RAID1", c!"raid.1", c!"raid.2", c!"raid.3"] obeys_raidLines4_16_object (raidLines4.lines.getD i noLine) :=
  (all_cons (by intro b b' hb hb' x hx line l; kernel_rfl)
    (List.forall_mem_nil _))

theorem obeys_raidLines4_16 : ∀ v, [Version.RHEL6].contains v = true → Command.Obeys (RHEL6_Raid.cls RHEL6_RaidData.cls) raidLines4 v :=
  obeys_of obeys_raidLines4_16_object [0] [9] (obeys_raidLines4_16_base _) (all_cons obeys_raidLines4_16_start (List.forall_mem_nil _)) (obeys_raidLines4_16_lines _) (by decide +kernel)

def obeys_raidLines4_17_object (l : Nat) : Ns := [(c!"lineno", .int l), (c!"device", .str c!"1"), (c!"fstype", .str c!""), (c!"level", .str c!"RAID1"), (c!"format", .bool true), (c!"spares", .int 0), (c!"preexist", .bool false), (c!"mountpoint", .str c!"/x"), (c!"members", .list [c!"raid.1", c!"raid.2", c!"raid.3"]), (c!"fsopts", .str c!""), (c!"fsprofile", .str c!""), (c!"encrypted", .bool false), (c!"passphrase", .str c!""), (c!"escrowcert", .str c!""), (c!"backuppassphrase", .bool false), (c!"label", .str c!""), (c!"cipher", .str c!""), (c!"mkfsopts", .str c!""), (c!"chunk_size", .none), (c!"mntpoint", .list [c!"/x"]), (c!"partitions", .list [c!"raid.1", c!"raid.2", c!"raid.3"])]

theorem obeys_raidLines4_17_base (n : Str) : Command.FirstBase (RHEL7_Raid.cls RHEL7_RaidData.cls) n [c!"/x", c!"--device=1", c!"--level=RAID1", c!"raid.1", c!"raid.2", c!"raid.3"] obeys_raidLines4_17_object := by
  intro b b' hb hb' line l; rcases hb with rfl | rfl <;> rcases hb' with rfl | rfl <;> kernel_rfl

theorem obeys_raidLines4_17_start : Command.FirstStart (RHEL7_Raid.cls RHEL7_RaidData.cls) obeys_raidLines4_17_object (raidLines4.start.getD 1 ([], [])).2 := fun _ => .inl ⟨fun _ => rfl, (all_cons (by kernel_rfl) (all_cons (by kernel_rfl) (all_cons (by kernel_rfl) (all_cons (by kernel_rfl) (all_cons (by kernel_rfl) (all_cons (by kernel_rfl) (all_cons (by kernel_rfl) (List.forall_mem_nil _))))))))⟩

theorem obeys_raidLines4_17_lines (n : Str) : ∀ i ∈ [9], Command.FirstLine (RHEL7_Raid.cls RHEL7_RaidData.cls) n [c!"/x", c!"--device=1", c!"--level=RAID1", c!"raid.1", c!"raid.2", c!"raid.3"] obeys_raidLines4_17_object (raidLines4.lines.getD i noLine) :=
  (all_cons (by intro b b' hb hb' x hx line l; rcases hb with rfl | rfl <;> rcases hb' with rfl | rfl <;> kernel_rfl)
    (List.forall_mem_nil _))

theorem obeys_raidLines4_17 : ∀ v, [Version.RHEL7].contains v = true → Command.Obeys (RHEL7_Raid.cls RHEL7_RaidData.cls) raidLines4 v :=
  obeys_of obeys_raidLines4_17_object [1] [9] (obeys_raidLines4_17_base _) (all_cons obeys_raidLines4_17_start (List.forall_mem_nil _)) (obeys_raidLines4_17_lines _) (by decide +kernel)

def obeys_raidLines4_18_object (l : Nat) : Ns := [(c!"lineno", .int l), (c!"device", .str c!"1"), (c!"fstype", .str c!""), (c!"level", .str c!"RAID1"), (c!"format", .bool true), (c!"spares", .int 0), (c!"preexist", .bool false), (c!"mountpoint", .str c!"/x"), (c!"members", .list [c!"raid.1", c!"raid.2", c!"raid.3"]), (c!"fsopts", .str c!""), (c!"fsprofile", .str c!""), (c!"encrypted", .bool false), (c!"passphrase", .str c!""), (c!"escrowcert", .str c!""), (c!"backuppassphrase", .bool false), (c!"label", .str c!""), (c!"cipher", .str c!""), (c!"mkfsopts", .str c!""), (c!"chunk_size", .none), (c!"luks_version", .str c!""), (c!"pbkdf", .str c!""), (c!"pbkdf_memory", .int 0), (c!"pbkdf_time", .int 0), (c!"pbkdf_iterations", .int 0), (c!"mntpoint", .list [c!"/x"]), (c!"partitions", .list [c!"raid.1", c!"raid.2", c!"raid.3"])]

theorem obeys_raidLines4_18_base (n : Str) : Command.FirstBase (RHEL8_Raid.cls RHEL8_RaidData.cls) n [c!"/x", c!"--device=1", c!"--level=RAID1", c!"raid.1", c!"raid.2", c!"raid.3"] obeys_raidLines4_18_object := by
  intro b b' hb hb' line l; rcases hb with rfl | rfl <;> rcases hb' with rfl | rfl <;> kernel_rfl

theorem obeys_raidLines4_18_start : Command.FirstStart (RHEL8_Raid.cls RHEL8_RaidData.cls) obeys_raidLines4_18_object (raidLines4.start.getD 1 ([], [])).2 := fun _ => .inl ⟨fun _ => rfl, (all_cons (by kernel_rfl) (all_cons (by kernel_rfl) (all_cons (by kernel_rfl) (all_cons (by kernel_rfl) (all_cons (by kernel_rfl) (all_cons (by kernel_rfl) (all_cons (by kernel_rfl) (List.forall_mem_nil _))))))))⟩

theorem obeys_raidLines4_18_lines (n : Str) : ∀ i ∈ [9], Command.FirstLine (RHEL8_Raid.cls RHEL8_RaidData.cls) n [c!"/x", c!"--device=1", c!"--level=RAID1", c!"raid.1", c!"raid.2", c!"raid.3"] obeys_raidLines4_18_object (raidLines4.lines.getD i noLine) :=
  (all_cons (by intro b b' hb hb' x hx line l; rcases hb with rfl | rfl <;> rcases hb' with rfl | rfl <;> kernel_rfl)
    (List.forall_mem_nil _))

theorem obeys_raidLines4_18 : ∀ v, [Version.RHEL8].contains v = true → Command.Obeys (RHEL8_Raid.cls RHEL8_RaidData.cls) raidLines4 v :=
  obeys_of obeys_raidLines4_18_object [1] [9] (obeys_raidLines4_18_base _) (all_cons obeys_raidLines4_18_start (List.forall_mem_nil _)) (obeys_raidLines4_18_lines _) (by decide +kernel)

theorem obeys_raidLines4 : raidLines4.Obeyed := by
  unfold CommandLines.Obeyed commandMaps
  exact (all_cons (fun _ c h => by cases h; exact obeys_raidLines4_0 _ rfl)
    (all_cons (fun _ c h => by cases h; exact obeys_raidLines4_0 _ rfl)
    (all_cons (fun _ c h => by cases h; exact obeys_raidLines4_1 _ rfl)
    (all_cons (fun _ c h => by cases h; exact obeys_raidLines4_2 _ rfl)
    (all_cons (fun _ c h => by cases h; exact obeys_raidLines4_3 _ rfl)
    (all_cons (fun _ c h => by cases h; exact obeys_raidLines4_4 _ rfl)
    (all_cons (fun _ c h => by cases h; exact obeys_raidLines4_4 _ rfl)
    (all_cons (fun _ c h => by cases h; exact obeys_raidLines4_4 _ rfl)
    (all_cons (fun _ c h => by cases h; exact obeys_raidLines4_5 _ rfl)
    (all_cons (fun _ c h => by cases h; exact obeys_raidLines4_6 _ rfl)
    (all_cons (fun _ c h => by cases h; exact obeys_raidLines4_7 _ rfl)
    (all_cons (fun _ c h => by cases h; exact obeys_raidLines4_7 _ rfl)
    (all_cons (fun _ c h => by cases h; exact obeys_raidLines4_7 _ rfl)
    (all_cons (fun _ c h => by cases h; exact obeys_raidLines4_8 _ rfl)
    (all_cons (fun _ c h => by cases h; exact obeys_raidLines4_8 _ rfl)
    (all_cons (fun _ c h => by cases h; exact obeys_raidLines4_9 _ rfl)
    (all_cons (fun _ c h => by cases h; exact obeys_raidLines4_9 _ rfl)
    (all_cons (fun _ c h => by cases h; exact obeys_raidLines4_9 _ rfl)
    (all_cons (fun _ c h => by cases h; exact obeys_raidLines4_9 _ rfl)
    (all_cons (fun _ c h => by cases h; exact obeys_raidLines4_10 _ rfl)
    (all_cons (fun _ c h => by cases h; exact obeys_raidLines4_10 _ rfl)
    (all_cons (fun _ c h => by cases h; exact obeys_raidLines4_10 _ rfl)
    (all_cons (fun _ c h => by cases h; exact obeys_raidLines4_10 _ rfl)
    (all_cons (fun _ c h => by cases h; exact obeys_raidLines4_10 _ rfl)
    (all_cons (fun _ c h => by cases h; exact obeys_raidLines4_10 _ rfl)
    (all_cons (fun _ c h => by cases h; exact obeys_raidLines4_11 _ rfl)
    (all_cons (fun _ c h => by cases h; exact obeys_raidLines4_11 _ rfl)
    (all_cons (fun _ c h => by cases h; exact obeys_raidLines4_0 _ rfl)
    (all_cons (fun _ c h => by cases h; exact obeys_raidLines4_12 _ rfl)
    (all_cons (fun _ c h => by cases h; exact obeys_raidLines4_13 _ rfl)
    (all_cons (fun _ c h => by cases h; exact obeys_raidLines4_14 _ rfl)
    (all_cons (fun _ c h => by cases h; exact obeys_raidLines4_14 _ rfl)
    (all_cons (fun _ c h => by cases h; exact obeys_raidLines4_12 _ rfl)
    (all_cons (fun _ c h => by cases h; exact obeys_raidLines4_12 _ rfl)
    (all_cons (fun _ c h => by cases h; exact obeys_raidLines4_15 _ rfl)
    (all_cons (fun _ c h => by cases h; exact obeys_raidLines4_16 _ rfl)
    (all_cons (fun _ c h => by cases h; exact obeys_raidLines4_17 _ rfl)
    (all_cons (fun _ c h => by cases h; exact obeys_raidLines4_18 _ rfl) (List.forall_mem_nil _)))))))))))))))))))))))))))))))))))))))

def obeys_snapshotLines_0_object (l : Nat) : Ns := [(c!"lineno", .int l), (c!"name", .str c!"s"), (c!"origin", .str c!"a/b"), (c!"when", .int 1)]

theorem obeys_snapshotLines_0_base (n : Str) : Command.FirstBase (F26_Snapshot.cls F26_SnapshotData.cls) n [c!"a/b", c!"--name=s", c!"--when=pre-install"] obeys_snapshotLines_0_object := by
  intro b b' hb hb' line l; kernel_rfl

theorem obeys_snapshotLines_0_start : Command.FirstStart (F26_Snapshot.cls F26_SnapshotData.cls) obeys_snapshotLines_0_object (snapshotLines.start.getD 0 ([], [])).2 := fun _ => .inl ⟨fun _ => rfl, (all_cons (by kernel_rfl) (all_cons (by kernel_rfl) (all_cons (by kernel_rfl) (List.forall_mem_nil _))))⟩

theorem obeys_snapshotLines_0_lines (n : Str) : ∀ i ∈ [0, 1, 2], Command.FirstLine (F26_Snapshot.cls F26_SnapshotData.cls) n [c!"a/b", c!"--name=s", c!"--when=pre-install"] obeys_snapshotLines_0_object (snapshotLines.lines.getD i noLine) :=
  (all_cons (by intro b b' hb hb' x hx line l; (cases x with | nil => exact absurd rfl hx | cons a x => kernel_rfl))
    (all_cons (by intro b b' hb hb' x hx line l; kernel_rfl)
    (all_cons (by intro b b' hb hb' x hx line l; kernel_rfl)
    (List.forall_mem_nil _))))

theorem obeys_snapshotLines_0 : ∀ v, [Version.RHEL7, Version.F26, Version.F27, Version.F28, Version.RHEL8, Version.F29, Version.F30, Version.F31, Version.F32, Version.F33, Version.F34].contains v = true → Command.Obeys (F26_Snapshot.cls F26_SnapshotData.cls) snapshotLines v :=
  obeys_of obeys_snapshotLines_0_object [0] [0, 1, 2] (obeys_snapshotLines_0_base _) (all_cons obeys_snapshotLines_0_start (List.forall_mem_nil _)) (obeys_snapshotLines_0_lines _) (by decide +kernel)

theorem obeys_snapshotLines : snapshotLines.Obeyed := by
  unfold CommandLines.Obeyed commandMaps
  exact (all_cons (fun hv => absurd hv (by decide))
    (all_cons (fun hv => absurd hv (by decide))
    (all_cons (fun hv => absurd hv (by decide))
    (all_cons (fun hv => absurd hv (by decide))
    (all_cons (fun hv => absurd hv (by decide))
    (all_cons (fun hv => absurd hv (by decide))
    (all_cons (fun hv => absurd hv (by decide))
    (all_cons (fun hv => absurd hv (by decide))
    (all_cons (fun hv => absurd hv (by decide))
    (all_cons (fun hv => absurd hv (by decide))
    (all_cons (fun hv => absurd hv (by decide))
    (all_cons (fun hv => absurd hv (by decide))
    (all_cons (fun hv => absurd hv (by decide))
    (all_cons (fun hv => absurd hv (by decide))
    (all_cons (fun hv => absurd hv (by decide))
    (all_cons (fun hv => absurd hv (by decide))
    (all_cons (fun _ c h => by cases h; exact obeys_snapshotLines_0 _ rfl)
    (all_cons (fun _ c h => by cases h; exact obeys_snapshotLines_0 _ rfl)
    (all_cons (fun _ c h => by cases h; exact obeys_snapshotLines_0 _ rfl)
    (all_cons (fun _ c h => by cases h; exact obeys_snapshotLines_0 _ rfl)
    (all_cons (fun _ c h => by cases h; exact obeys_snapshotLines_0 _ rfl)
    (all_cons (fun _ c h => by cases h; exact obeys_snapshotLines_0 _ rfl)
    (all_cons (fun _ c h => by cases h; exact obeys_snapshotLines_0 _ rfl)
    (all_cons (fun _ c h => by cases h; exact obeys_snapshotLines_0 _ rfl)
    (all_cons (fun _ c h => by cases h; exact obeys_snapshotLines_0 _ rfl)
    (all_cons (fun hv => absurd hv (by decide))
    (all_cons (fun hv => absurd hv (by decide))
    (all_cons (fun hv => absurd hv (by decide))
    (all_cons (fun hv => absurd hv (by decide))
    (all_cons (fun hv => absurd hv (by decide))
    (all_cons (fun hv => absurd hv (by decide))
    (all_cons (fun hv => absurd hv (by decide))
    (all_cons (fun hv => absurd hv (by decide))
    (all_cons (fun hv => absurd hv (by decide))
    (all_cons (fun hv => absurd hv (by decide))
    (all_cons (fun hv => absurd hv (by decide))
    (all_cons (fun _ c h => by cases h; exact obeys_snapshotLines_0 _ rfl)
    (all_cons (fun _ c h => by cases h; exact obeys_snapshotLines_0 _ rfl) (List.forall_mem_nil _)))))))))))))))))))))))))))))))))))))))

def obeys_updatesLines_0_object (_ : Nat) : Ns := [(c!"url", .str c!"floppy")]

theorem obeys_updatesLines_0_base (n : Str) : Command.FirstBase (F7_Updates.cls) n [] obeys_updatesLines_0_object := by
  intro b b' hb hb' line l; kernel_rfl

theorem obeys_updatesLines_0_start : Command.FirstStart (F7_Updates.cls) obeys_updatesLines_0_object (updatesLines.start.getD 0 ([], [])).2 := fun _ => .inr ⟨fun _ => rfl, by kernel_rfl⟩

theorem obeys_updatesLines_0_lines (n : Str) : ∀ i ∈ [], Command.FirstLine (F7_Updates.cls) n [] obeys_updatesLines_0_object (updatesLines.lines.getD i noLine) :=
  (List.forall_mem_nil _)

theorem obeys_updatesLines_0 : ∀ v, [Version.F7, Version.F8, Version.F9, Version.F10, Version.F11, Version.F12, Version.F13, Version.RHEL6, Version.F14, Version.F15, Version.F16, Version.F17, Version.F18, Version.F19, Version.F20, Version.F21, Version.RHEL7, Version.F22, Version.F23, Version.F24, Version.F25, Version.F26, Version.F27, Version.F28, Version.RHEL8, Version.F29, Version.F30, Version.F31, Version.F32, Version.F33].contains v = true → Command.Obeys (F7_Updates.cls) updatesLines v :=
  obeys_of obeys_updatesLines_0_object [0] [] (obeys_updatesLines_0_base _) (all_cons obeys_updatesLines_0_start (List.forall_mem_nil _)) (obeys_updatesLines_0_lines _) (by decide +kernel)

theorem obeys_updatesLines : updatesLines.Obeyed := by
  unfold CommandLines.Obeyed commandMaps
  exact (all_cons (fun _ c h => by cases h; exact obeys_updatesLines_0 _ rfl)
    (all_cons (fun _ c h => by cases h; exact obeys_updatesLines_0 _ rfl)
    (all_cons (fun _ c h => by cases h; exact obeys_updatesLines_0 _ rfl)
    (all_cons (fun _ c h => by cases h; exact obeys_updatesLines_0 _ rfl)
    (all_cons (fun _ c h => by cases h; exact obeys_updatesLines_0 _ rfl)
    (all_cons (fun _ c h => by cases h; exact obeys_updatesLines_0 _ rfl)
    (all_cons (fun _ c h => by cases h; exact obeys_updatesLines_0 _ rfl)
    (all_cons (fun _ c h => by cases h; exact obeys_updatesLines_0 _ rfl)
    (all_cons (fun _ c h => by cases h; exact obeys_updatesLines_0 _ rfl)
    (all_cons (fun _ c h => by cases h; exact obeys_updatesLines_0 _ rfl)
    (all_cons (fun _ c h => by cases h; exact obeys_updatesLines_0 _ rfl)
    (all_cons (fun _ c h => by cases h; exact obeys_updatesLines_0 _ rfl)
    (all_cons (fun _ c h => by cases h; exact obeys_updatesLines_0 _ rfl)
    (all_cons (fun _ c h => by cases h; exact obeys_updatesLines_0 _ rfl)
    (all_cons (fun _ c h => by cases h; exact obeys_updatesLines_0 _ rfl)
    (all_cons (fun _ c h => by cases h; exact obeys_updatesLines_0 _ rfl)
    (all_cons (fun _ c h => by cases h; exact obeys_updatesLines_0 _ rfl)
    (all_cons (fun _ c h => by cases h; exact obeys_updatesLines_0 _ rfl)
    (all_cons (fun _ c h => by cases h; exact obeys_updatesLines_0 _ rfl)
    (all_cons (fun _ c h => by cases h; exact obeys_updatesLines_0 _ rfl)
    (all_cons (fun _ c h => by cases h; exact obeys_updatesLines_0 _ rfl)
    (all_cons (fun _ c h => by cases h; exact obeys_updatesLines_0 _ rfl)
    (all_cons (fun _ c h => by cases h; exact obeys_updatesLines_0 _ rfl)
    (all_cons (fun _ c h => by cases h; exact obeys_updatesLines_0 _ rfl)
    (all_cons (fun hv => absurd hv (by decide))
    (all_cons (fun _ c h => by cases h; exact obeys_updatesLines_0 _ rfl)
    (all_cons (fun _ c h => by cases h; exact obeys_updatesLines_0 _ rfl)
    (all_cons (fun _ c h => by cases h; exact obeys_updatesLines_0 _ rfl)
    (all_cons (fun hv => absurd hv (by decide))
    (all_cons (fun hv => absurd hv (by decide))
    (all_cons (fun hv => absurd hv (by decide))
    (all_cons (fun hv => absurd hv (by decide))
    (all_cons (fun hv => absurd hv (by decide))
    (all_cons (fun hv => absurd hv (by decide))
    (all_cons (fun hv => absurd hv (by decide))
    (all_cons (fun _ c h => by cases h; exact obeys_updatesLines_0 _ rfl)
    (all_cons (fun _ c h => by cases h; exact obeys_updatesLines_0 _ rfl)
    (all_cons (fun _ c h => by cases h; exact obeys_updatesLines_0 _ rfl) (List.forall_mem_nil _)))))))))))))))))))))))))))))))))))))))

def obeys_updatesLines2_0_object (_ : Nat) : Ns := [(c!"url", .str c!"U")]

theorem obeys_updatesLines2_0_base (n : Str) : Command.FirstBase (F7_Updates.cls) n [c!"U"] obeys_updatesLines2_0_object := by
  intro b b' hb hb' line l; kernel_rfl

theorem obeys_updatesLines2_0_start : Command.FirstStart (F7_Updates.cls) obeys_updatesLines2_0_object (updatesLines2.start.getD 0 ([], [])).2 := fun _ => .inr ⟨fun _ => rfl, by kernel_rfl⟩

theorem obeys_updatesLines2_0_lines (n : Str) : ∀ i ∈ [], Command.FirstLine (F7_Updates.cls) n [c!"U"] obeys_updatesLines2_0_object (updatesLines2.lines.getD i noLine) :=
  (List.forall_mem_nil _)

theorem obeys_updatesLines2_0 : ∀ v, [Version.F7, Version.F8, Version.F9, Version.F10, Version.F11, Version.F12, Version.F13, Version.RHEL6, Version.F14, Version.F15, Version.F16, Version.F17, Version.F18, Version.F19, Version.F20, Version.F21, Version.RHEL7, Version.F22, Version.F23, Version.F24, Version.F25, Version.F26, Version.F27, Version.F28, Version.RHEL8, Version.F29, Version.F30, Version.F31, Version.F32, Version.F33].contains v = true → Command.Obeys (F7_Updates.cls) updatesLines2 v :=
  obeys_of obeys_updatesLines2_0_object [0] [] (obeys_updatesLines2_0_base _) (all_cons obeys_updatesLines2_0_start (List.forall_mem_nil _)) (obeys_updatesLines2_0_lines _) (by decide +kernel)

def obeys_updatesLines2_1_object (_ : Nat) : Ns := [(c!"url", .str c!"U")]

theorem obeys_updatesLines2_1_base (n : Str) : Command.FirstBase (F34_Updates.cls) n [c!"U"] obeys_updatesLines2_1_object := by
  intro b b' hb hb' line l; kernel_rfl

theorem obeys_updatesLines2_1_start : Command.FirstStart (F34_Updates.cls) obeys_updatesLines2_1_object (updatesLines2.start.getD 0 ([], [])).2 := fun _ => .inr ⟨fun _ => rfl, by kernel_rfl⟩

theorem obeys_updatesLines2_1_lines (n : Str) : ∀ i ∈ [], Command.FirstLine (F34_Updates.cls) n [c!"U"] obeys_updatesLines2_1_object (updatesLines2.lines.getD i noLine) :=
  (List.forall_mem_nil _)

theorem obeys_updatesLines2_1 : ∀ v, [Version.F34].contains v = true → Command.Obeys (F34_Updates.cls) updatesLines2 v :=
  obeys_of obeys_updatesLines2_1_object [0] [] (obeys_updatesLines2_1_base _) (all_cons obeys_updatesLines2_1_start (List.forall_mem_nil _)) (obeys_updatesLines2_1_lines _) (by decide +kernel)

theorem obeys_updatesLines2 : updatesLines2.Obeyed := by
  unfold CommandLines.Obeyed commandMaps
  exact (all_cons (fun _ c h => by cases h; exact obeys_updatesLines2_0 _ rfl)
    (all_cons (fun _ c h => by cases h; exact obeys_updatesLines2_0 _ rfl)
    (all_cons (fun _ c h => by cases h; exact obeys_updatesLines2_0 _ rfl)
    (all_cons (fun _ c h => by cases h; exact obeys_updatesLines2_0 _ rfl)
    (all_cons (fun _ c h => by cases h; exact obeys_updatesLines2_0 _ rfl)
    (all_cons (fun _ c h => by cases h; exact obeys_updatesLines2_0 _ rfl)
    (all_cons (fun _ c h => by cases h; exact obeys_updatesLines2_0 _ rfl)
    (all_cons (fun _ c h => by cases h; exact obeys_updatesLines2_0 _ rfl)
    (all_cons (fun _ c h => by cases h; exact obeys_updatesLines2_0 _ rfl)
    (all_cons (fun _ c h => by cases h; exact obeys_updatesLines2_0 _ rfl)
    (all_cons (fun _ c h => by cases h; exact obeys_updatesLines2_0 _ rfl)
    (all_cons (fun _ c h => by cases h; exact obeys_updatesLines2_0 _ rfl)
    (all_cons (fun _ c h => by cases h; exact obeys_updatesLines2_0 _ rfl)
    (all_cons (fun _ c h => by cases h; exact obeys_updatesLines2_0 _ rfl)
    (all_cons (fun _ c h => by cases h; exact obeys_updatesLines2_0 _ rfl)
    (all_cons (fun _ c h => by cases h; exact obeys_updatesLines2_0 _ rfl)
    (all_cons (fun _ c h => by cases h; exact obeys_updatesLines2_0 _ rfl)
    (all_cons (fun _ c h => by cases h; exact obeys_updatesLines2_0 _ rfl)
    (all_cons (fun _ c h => by cases h; exact obeys_updatesLines2_0 _ rfl)
    (all_cons (fun _ c h => by cases h; exact obeys_updatesLines2_0 _ rfl)
    (all_cons (fun _ c h => by cases h; exact obeys_updatesLines2_0 _ rfl)
    (all_cons (fun _ c h => by cases h; exact obeys_updatesLines2_0 _ rfl)
    (all_cons (fun _ c h => by cases h; exact obeys_updatesLines2_0 _ rfl)
    (all_cons (fun _ c h => by cases h; exact obeys_updatesLines2_0 _ rfl)
    (all_cons (fun _ c h => by cases h; exact obeys_updatesLines2_1 _ rfl)
    (all_cons (fun _ c h => by cases h; exact obeys_updatesLines2_0 _ rfl)
    (all_cons (fun _ c h => by cases h; exact obeys_updatesLines2_0 _ rfl)
    (all_cons (fun _ c h => by cases h; exact obeys_updatesLines2_0 _ rfl)
    (all_cons (fun hv => absurd hv (by decide))
    (all_cons (fun hv => absurd hv (by decide))
    (all_cons (fun hv => absurd hv (by decide))
    (all_cons (fun hv => absurd hv (by decide))
    (all_cons (fun hv => absurd hv (by decide))
    (all_cons (fun hv => absurd hv (by decide))
    (all_cons (fun hv => absurd hv (by decide))
    (all_cons (fun _ c h => by cases h; exact obeys_updatesLines2_0 _ rfl)
    (all_cons (fun _ c h => by cases h; exact obeys_updatesLines2_0 _ rfl)
    (all_cons (fun _ c h => by cases h; exact obeys_updatesLines2_0 _ rfl) (List.forall_mem_nil _)))))))))))))))))))))))))))))))))))))))

def obeys_ziplLines_0_object (_ : Nat) : Ns := [(c!"secure_boot", .int (-1))]

theorem obeys_ziplLines_0_base (n : Str) : Command.FirstBase (F32_Zipl.cls) n [] obeys_ziplLines_0_object := by
  intro b b' hb hb' line l; kernel_rfl

theorem obeys_ziplLines_0_start : Command.FirstStart (F32_Zipl.cls) obeys_ziplLines_0_object (ziplLines.start.getD 0 ([], [])).2 := fun _ => .inr ⟨fun _ => rfl, by kernel_rfl⟩

theorem obeys_ziplLines_0_lines (n : Str) : ∀ i ∈ [0, 1, 2], Command.FirstLine (F32_Zipl.cls) n [] obeys_ziplLines_0_object (ziplLines.lines.getD i noLine) :=
  (all_cons (by intro b b' hb hb' x hx line l; kernel_rfl)
    (all_cons (by intro b b' hb hb' x hx line l; kernel_rfl)
    (all_cons (by intro b b' hb hb' x hx line l; kernel_rfl)
    (List.forall_mem_nil _))))

theorem obeys_ziplLines_0 : ∀ v, [Version.F32, Version.F33, Version.F34].contains v = true → Command.Obeys (F32_Zipl.cls) ziplLines v :=
  obeys_of obeys_ziplLines_0_object [0] [0, 1, 2] (obeys_ziplLines_0_base _) (all_cons obeys_ziplLines_0_start (List.forall_mem_nil _)) (obeys_ziplLines_0_lines _) (by decide +kernel)

def obeys_ziplLines_1_object (_ : Nat) : Ns := [(c!"secure_boot", .int (-1))]

theorem obeys_ziplLines_1_base (n : Str) : Command.FirstBase (RHEL8_Zipl.cls) n [] obeys_ziplLines_1_object := by
  intro b b' hb hb' line l; kernel_rfl

theorem obeys_ziplLines_1_start : Command.FirstStart (RHEL8_Zipl.cls) obeys_ziplLines_1_object (ziplLines.start.getD 0 ([], [])).2 := fun _ => .inr ⟨fun _ => rfl, by kernel_rfl⟩

theorem obeys_ziplLines_1_lines (n : Str) : ∀ i ∈ [0, 1, 2], Command.FirstLine (RHEL8_Zipl.cls) n [] obeys_ziplLines_1_object (ziplLines.lines.getD i noLine) :=
  (all_cons (by intro b b' hb hb' x hx line l; kernel_rfl)
    (all_cons (by intro b b' hb hb' x hx line l; kernel_rfl)
    (all_cons (by intro b b' hb hb' x hx line l; kernel_rfl)
    (List.forall_mem_nil _))))

theorem obeys_ziplLines_1 : ∀ v, [Version.RHEL8].contains v = true → Command.Obeys (RHEL8_Zipl.cls) ziplLines v :=
  obeys_of obeys_ziplLines_1_object [0] [0, 1, 2] (obeys_ziplLines_1_base _) (all_cons obeys_ziplLines_1_start (List.forall_mem_nil _)) (obeys_ziplLines_1_lines _) (by decide +kernel)

theorem obeys_ziplLines : ziplLines.Obeyed := by
  unfold CommandLines.Obeyed commandMaps
  exact (all_cons (fun hv => absurd hv (by decide))
    (all_cons (fun hv => absurd hv (by decide))
    (all_cons (fun hv => absurd hv (by decide))
    (all_cons (fun hv => absurd hv (by decide))
    (all_cons (fun hv => absurd hv (by decide))
    (all_cons (fun hv => absurd hv (by decide))
    (all_cons (fun hv => absurd hv (by decide))
    (all_cons (fun hv => absurd hv (by decide))
    (all_cons (fun hv => absurd hv (by decide))
    (all_cons (fun hv => absurd hv (by decide))
    (all_cons (fun hv => absurd hv (by decide))
    (all_cons (fun hv => absurd hv (by decide))
    (all_cons (fun hv => absurd hv (by decide))
    (all_cons (fun hv => absurd hv (by decide))
    (all_cons (fun hv => absurd hv (by decide))
    (all_cons (fun hv => absurd hv (by decide))
    (all_cons (fun hv => absurd hv (by decide))
    (all_cons (fun hv => absurd hv (by decide))
    (all_cons (fun hv => absurd hv (by decide))
    (all_cons (fun hv => absurd hv (by decide))
    (all_cons (fun hv => absurd hv (by decide))
    (all_cons (fun hv => absurd hv (by decide))
    (all_cons (fun _ c h => by cases h; exact obeys_ziplLines_0 _ rfl)
    (all_cons (fun _ c h => by cases h; exact obeys_ziplLines_0 _ rfl)
    (all_cons (fun _ c h => by cases h; exact obeys_ziplLines_0 _ rfl)
    (all_cons (fun hv => absurd hv (by decide))
    (all_cons (fun hv => absurd hv (by decide))
    (all_cons (fun hv => absurd hv (by decide))
    (all_cons (fun hv => absurd hv (by decide))
    (all_cons (fun hv => absurd hv (by decide))
    (all_cons (fun hv => absurd hv (by decide))
    (all_cons (fun hv => absurd hv (by decide))
    (all_cons (fun hv => absurd hv (by decide))
    (all_cons (fun hv => absurd hv (by decide))
    (all_cons (fun hv => absurd hv (by decide))
    (all_cons (fun hv => absurd hv (by decide))
    (all_cons (fun hv => absurd hv (by decide))
    (all_cons (fun _ c h => by cases h; exact obeys_ziplLines_1 _ rfl) (List.forall_mem_nil _)))))))))))))))))))))))))))))))))))))))

end Ks.Cmd
