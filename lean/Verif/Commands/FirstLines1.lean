import Verif.Commands.LineLogic
import Verif.Commands.LineTable
/-!
# The classes of the command maps do what the table of first lines says

Written by `scripts/gen_lines.py`.
-/
namespace Ks.Cmd

set_option linter.unusedVariables false

def obeys_interactiveLines_0_object (_ : Nat) : Ns := [(c!"interactive", .bool true)]

theorem obeys_interactiveLines_0_base (n : Str) : Command.FirstBase (FC3_Interactive.cls) n [] obeys_interactiveLines_0_object := by
  intro b b' hb hb' line l; kernel_rfl

theorem obeys_interactiveLines_0_start : Command.FirstStart (FC3_Interactive.cls) obeys_interactiveLines_0_object (interactiveLines.start.getD 0 ([], [])).2 := fun _ => .inr ⟨fun _ => rfl, by kernel_rfl⟩

theorem obeys_interactiveLines_0_lines (n : Str) : ∀ i ∈ [0], Command.FirstLine (FC3_Interactive.cls) n [] obeys_interactiveLines_0_object (interactiveLines.lines.getD i noLine) :=
  (all_cons (by intro b b' hb hb' x hx line l; kernel_rfl)
    (List.forall_mem_nil _))

theorem obeys_interactiveLines_0 : ∀ v, [Version.RHEL3, Version.FC3, Version.RHEL4, Version.FC4, Version.FC5, Version.FC6, Version.RHEL5, Version.F7, Version.F8, Version.F9, Version.F10, Version.F11, Version.F12, Version.F13, Version.RHEL6].contains v = true → Command.Obeys (FC3_Interactive.cls) interactiveLines v :=
  obeys_of obeys_interactiveLines_0_object [0] [0] (obeys_interactiveLines_0_base _) (all_cons obeys_interactiveLines_0_start (List.forall_mem_nil _)) (obeys_interactiveLines_0_lines _) (by decide +kernel)

theorem obeys_interactiveLines : interactiveLines.Obeyed := by
  unfold CommandLines.Obeyed commandMaps
  exact (all_cons (fun _ c h => by cases h; exact obeys_interactiveLines_0 _ rfl)
    (all_cons (fun _ c h => by cases h; exact obeys_interactiveLines_0 _ rfl)
    (all_cons (fun _ c h => by cases h; exact obeys_interactiveLines_0 _ rfl)
    (all_cons (fun _ c h => by cases h; exact obeys_interactiveLines_0 _ rfl)
    (all_cons (fun hv => absurd hv (by decide))
    (all_cons (fun hv => absurd hv (by decide))
    (all_cons (fun hv => absurd hv (by decide))
    (all_cons (fun hv => absurd hv (by decide))
    (all_cons (fun hv => absurd hv (by decide))
    (all_cons (fun hv => absurd hv (by decide))
    (all_cons (fun hv => absurd hv (by decide))
    (all_cons (fun hv => absurd hv (by decide))
    (all_cons (fun hv => absurd hv (by decide))
    (all_cons (fun hv => absurd hv (by decide))
    (all_cons (fun hv => absurd hv (by decide))
    (all_cons (fun hv => absurd hv (by decide))
    (all_cons (fun hv => absurd hv (by decide))
    (all_cons (fun hv => absurd hv (by decide))
    (all_cons (fun hv => absurd hv (by decide))
    (all_cons (fun hv => absurd hv (by decide))
    (all_cons (fun hv => absurd hv (by decide))
    (all_cons (fun hv => absurd hv (by decide))
    (all_cons (fun hv => absurd hv (by decide))
    (all_cons (fun hv => absurd hv (by decide))
    (all_cons (fun hv => absurd hv (by decide))
    (all_cons (fun _ c h => by cases h; exact obeys_interactiveLines_0 _ rfl)
    (all_cons (fun _ c h => by cases h; exact obeys_interactiveLines_0 _ rfl)
    (all_cons (fun _ c h => by cases h; exact obeys_interactiveLines_0 _ rfl)
    (all_cons (fun _ c h => by cases h; exact obeys_interactiveLines_0 _ rfl)
    (all_cons (fun _ c h => by cases h; exact obeys_interactiveLines_0 _ rfl)
    (all_cons (fun _ c h => by cases h; exact obeys_interactiveLines_0 _ rfl)
    (all_cons (fun _ c h => by cases h; exact obeys_interactiveLines_0 _ rfl)
    (all_cons (fun _ c h => by cases h; exact obeys_interactiveLines_0 _ rfl)
    (all_cons (fun _ c h => by cases h; exact obeys_interactiveLines_0 _ rfl)
    (all_cons (fun _ c h => by cases h; exact obeys_interactiveLines_0 _ rfl)
    (all_cons (fun _ c h => by cases h; exact obeys_interactiveLines_0 _ rfl)
    (all_cons (fun hv => absurd hv (by decide))
    (all_cons (fun hv => absurd hv (by decide)) (List.forall_mem_nil _)))))))))))))))))))))))))))))))))))))))

def obeys_logvolLines_0_object (l : Nat) : Ns := [(c!"lineno", .int l), (c!"fstype", .str c!""), (c!"grow", .bool false), (c!"maxSizeMB", .int 0), (c!"name", .str c!"n"), (c!"format", .bool true), (c!"percent", .int 0), (c!"recommended", .bool false), (c!"size", .int 1), (c!"preexist", .bool false), (c!"vgname", .str c!"g"), (c!"mountpoint", .str c!"/x"), (c!"fsopts", .str c!""), (c!"fsprofile", .str c!""), (c!"encrypted", .bool false), (c!"passphrase", .str c!""), (c!"mntpoint", .list [c!"/x"])]

theorem obeys_logvolLines_0_base (n : Str) : Command.FirstBase (F9_LogVol.cls F9_LogVolData.cls) n [c!"/x", c!"--name=n", c!"--vgname=g", c!"--size=1"] obeys_logvolLines_0_object := by
  intro b b' hb hb' line l; kernel_rfl

theorem obeys_logvolLines_0_start : Command.FirstStart (F9_LogVol.cls F9_LogVolData.cls) obeys_logvolLines_0_object (logvolLines.start.getD 0 ([], [])).2 := fun _ => .inl ⟨fun _ => rfl, (all_cons (by kernel_rfl) (all_cons (by kernel_rfl) (all_cons (by kernel_rfl) (all_cons (by kernel_rfl) (all_cons (by kernel_rfl) (all_cons (by kernel_rfl) (List.forall_mem_nil _)))))))⟩

theorem obeys_logvolLines_0_lines (n : Str) : ∀ i ∈ [13, 15, 17, 19, 21, 23, 27, 34, 37, 38, 41, 42, 43, 56], Command.FirstLine (F9_LogVol.cls F9_LogVolData.cls) n [c!"/x", c!"--name=n", c!"--vgname=g", c!"--size=1"] obeys_logvolLines_0_object (logvolLines.lines.getD i noLine) :=
  (all_cons (by intro b b' hb hb' x hx line l; (cases x with | nil => exact absurd rfl hx | cons a x => kernel_rfl))
    (all_cons (by intro b b' hb hb' x hx line l; (cases x with | nil => exact absurd rfl hx | cons a x => kernel_rfl))
    (all_cons (by intro b b' hb hb' x hx line l; kernel_rfl)
    (all_cons (by intro b b' hb hb' x hx line l; (cases x with | nil => exact absurd rfl hx | cons a x => kernel_rfl))
    (all_cons (by intro b b' hb hb' x hx line l; (cases x with | nil => exact absurd rfl hx | cons a x => kernel_rfl))
    (all_cons (by intro b b' hb hb' x hx line l; kernel_rfl)
    (all_cons (by intro b b' hb hb' x hx line l; kernel_rfl)
    (all_cons (by intro b b' hb hb' x hx line l; kernel_rfl)
    (all_cons (by intro b b' hb hb' x hx line l; kernel_rfl)
    (all_cons (by intro b b' hb hb' x hx line l; kernel_rfl)
    (all_cons (by intro b b' hb hb' x hx line l; kernel_rfl)
    (all_cons (by intro b b' hb hb' x hx line l; (cases x with | nil => exact absurd rfl hx | cons a x => kernel_rfl))
    (all_cons (by intro b b' hb hb' x hx line l; (cases x with | nil => exact absurd rfl hx | cons a x => kernel_rfl))
    (all_cons (by intro b b' hb hb' x hx line l; kernel_rfl)
    (List.forall_mem_nil _)))))))))))))))

theorem obeys_logvolLines_0 : ∀ v, [Version.F9, Version.F10, Version.F11].contains v = true → Command.Obeys (F9_LogVol.cls F9_LogVolData.cls) logvolLines v :=
  obeys_of obeys_logvolLines_0_object [0] [13, 15, 17, 19, 21, 23, 27, 34, 37, 38, 41, 42, 43, 56] (obeys_logvolLines_0_base _) (all_cons obeys_logvolLines_0_start (List.forall_mem_nil _)) (obeys_logvolLines_0_lines _) (by decide +kernel)

def obeys_logvolLines_1_object (l : Nat) : Ns := [(c!"lineno", .int l), (c!"fstype", .str c!""), (c!"grow", .bool false), (c!"maxSizeMB", .int 0), (c!"name", .str c!"n"), (c!"format", .bool true), (c!"percent", .int 0), (c!"recommended", .bool false), (c!"size", .int 1), (c!"preexist", .bool false), (c!"vgname", .str c!"g"), (c!"mountpoint", .str c!"/x"), (c!"fsopts", .str c!""), (c!"fsprofile", .str c!""), (c!"encrypted", .bool false), (c!"passphrase", .str c!""), (c!"escrowcert", .str c!""), (c!"backuppassphrase", .bool false), (c!"mntpoint", .list [c!"/x"])]

theorem obeys_logvolLines_1_base (n : Str) : Command.FirstBase (F12_LogVol.cls F12_LogVolData.cls) n [c!"/x", c!"--name=n", c!"--vgname=g", c!"--size=1"] obeys_logvolLines_1_object := by
  intro b b' hb hb' line l; kernel_rfl

theorem obeys_logvolLines_1_start : Command.FirstStart (F12_LogVol.cls F12_LogVolData.cls) obeys_logvolLines_1_object (logvolLines.start.getD 0 ([], [])).2 := fun _ => .inl ⟨fun _ => rfl, (all_cons (by kernel_rfl) (all_cons (by kernel_rfl) (all_cons (by kernel_rfl) (all_cons (by kernel_rfl) (all_cons (by kernel_rfl) (all_cons (by kernel_rfl) (List.forall_mem_nil _)))))))⟩

theorem obeys_logvolLines_1_lines (n : Str) : ∀ i ∈ [22, 24, 27, 28, 30, 32, 34, 35, 37, 38, 39, 41, 42, 43], Command.FirstLine (F12_LogVol.cls F12_LogVolData.cls) n [c!"/x", c!"--name=n", c!"--vgname=g", c!"--size=1"] obeys_logvolLines_1_object (logvolLines.lines.getD i noLine) :=
  (all_cons (by intro b b' hb hb' x hx line l; (cases x with | nil => exact absurd rfl hx | cons a x => kernel_rfl))
    (all_cons (by intro b b' hb hb' x hx line l; kernel_rfl)
    (all_cons (by intro b b' hb hb' x hx line l; kernel_rfl)
    (all_cons (by intro b b' hb hb' x hx line l; kernel_rfl)
    (all_cons (by intro b b' hb hb' x hx line l; (cases x with | nil => exact absurd rfl hx | cons a x => kernel_rfl))
    (all_cons (by intro b b' hb hb' x hx line l; kernel_rfl)
    (all_cons (by intro b b' hb hb' x hx line l; kernel_rfl)
    (all_cons (by intro b b' hb hb' x hx line l; (cases x with | nil => exact absurd rfl hx | cons a x => kernel_rfl))
    (all_cons (by intro b b' hb hb' x hx line l; kernel_rfl)
    (all_cons (by intro b b' hb hb' x hx line l; kernel_rfl)
    (all_cons (by intro b b' hb hb' x hx line l; (cases x with | nil => exact absurd rfl hx | cons a x => kernel_rfl))
    (all_cons (by intro b b' hb hb' x hx line l; kernel_rfl)
    (all_cons (by intro b b' hb hb' x hx line l; (cases x with | nil => exact absurd rfl hx | cons a x => kernel_rfl))
    (all_cons (by intro b b' hb hb' x hx line l; (cases x with | nil => exact absurd rfl hx | cons a x => kernel_rfl))
    (List.forall_mem_nil _)))))))))))))))

theorem obeys_logvolLines_1 : ∀ v, [Version.F12, Version.F13].contains v = true → Command.Obeys (F12_LogVol.cls F12_LogVolData.cls) logvolLines v :=
  obeys_of obeys_logvolLines_1_object [0] [22, 24, 27, 28, 30, 32, 34, 35, 37, 38, 39, 41, 42, 43] (obeys_logvolLines_1_base _) (all_cons obeys_logvolLines_1_start (List.forall_mem_nil _)) (obeys_logvolLines_1_lines _) (by decide +kernel)

def obeys_logvolLines_2_object (l : Nat) : Ns := [(c!"lineno", .int l), (c!"fstype", .str c!""), (c!"grow", .bool false), (c!"maxSizeMB", .int 0), (c!"name", .str c!"n"), (c!"format", .bool true), (c!"percent", .int 0), (c!"recommended", .bool false), (c!"size", .int 1), (c!"preexist", .bool false), (c!"vgname", .str c!"g"), (c!"mountpoint", .str c!"/x"), (c!"fsopts", .str c!""), (c!"fsprofile", .str c!""), (c!"encrypted", .bool false), (c!"passphrase", .str c!""), (c!"escrowcert", .str c!""), (c!"backuppassphrase", .bool false), (c!"mntpoint", .list [c!"/x"])]

theorem obeys_logvolLines_2_base (n : Str) : Command.FirstBase (F14_LogVol.cls F14_LogVolData.cls) n [c!"/x", c!"--name=n", c!"--vgname=g", c!"--size=1"] obeys_logvolLines_2_object := by
  intro b b' hb hb' line l; kernel_rfl

theorem obeys_logvolLines_2_start : Command.FirstStart (F14_LogVol.cls F14_LogVolData.cls) obeys_logvolLines_2_object (logvolLines.start.getD 0 ([], [])).2 := fun _ => .inl ⟨fun _ => rfl, (all_cons (by kernel_rfl) (all_cons (by kernel_rfl) (all_cons (by kernel_rfl) (all_cons (by kernel_rfl) (all_cons (by kernel_rfl) (all_cons (by kernel_rfl) (List.forall_mem_nil _)))))))⟩

theorem obeys_logvolLines_2_lines (n : Str) : ∀ i ∈ [14, 25, 27, 28, 30, 32, 34, 35, 37, 38, 39, 41, 42, 43, 57], Command.FirstLine (F14_LogVol.cls F14_LogVolData.cls) n [c!"/x", c!"--name=n", c!"--vgname=g", c!"--size=1"] obeys_logvolLines_2_object (logvolLines.lines.getD i noLine) :=
  (all_cons (by intro b b' hb hb' x hx line l; (cases x with | nil => exact absurd rfl hx | cons a x => kernel_rfl))
    (all_cons (by intro b b' hb hb' x hx line l; (cases x with | nil => exact absurd rfl hx | cons a x => kernel_rfl))
    (all_cons (by intro b b' hb hb' x hx line l; kernel_rfl)
    (all_cons (by intro b b' hb hb' x hx line l; kernel_rfl)
    (all_cons (by intro b b' hb hb' x hx line l; (cases x with | nil => exact absurd rfl hx | cons a x => kernel_rfl))
    (all_cons (by intro b b' hb hb' x hx line l; kernel_rfl)
    (all_cons (by intro b b' hb hb' x hx line l; kernel_rfl)
    (all_cons (by intro b b' hb hb' x hx line l; (cases x with | nil => exact absurd rfl hx | cons a x => kernel_rfl))
    (all_cons (by intro b b' hb hb' x hx line l; kernel_rfl)
    (all_cons (by intro b b' hb hb' x hx line l; kernel_rfl)
    (all_cons (by intro b b' hb hb' x hx line l; (cases x with | nil => exact absurd rfl hx | cons a x => kernel_rfl))
    (all_cons (by intro b b' hb hb' x hx line l; kernel_rfl)
    (all_cons (by intro b b' hb hb' x hx line l; (cases x with | nil => exact absurd rfl hx | cons a x => kernel_rfl))
    (all_cons (by intro b b' hb hb' x hx line l; (cases x with | nil => exact absurd rfl hx | cons a x => kernel_rfl))
    (all_cons (by intro b b' hb hb' x hx line l; kernel_rfl)
    (List.forall_mem_nil _))))))))))))))))

theorem obeys_logvolLines_2 : ∀ v, [Version.F14].contains v = true → Command.Obeys (F14_LogVol.cls F14_LogVolData.cls) logvolLines v :=
  obeys_of obeys_logvolLines_2_object [0] [14, 25, 27, 28, 30, 32, 34, 35, 37, 38, 39, 41, 42, 43, 57] (obeys_logvolLines_2_base _) (all_cons obeys_logvolLines_2_start (List.forall_mem_nil _)) (obeys_logvolLines_2_lines _) (by decide +kernel)

def obeys_logvolLines_3_object (l : Nat) : Ns := [(c!"lineno", .int l), (c!"fstype", .str c!""), (c!"grow", .bool false), (c!"maxSizeMB", .int 0), (c!"name", .str c!"n"), (c!"format", .bool true), (c!"percent", .int 0), (c!"recommended", .bool false), (c!"size", .int 1), (c!"preexist", .bool false), (c!"vgname", .str c!"g"), (c!"mountpoint", .str c!"/x"), (c!"fsopts", .str c!""), (c!"fsprofile", .str c!""), (c!"encrypted", .bool false), (c!"passphrase", .str c!""), (c!"escrowcert", .str c!""), (c!"backuppassphrase", .bool false), (c!"label", .str c!""), (c!"mntpoint", .list [c!"/x"])]

theorem obeys_logvolLines_3_base (n : Str) : Command.FirstBase (F15_LogVol.cls F15_LogVolData.cls) n [c!"/x", c!"--name=n", c!"--vgname=g", c!"--size=1"] obeys_logvolLines_3_object := by
  intro b b' hb hb' line l; kernel_rfl

theorem obeys_logvolLines_3_start : Command.FirstStart (F15_LogVol.cls F15_LogVolData.cls) obeys_logvolLines_3_object (logvolLines.start.getD 0 ([], [])).2 := fun _ => .inl ⟨fun _ => rfl, (all_cons (by kernel_rfl) (all_cons (by kernel_rfl) (all_cons (by kernel_rfl) (all_cons (by kernel_rfl) (all_cons (by kernel_rfl) (all_cons (by kernel_rfl) (List.forall_mem_nil _)))))))⟩

theorem obeys_logvolLines_3_lines (n : Str) : ∀ i ∈ [26, 27, 34, 37, 38, 41, 42, 43], Command.FirstLine (F15_LogVol.cls F15_LogVolData.cls) n [c!"/x", c!"--name=n", c!"--vgname=g", c!"--size=1"] obeys_logvolLines_3_object (logvolLines.lines.getD i noLine) :=
  (all_cons (by intro b b' hb hb' x hx line l; (cases x with | nil => exact absurd rfl hx | cons a x => kernel_rfl))
    (all_cons (by intro b b' hb hb' x hx line l; kernel_rfl)
    (all_cons (by intro b b' hb hb' x hx line l; kernel_rfl)
    (all_cons (by intro b b' hb hb' x hx line l; kernel_rfl)
    (all_cons (by intro b b' hb hb' x hx line l; kernel_rfl)
    (all_cons (by intro b b' hb hb' x hx line l; kernel_rfl)
    (all_cons (by intro b b' hb hb' x hx line l; (cases x with | nil => exact absurd rfl hx | cons a x => kernel_rfl))
    (all_cons (by intro b b' hb hb' x hx line l; (cases x with | nil => exact absurd rfl hx | cons a x => kernel_rfl))
    (List.forall_mem_nil _)))))))))

theorem obeys_logvolLines_3 : ∀ v, [Version.F15].contains v = true → Command.Obeys (F15_LogVol.cls F15_LogVolData.cls) logvolLines v :=
  obeys_of obeys_logvolLines_3_object [0] [26, 27, 34, 37, 38, 41, 42, 43] (obeys_logvolLines_3_base _) (all_cons obeys_logvolLines_3_start (List.forall_mem_nil _)) (obeys_logvolLines_3_lines _) (by decide +kernel)

def obeys_logvolLines_4_object (l : Nat) : Ns := [(c!"lineno", .int l), (c!"fstype", .str c!""), (c!"grow", .bool false), (c!"maxSizeMB", .int 0), (c!"name", .str c!"n"), (c!"format", .bool true), (c!"percent", .int 0), (c!"recommended", .bool false), (c!"size", .int 1), (c!"preexist", .bool false), (c!"vgname", .str c!"g"), (c!"mountpoint", .str c!"/x"), (c!"fsopts", .str c!""), (c!"fsprofile", .str c!""), (c!"encrypted", .bool false), (c!"passphrase", .str c!""), (c!"escrowcert", .str c!""), (c!"backuppassphrase", .bool false), (c!"label", .str c!""), (c!"resize", .bool false), (c!"mntpoint", .list [c!"/x"])]

theorem obeys_logvolLines_4_base (n : Str) : Command.FirstBase (F15_LogVol.cls F17_LogVolData.cls) n [c!"/x", c!"--name=n", c!"--vgname=g", c!"--size=1"] obeys_logvolLines_4_object := by
  intro b b' hb hb' line l; kernel_rfl

theorem obeys_logvolLines_4_start : Command.FirstStart (F15_LogVol.cls F17_LogVolData.cls) obeys_logvolLines_4_object (logvolLines.start.getD 0 ([], [])).2 := fun _ => .inl ⟨fun _ => rfl, (all_cons (by kernel_rfl) (all_cons (by kernel_rfl) (all_cons (by kernel_rfl) (all_cons (by kernel_rfl) (all_cons (by kernel_rfl) (all_cons (by kernel_rfl) (List.forall_mem_nil _)))))))⟩

theorem obeys_logvolLines_4_lines (n : Str) : ∀ i ∈ [27, 34, 37, 38, 41, 42, 43], Command.FirstLine (F15_LogVol.cls F17_LogVolData.cls) n [c!"/x", c!"--name=n", c!"--vgname=g", c!"--size=1"] obeys_logvolLines_4_object (logvolLines.lines.getD i noLine) :=
  (all_cons (by intro b b' hb hb' x hx line l; kernel_rfl)
    (all_cons (by intro b b' hb hb' x hx line l; kernel_rfl)
    (all_cons (by intro b b' hb hb' x hx line l; kernel_rfl)
    (all_cons (by intro b b' hb hb' x hx line l; kernel_rfl)
    (all_cons (by intro b b' hb hb' x hx line l; kernel_rfl)
    (all_cons (by intro b b' hb hb' x hx line l; (cases x with | nil => exact absurd rfl hx | cons a x => kernel_rfl))
    (all_cons (by intro b b' hb hb' x hx line l; (cases x with | nil => exact absurd rfl hx | cons a x => kernel_rfl))
    (List.forall_mem_nil _))))))))

theorem obeys_logvolLines_4 : ∀ v, [Version.F16].contains v = true → Command.Obeys (F15_LogVol.cls F17_LogVolData.cls) logvolLines v :=
  obeys_of obeys_logvolLines_4_object [0] [27, 34, 37, 38, 41, 42, 43] (obeys_logvolLines_4_base _) (all_cons obeys_logvolLines_4_start (List.forall_mem_nil _)) (obeys_logvolLines_4_lines _) (by decide +kernel)

def obeys_logvolLines_5_object (l : Nat) : Ns := [(c!"lineno", .int l), (c!"fstype", .str c!""), (c!"grow", .bool false), (c!"maxSizeMB", .int 0), (c!"name", .str c!"n"), (c!"format", .bool true), (c!"percent", .int 0), (c!"recommended", .bool false), (c!"size", .int 1), (c!"preexist", .bool false), (c!"vgname", .str c!"g"), (c!"mountpoint", .str c!"/x"), (c!"fsopts", .str c!""), (c!"fsprofile", .str c!""), (c!"encrypted", .bool false), (c!"passphrase", .str c!""), (c!"escrowcert", .str c!""), (c!"backuppassphrase", .bool false), (c!"label", .str c!""), (c!"resize", .bool false), (c!"mntpoint", .list [c!"/x"])]

theorem obeys_logvolLines_5_base (n : Str) : Command.FirstBase (F17_LogVol.cls F17_LogVolData.cls) n [c!"/x", c!"--name=n", c!"--vgname=g", c!"--size=1"] obeys_logvolLines_5_object := by
  intro b b' hb hb' line l; kernel_rfl

theorem obeys_logvolLines_5_start : Command.FirstStart (F17_LogVol.cls F17_LogVolData.cls) obeys_logvolLines_5_object (logvolLines.start.getD 0 ([], [])).2 := fun _ => .inl ⟨fun _ => rfl, (all_cons (by kernel_rfl) (all_cons (by kernel_rfl) (all_cons (by kernel_rfl) (all_cons (by kernel_rfl) (all_cons (by kernel_rfl) (all_cons (by kernel_rfl) (List.forall_mem_nil _)))))))⟩

theorem obeys_logvolLines_5_lines (n : Str) : ∀ i ∈ [27, 28, 30, 34, 37, 38, 41, 42, 43], Command.FirstLine (F17_LogVol.cls F17_LogVolData.cls) n [c!"/x", c!"--name=n", c!"--vgname=g", c!"--size=1"] obeys_logvolLines_5_object (logvolLines.lines.getD i noLine) :=
  (all_cons (by intro b b' hb hb' x hx line l; kernel_rfl)
    (all_cons (by intro b b' hb hb' x hx line l; kernel_rfl)
    (all_cons (by intro b b' hb hb' x hx line l; (cases x with | nil => exact absurd rfl hx | cons a x => kernel_rfl))
    (all_cons (by intro b b' hb hb' x hx line l; kernel_rfl)
    (all_cons (by intro b b' hb hb' x hx line l; kernel_rfl)
    (all_cons (by intro b b' hb hb' x hx line l; kernel_rfl)
    (all_cons (by intro b b' hb hb' x hx line l; kernel_rfl)
    (all_cons (by intro b b' hb hb' x hx line l; (cases x with | nil => exact absurd rfl hx | cons a x => kernel_rfl))
    (all_cons (by intro b b' hb hb' x hx line l; (cases x with | nil => exact absurd rfl hx | cons a x => kernel_rfl))
    (List.forall_mem_nil _))))))))))

theorem obeys_logvolLines_5 : ∀ v, [Version.F17].contains v = true → Command.Obeys (F17_LogVol.cls F17_LogVolData.cls) logvolLines v :=
  obeys_of obeys_logvolLines_5_object [0] [27, 28, 30, 34, 37, 38, 41, 42, 43] (obeys_logvolLines_5_base _) (all_cons obeys_logvolLines_5_start (List.forall_mem_nil _)) (obeys_logvolLines_5_lines _) (by decide +kernel)

def obeys_logvolLines_6_object (l : Nat) : Ns := [(c!"lineno", .int l), (c!"fstype", .str c!""), (c!"grow", .bool false), (c!"maxSizeMB", .int 0), (c!"name", .str c!"n"), (c!"format", .bool true), (c!"percent", .int 0), (c!"recommended", .bool false), (c!"size", .int 1), (c!"preexist", .bool false), (c!"vgname", .str c!"g"), (c!"mountpoint", .str c!"/x"), (c!"fsopts", .str c!""), (c!"fsprofile", .str c!""), (c!"encrypted", .bool false), (c!"passphrase", .str c!""), (c!"escrowcert", .str c!""), (c!"backuppassphrase", .bool false), (c!"label", .str c!""), (c!"resize", .bool false), (c!"hibernation", .bool false), (c!"cipher", .str c!""), (c!"mntpoint", .list [c!"/x"])]

theorem obeys_logvolLines_6_base (n : Str) : Command.FirstBase (F18_LogVol.cls F18_LogVolData.cls) n [c!"/x", c!"--name=n", c!"--vgname=g", c!"--size=1"] obeys_logvolLines_6_object := by
  intro b b' hb hb' line l; kernel_rfl

theorem obeys_logvolLines_6_start : Command.FirstStart (F18_LogVol.cls F18_LogVolData.cls) obeys_logvolLines_6_object (logvolLines.start.getD 0 ([], [])).2 := fun _ => .inl ⟨fun _ => rfl, (all_cons (by kernel_rfl) (all_cons (by kernel_rfl) (all_cons (by kernel_rfl) (all_cons (by kernel_rfl) (all_cons (by kernel_rfl) (all_cons (by kernel_rfl) (List.forall_mem_nil _)))))))⟩

theorem obeys_logvolLines_6_lines (n : Str) : ∀ i ∈ [27, 29, 31, 34, 37, 38, 41, 42, 43], Command.FirstLine (F18_LogVol.cls F18_LogVolData.cls) n [c!"/x", c!"--name=n", c!"--vgname=g", c!"--size=1"] obeys_logvolLines_6_object (logvolLines.lines.getD i noLine) :=
  (all_cons (by intro b b' hb hb' x hx line l; kernel_rfl)
    (all_cons (by intro b b' hb hb' x hx line l; kernel_rfl)
    (all_cons (by intro b b' hb hb' x hx line l; (cases x with | nil => exact absurd rfl hx | cons a x => kernel_rfl))
    (all_cons (by intro b b' hb hb' x hx line l; kernel_rfl)
    (all_cons (by intro b b' hb hb' x hx line l; kernel_rfl)
    (all_cons (by intro b b' hb hb' x hx line l; kernel_rfl)
    (all_cons (by intro b b' hb hb' x hx line l; kernel_rfl)
    (all_cons (by intro b b' hb hb' x hx line l; (cases x with | nil => exact absurd rfl hx | cons a x => kernel_rfl))
    (all_cons (by intro b b' hb hb' x hx line l; (cases x with | nil => exact absurd rfl hx | cons a x => kernel_rfl))
    (List.forall_mem_nil _))))))))))

theorem obeys_logvolLines_6 : ∀ v, [Version.F18].contains v = true → Command.Obeys (F18_LogVol.cls F18_LogVolData.cls) logvolLines v :=
  obeys_of obeys_logvolLines_6_object [0] [27, 29, 31, 34, 37, 38, 41, 42, 43] (obeys_logvolLines_6_base _) (all_cons obeys_logvolLines_6_start (List.forall_mem_nil _)) (obeys_logvolLines_6_lines _) (by decide +kernel)

def obeys_logvolLines_7_object (l : Nat) : Ns := [(c!"lineno", .int l), (c!"fstype", .str c!""), (c!"grow", .bool false), (c!"maxSizeMB", .int 0), (c!"name", .str c!"n"), (c!"format", .bool true), (c!"percent", .int 0), (c!"recommended", .bool false), (c!"size", .int 1), (c!"preexist", .bool false), (c!"vgname", .str c!"g"), (c!"mountpoint", .str c!"/x"), (c!"fsopts", .str c!""), (c!"fsprofile", .str c!""), (c!"encrypted", .bool false), (c!"passphrase", .str c!""), (c!"escrowcert", .str c!""), (c!"backuppassphrase", .bool false), (c!"label", .str c!""), (c!"resize", .bool false), (c!"hibernation", .bool false), (c!"cipher", .str c!""), (c!"thin_pool", .bool false), (c!"thin_volume", .bool false), (c!"pool_name", .str c!""), (c!"chunk_size", .none), (c!"metadata_size", .none), (c!"mntpoint", .list [c!"/x"])]

theorem obeys_logvolLines_7_base (n : Str) : Command.FirstBase (F18_LogVol.cls F20_LogVolData.cls) n [c!"/x", c!"--name=n", c!"--vgname=g", c!"--size=1"] obeys_logvolLines_7_object := by
  intro b b' hb hb' line l; kernel_rfl

theorem obeys_logvolLines_7_start : Command.FirstStart (F18_LogVol.cls F20_LogVolData.cls) obeys_logvolLines_7_object (logvolLines.start.getD 0 ([], [])).2 := fun _ => .inl ⟨fun _ => rfl, (all_cons (by kernel_rfl) (all_cons (by kernel_rfl) (all_cons (by kernel_rfl) (all_cons (by kernel_rfl) (all_cons (by kernel_rfl) (all_cons (by kernel_rfl) (List.forall_mem_nil _)))))))⟩

theorem obeys_logvolLines_7_lines (n : Str) : ∀ i ∈ [27, 32, 34, 35, 37, 38, 41, 42, 43], Command.FirstLine (F18_LogVol.cls F20_LogVolData.cls) n [c!"/x", c!"--name=n", c!"--vgname=g", c!"--size=1"] obeys_logvolLines_7_object (logvolLines.lines.getD i noLine) :=
  (all_cons (by intro b b' hb hb' x hx line l; kernel_rfl)
    (all_cons (by intro b b' hb hb' x hx line l; kernel_rfl)
    (all_cons (by intro b b' hb hb' x hx line l; kernel_rfl)
    (all_cons (by intro b b' hb hb' x hx line l; (cases x with | nil => exact absurd rfl hx | cons a x => kernel_rfl))
    (all_cons (by intro b b' hb hb' x hx line l; kernel_rfl)
    (all_cons (by intro b b' hb hb' x hx line l; kernel_rfl)
    (all_cons (by intro b b' hb hb' x hx line l; kernel_rfl)
    (all_cons (by intro b b' hb hb' x hx line l; (cases x with | nil => exact absurd rfl hx | cons a x => kernel_rfl))
    (all_cons (by intro b b' hb hb' x hx line l; (cases x with | nil => exact absurd rfl hx | cons a x => kernel_rfl))
    (List.forall_mem_nil _))))))))))

theorem obeys_logvolLines_7 : ∀ v, [Version.F19].contains v = true → Command.Obeys (F18_LogVol.cls F20_LogVolData.cls) logvolLines v :=
  obeys_of obeys_logvolLines_7_object [0] [27, 32, 34, 35, 37, 38, 41, 42, 43] (obeys_logvolLines_7_base _) (all_cons obeys_logvolLines_7_start (List.forall_mem_nil _)) (obeys_logvolLines_7_lines _) (by decide +kernel)

def obeys_logvolLines_8_object (l : Nat) : Ns := [(c!"lineno", .int l), (c!"fstype", .str c!""), (c!"grow", .bool false), (c!"maxSizeMB", .int 0), (c!"name", .str c!"n"), (c!"format", .bool true), (c!"percent", .int 0), (c!"recommended", .bool false), (c!"size", .int 1), (c!"preexist", .bool false), (c!"vgname", .str c!"g"), (c!"mountpoint", .str c!"/x"), (c!"fsopts", .str c!""), (c!"fsprofile", .str c!""), (c!"encrypted", .bool false), (c!"passphrase", .str c!""), (c!"escrowcert", .str c!""), (c!"backuppassphrase", .bool false), (c!"label", .str c!""), (c!"resize", .bool false), (c!"hibernation", .bool false), (c!"cipher", .str c!""), (c!"thin_pool", .bool false), (c!"thin_volume", .bool false), (c!"pool_name", .str c!""), (c!"chunk_size", .none), (c!"metadata_size", .none), (c!"mntpoint", .list [c!"/x"])]

theorem obeys_logvolLines_8_base (n : Str) : Command.FirstBase (F20_LogVol.cls F20_LogVolData.cls) n [c!"/x", c!"--name=n", c!"--vgname=g", c!"--size=1"] obeys_logvolLines_8_object := by
  intro b b' hb hb' line l; rcases hb with rfl | rfl <;> rcases hb' with rfl | rfl <;> kernel_rfl

theorem obeys_logvolLines_8_start : Command.FirstStart (F20_LogVol.cls F20_LogVolData.cls) obeys_logvolLines_8_object (logvolLines.start.getD 0 ([], [])).2 := fun _ => .inl ⟨fun _ => rfl, (all_cons (by kernel_rfl) (all_cons (by kernel_rfl) (all_cons (by kernel_rfl) (all_cons (by kernel_rfl) (all_cons (by kernel_rfl) (all_cons (by kernel_rfl) (List.forall_mem_nil _)))))))⟩

theorem obeys_logvolLines_8_lines (n : Str) : ∀ i ∈ [27, 33, 34, 36, 37, 38, 39, 41, 42, 43], Command.FirstLine (F20_LogVol.cls F20_LogVolData.cls) n [c!"/x", c!"--name=n", c!"--vgname=g", c!"--size=1"] obeys_logvolLines_8_object (logvolLines.lines.getD i noLine) :=
  (all_cons (by intro b b' hb hb' x hx line l; rcases hb with rfl | rfl <;> rcases hb' with rfl | rfl <;> kernel_rfl)
    (all_cons (by intro b b' hb hb' x hx line l; rcases hb with rfl | rfl <;> rcases hb' with rfl | rfl <;> kernel_rfl)
    (all_cons (by intro b b' hb hb' x hx line l; rcases hb with rfl | rfl <;> rcases hb' with rfl | rfl <;> kernel_rfl)
    (all_cons (by intro b b' hb hb' x hx line l; (cases x with | nil => exact absurd rfl hx | cons a x => rcases hb with rfl | rfl <;> rcases hb' with rfl | rfl <;> kernel_rfl))
    (all_cons (by intro b b' hb hb' x hx line l; rcases hb with rfl | rfl <;> rcases hb' with rfl | rfl <;> kernel_rfl)
    (all_cons (by intro b b' hb hb' x hx line l; rcases hb with rfl | rfl <;> rcases hb' with rfl | rfl <;> kernel_rfl)
    (all_cons (by intro b b' hb hb' x hx line l; (cases x with | nil => exact absurd rfl hx | cons a x => rcases hb with rfl | rfl <;> rcases hb' with rfl | rfl <;> kernel_rfl))
    (all_cons (by intro b b' hb hb' x hx line l; rcases hb with rfl | rfl <;> rcases hb' with rfl | rfl <;> kernel_rfl)
    (all_cons (by intro b b' hb hb' x hx line l; (cases x with | nil => exact absurd rfl hx | cons a x => rcases hb with rfl | rfl <;> rcases hb' with rfl | rfl <;> kernel_rfl))
    (all_cons (by intro b b' hb hb' x hx line l; (cases x with | nil => exact absurd rfl hx | cons a x => rcases hb with rfl | rfl <;> rcases hb' with rfl | rfl <;> kernel_rfl))
    (List.forall_mem_nil _)))))))))))

theorem obeys_logvolLines_8 : ∀ v, [Version.F20].contains v = true → Command.Obeys (F20_LogVol.cls F20_LogVolData.cls) logvolLines v :=
  obeys_of obeys_logvolLines_8_object [0] [27, 33, 34, 36, 37, 38, 39, 41, 42, 43] (obeys_logvolLines_8_base _) (all_cons obeys_logvolLines_8_start (List.forall_mem_nil _)) (obeys_logvolLines_8_lines _) (by decide +kernel)

def obeys_logvolLines_9_object (l : Nat) : Ns := [(c!"lineno", .int l), (c!"fstype", .str c!""), (c!"grow", .bool false), (c!"maxSizeMB", .int 0), (c!"name", .str c!"n"), (c!"format", .bool true), (c!"percent", .int 0), (c!"recommended", .bool false), (c!"size", .int 1), (c!"preexist", .bool false), (c!"vgname", .str c!"g"), (c!"mountpoint", .str c!"/x"), (c!"fsopts", .str c!""), (c!"fsprofile", .str c!""), (c!"encrypted", .bool false), (c!"passphrase", .str c!""), (c!"escrowcert", .str c!""), (c!"backuppassphrase", .bool false), (c!"label", .str c!""), (c!"resize", .bool false), (c!"hibernation", .bool false), (c!"cipher", .str c!""), (c!"thin_pool", .bool false), (c!"thin_volume", .bool false), (c!"pool_name", .str c!""), (c!"chunk_size", .none), (c!"metadata_size", .none), (c!"profile", .str c!""), (c!"mntpoint", .list [c!"/x"])]

theorem obeys_logvolLines_9_base (n : Str) : Command.FirstBase (F21_LogVol.cls F21_LogVolData.cls) n [c!"/x", c!"--name=n", c!"--vgname=g", c!"--size=1"] obeys_logvolLines_9_object := by
  intro b b' hb hb' line l; rcases hb with rfl | rfl <;> rcases hb' with rfl | rfl <;> kernel_rfl

theorem obeys_logvolLines_9_start : Command.FirstStart (F21_LogVol.cls F21_LogVolData.cls) obeys_logvolLines_9_object (logvolLines.start.getD 0 ([], [])).2 := fun _ => .inl ⟨fun _ => rfl, (all_cons (by kernel_rfl) (all_cons (by kernel_rfl) (all_cons (by kernel_rfl) (all_cons (by kernel_rfl) (all_cons (by kernel_rfl) (all_cons (by kernel_rfl) (List.forall_mem_nil _)))))))⟩

theorem obeys_logvolLines_9_lines (n : Str) : ∀ i ∈ [5, 27, 34, 37, 38, 40, 41, 42, 43, 44], Command.FirstLine (F21_LogVol.cls F21_LogVolData.cls) n [c!"/x", c!"--name=n", c!"--vgname=g", c!"--size=1"] obeys_logvolLines_9_object (logvolLines.lines.getD i noLine) :=
  (all_cons (by intro b b' hb hb' x hx line l; rcases hb with rfl | rfl <;> rcases hb' with rfl | rfl <;> kernel_rfl)
    (all_cons (by intro b b' hb hb' x hx line l; rcases hb with rfl | rfl <;> rcases hb' with rfl | rfl <;> kernel_rfl)
    (all_cons (by intro b b' hb hb' x hx line l; rcases hb with rfl | rfl <;> rcases hb' with rfl | rfl <;> kernel_rfl)
    (all_cons (by intro b b' hb hb' x hx line l; rcases hb with rfl | rfl <;> rcases hb' with rfl | rfl <;> kernel_rfl)
    (all_cons (by intro b b' hb hb' x hx line l; rcases hb with rfl | rfl <;> rcases hb' with rfl | rfl <;> kernel_rfl)
    (all_cons (by intro b b' hb hb' x hx line l; (cases x with | nil => exact absurd rfl hx | cons a x => rcases hb with rfl | rfl <;> rcases hb' with rfl | rfl <;> kernel_rfl))
    (all_cons (by intro b b' hb hb' x hx line l; rcases hb with rfl | rfl <;> rcases hb' with rfl | rfl <;> kernel_rfl)
    (all_cons (by intro b b' hb hb' x hx line l; (cases x with | nil => exact absurd rfl hx | cons a x => rcases hb with rfl | rfl <;> rcases hb' with rfl | rfl <;> kernel_rfl))
    (all_cons (by intro b b' hb hb' x hx line l; (cases x with | nil => exact absurd rfl hx | cons a x => rcases hb with rfl | rfl <;> rcases hb' with rfl | rfl <;> kernel_rfl))
    (all_cons (by intro b b' hb hb' x hx line l; (cases x with | nil => exact absurd rfl hx | cons a x => rcases hb with rfl | rfl <;> rcases hb' with rfl | rfl <;> kernel_rfl))
    (List.forall_mem_nil _)))))))))))

theorem obeys_logvolLines_9 : ∀ v, [Version.F21, Version.F22].contains v = true → Command.Obeys (F21_LogVol.cls F21_LogVolData.cls) logvolLines v :=
  obeys_of obeys_logvolLines_9_object [0] [5, 27, 34, 37, 38, 40, 41, 42, 43, 44] (obeys_logvolLines_9_base _) (all_cons obeys_logvolLines_9_start (List.forall_mem_nil _)) (obeys_logvolLines_9_lines _) (by decide +kernel)

def obeys_logvolLines_10_object (l : Nat) : Ns := [(c!"lineno", .int l), (c!"fstype", .str c!""), (c!"grow", .bool false), (c!"maxSizeMB", .int 0), (c!"name", .str c!"n"), (c!"format", .bool true), (c!"percent", .int 0), (c!"recommended", .bool false), (c!"size", .int 1), (c!"preexist", .bool false), (c!"vgname", .str c!"g"), (c!"mountpoint", .str c!"/x"), (c!"fsopts", .str c!""), (c!"fsprofile", .str c!""), (c!"encrypted", .bool false), (c!"passphrase", .str c!""), (c!"escrowcert", .str c!""), (c!"backuppassphrase", .bool false), (c!"label", .str c!""), (c!"resize", .bool false), (c!"hibernation", .bool false), (c!"cipher", .str c!""), (c!"thin_pool", .bool false), (c!"thin_volume", .bool false), (c!"pool_name", .str c!""), (c!"chunk_size", .none), (c!"metadata_size", .none), (c!"profile", .str c!""), (c!"cache_size", .int 0), (c!"cache_mode", .str c!""), (c!"cache_pvs", .list []), (c!"mkfsopts", .str c!""), (c!"mntpoint", .list [c!"/x"])]

theorem obeys_logvolLines_10_base (n : Str) : Command.FirstBase (F23_LogVol.cls F23_LogVolData.cls) n [c!"/x", c!"--name=n", c!"--vgname=g", c!"--size=1"] obeys_logvolLines_10_object := by
  intro b b' hb hb' line l; rcases hb with rfl | rfl <;> rcases hb' with rfl | rfl <;> kernel_rfl

theorem obeys_logvolLines_10_start : Command.FirstStart (F23_LogVol.cls F23_LogVolData.cls) obeys_logvolLines_10_object (logvolLines.start.getD 0 ([], [])).2 := fun _ => .inl ⟨fun _ => rfl, (all_cons (by kernel_rfl) (all_cons (by kernel_rfl) (all_cons (by kernel_rfl) (all_cons (by kernel_rfl) (all_cons (by kernel_rfl) (all_cons (by kernel_rfl) (List.forall_mem_nil _)))))))⟩

theorem obeys_logvolLines_10_lines (n : Str) : ∀ i ∈ [27, 34, 37, 38, 41, 42, 43, 45, 46, 48, 50, 52, 54], Command.FirstLine (F23_LogVol.cls F23_LogVolData.cls) n [c!"/x", c!"--name=n", c!"--vgname=g", c!"--size=1"] obeys_logvolLines_10_object (logvolLines.lines.getD i noLine) :=
  (all_cons (by intro b b' hb hb' x hx line l; rcases hb with rfl | rfl <;> rcases hb' with rfl | rfl <;> kernel_rfl)
    (all_cons (by intro b b' hb hb' x hx line l; rcases hb with rfl | rfl <;> rcases hb' with rfl | rfl <;> kernel_rfl)
    (all_cons (by intro b b' hb hb' x hx line l; rcases hb with rfl | rfl <;> rcases hb' with rfl | rfl <;> kernel_rfl)
    (all_cons (by intro b b' hb hb' x hx line l; rcases hb with rfl | rfl <;> rcases hb' with rfl | rfl <;> kernel_rfl)
    (all_cons (by intro b b' hb hb' x hx line l; rcases hb with rfl | rfl <;> rcases hb' with rfl | rfl <;> kernel_rfl)
    (all_cons (by intro b b' hb hb' x hx line l; (cases x with | nil => exact absurd rfl hx | cons a x => rcases hb with rfl | rfl <;> rcases hb' with rfl | rfl <;> kernel_rfl))
    (all_cons (by intro b b' hb hb' x hx line l; (cases x with | nil => exact absurd rfl hx | cons a x => rcases hb with rfl | rfl <;> rcases hb' with rfl | rfl <;> kernel_rfl))
    (all_cons (by intro b b' hb hb' x hx line l; (cases x with | nil => exact absurd rfl hx | cons a x => rcases hb with rfl | rfl <;> rcases hb' with rfl | rfl <;> kernel_rfl))
    (all_cons (by intro b b' hb hb' x hx line l; (cases x with | nil => exact absurd rfl hx | cons a x => rcases hb with rfl | rfl <;> rcases hb' with rfl | rfl <;> kernel_rfl))
    (all_cons (by intro b b' hb hb' x hx line l; (cases x with | nil => exact absurd rfl hx | cons a x => rcases hb with rfl | rfl <;> rcases hb' with rfl | rfl <;> kernel_rfl))
    (all_cons (by intro b b' hb hb' x hx line l; rcases hb with rfl | rfl <;> rcases hb' with rfl | rfl <;> kernel_rfl)
    (all_cons (by intro b b' hb hb' x hx line l; rcases hb with rfl | rfl <;> rcases hb' with rfl | rfl <;> kernel_rfl)
    (all_cons (by intro b b' hb hb' x hx line l; rcases hb with rfl | rfl <;> rcases hb' with rfl | rfl <;> kernel_rfl)
    (List.forall_mem_nil _))))))))))))))

theorem obeys_logvolLines_10 : ∀ v, [Version.F23, Version.F24, Version.F25, Version.F26, Version.F27, Version.F28].contains v = true → Command.Obeys (F23_LogVol.cls F23_LogVolData.cls) logvolLines v :=
  obeys_of obeys_logvolLines_10_object [0] [27, 34, 37, 38, 41, 42, 43, 45, 46, 48, 50, 52, 54] (obeys_logvolLines_10_base _) (all_cons obeys_logvolLines_10_start (List.forall_mem_nil _)) (obeys_logvolLines_10_lines _) (by decide +kernel)

def obeys_logvolLines_11_object (l : Nat) : Ns := [(c!"lineno", .int l), (c!"fstype", .str c!""), (c!"grow", .bool false), (c!"maxSizeMB", .int 0), (c!"name", .str c!"n"), (c!"format", .bool true), (c!"percent", .int 0), (c!"recommended", .bool false), (c!"size", .int 1), (c!"preexist", .bool false), (c!"vgname", .str c!"g"), (c!"mountpoint", .str c!"/x"), (c!"fsopts", .str c!""), (c!"fsprofile", .str c!""), (c!"encrypted", .bool false), (c!"passphrase", .str c!""), (c!"escrowcert", .str c!""), (c!"backuppassphrase", .bool false), (c!"label", .str c!""), (c!"resize", .bool false), (c!"hibernation", .bool false), (c!"cipher", .str c!""), (c!"thin_pool", .bool false), (c!"thin_volume", .bool false), (c!"pool_name", .str c!""), (c!"chunk_size", .none), (c!"metadata_size", .none), (c!"profile", .str c!""), (c!"cache_size", .int 0), (c!"cache_mode", .str c!""), (c!"cache_pvs", .list []), (c!"mkfsopts", .str c!""), (c!"luks_version", .str c!""), (c!"pbkdf", .str c!""), (c!"pbkdf_memory", .int 0), (c!"pbkdf_time", .int 0), (c!"pbkdf_iterations", .int 0), (c!"mntpoint", .list [c!"/x"])]

theorem obeys_logvolLines_11_base (n : Str) : Command.FirstBase (F29_LogVol.cls F29_LogVolData.cls) n [c!"/x", c!"--name=n", c!"--vgname=g", c!"--size=1"] obeys_logvolLines_11_object := by
  intro b b' hb hb' line l; rcases hb with rfl | rfl <;> rcases hb' with rfl | rfl <;> kernel_rfl

theorem obeys_logvolLines_11_start : Command.FirstStart (F29_LogVol.cls F29_LogVolData.cls) obeys_logvolLines_11_object (logvolLines.start.getD 0 ([], [])).2 := fun _ => .inl ⟨fun _ => rfl, (all_cons (by kernel_rfl) (all_cons (by kernel_rfl) (all_cons (by kernel_rfl) (all_cons (by kernel_rfl) (all_cons (by kernel_rfl) (all_cons (by kernel_rfl) (List.forall_mem_nil _)))))))⟩

theorem obeys_logvolLines_11_lines (n : Str) : ∀ i ∈ [0, 1, 2, 3, 4, 7, 8, 9, 10, 11, 15, 17, 19, 22, 24, 26, 27, 29, 31, 33, 34, 36, 37, 38, 40, 41, 42, 43, 45, 47, 49, 51, 53, 55], Command.FirstLine (F29_LogVol.cls F29_LogVolData.cls) n [c!"/x", c!"--name=n", c!"--vgname=g", c!"--size=1"] obeys_logvolLines_11_object (logvolLines.lines.getD i noLine) :=
  (all_cons (by intro b b' hb hb' x hx line l; (cases x with | nil => exact absurd rfl hx | cons a x => rcases hb with rfl | rfl <;> rcases hb' with rfl | rfl <;> kernel_rfl))
    (all_cons (by intro b b' hb hb' x hx line l; rcases hb with rfl | rfl <;> rcases hb' with rfl | rfl <;> kernel_rfl)
    (all_cons (by intro b b' hb hb' x hx line l; rcases hb with rfl | rfl <;> rcases hb' with rfl | rfl <;> kernel_rfl)
    (all_cons (by intro b b' hb hb' x hx line l; (cases x with | nil => exact absurd rfl hx | cons a x => rcases hb with rfl | rfl <;> rcases hb' with rfl | rfl <;> kernel_rfl))
    (all_cons (by intro b b' hb hb' x hx line l; rcases hb with rfl | rfl <;> rcases hb' with rfl | rfl <;> kernel_rfl)
    (all_cons (by intro b b' hb hb' x hx line l; rcases hb with rfl | rfl <;> rcases hb' with rfl | rfl <;> kernel_rfl)
    (all_cons (by intro b b' hb hb' x hx line l; rcases hb with rfl | rfl <;> rcases hb' with rfl | rfl <;> kernel_rfl)
    (all_cons (by intro b b' hb hb' x hx line l; rcases hb with rfl | rfl <;> rcases hb' with rfl | rfl <;> kernel_rfl)
    (all_cons (by intro b b' hb hb' x hx line l; (cases x with | nil => exact absurd rfl hx | cons a x => rcases hb with rfl | rfl <;> rcases hb' with rfl | rfl <;> kernel_rfl))
    (all_cons (by intro b b' hb hb' x hx line l; (cases x with | nil => exact absurd rfl hx | cons a x => rcases hb with rfl | rfl <;> rcases hb' with rfl | rfl <;> kernel_rfl))
    (all_cons (by intro b b' hb hb' x hx line l; (cases x with | nil => exact absurd rfl hx | cons a x => rcases hb with rfl | rfl <;> rcases hb' with rfl | rfl <;> kernel_rfl))
    (all_cons (by intro b b' hb hb' x hx line l; rcases hb with rfl | rfl <;> rcases hb' with rfl | rfl <;> kernel_rfl)
    (all_cons (by intro b b' hb hb' x hx line l; (cases x with | nil => exact absurd rfl hx | cons a x => rcases hb with rfl | rfl <;> rcases hb' with rfl | rfl <;> kernel_rfl))
    (all_cons (by intro b b' hb hb' x hx line l; (cases x with | nil => exact absurd rfl hx | cons a x => rcases hb with rfl | rfl <;> rcases hb' with rfl | rfl <;> kernel_rfl))
    (all_cons (by intro b b' hb hb' x hx line l; rcases hb with rfl | rfl <;> rcases hb' with rfl | rfl <;> kernel_rfl)
    (all_cons (by intro b b' hb hb' x hx line l; (cases x with | nil => exact absurd rfl hx | cons a x => rcases hb with rfl | rfl <;> rcases hb' with rfl | rfl <;> kernel_rfl))
    (all_cons (by intro b b' hb hb' x hx line l; rcases hb with rfl | rfl <;> rcases hb' with rfl | rfl <;> kernel_rfl)
    (all_cons (by intro b b' hb hb' x hx line l; rcases hb with rfl | rfl <;> rcases hb' with rfl | rfl <;> kernel_rfl)
    (all_cons (by intro b b' hb hb' x hx line l; (cases x with | nil => exact absurd rfl hx | cons a x => rcases hb with rfl | rfl <;> rcases hb' with rfl | rfl <;> kernel_rfl))
    (all_cons (by intro b b' hb hb' x hx line l; rcases hb with rfl | rfl <;> rcases hb' with rfl | rfl <;> kernel_rfl)
    (all_cons (by intro b b' hb hb' x hx line l; rcases hb with rfl | rfl <;> rcases hb' with rfl | rfl <;> kernel_rfl)
    (all_cons (by intro b b' hb hb' x hx line l; (cases x with | nil => exact absurd rfl hx | cons a x => rcases hb with rfl | rfl <;> rcases hb' with rfl | rfl <;> kernel_rfl))
    (all_cons (by intro b b' hb hb' x hx line l; rcases hb with rfl | rfl <;> rcases hb' with rfl | rfl <;> kernel_rfl)
    (all_cons (by intro b b' hb hb' x hx line l; rcases hb with rfl | rfl <;> rcases hb' with rfl | rfl <;> kernel_rfl)
    (all_cons (by intro b b' hb hb' x hx line l; (cases x with | nil => exact absurd rfl hx | cons a x => rcases hb with rfl | rfl <;> rcases hb' with rfl | rfl <;> kernel_rfl))
    (all_cons (by intro b b' hb hb' x hx line l; rcases hb with rfl | rfl <;> rcases hb' with rfl | rfl <;> kernel_rfl)
    (all_cons (by intro b b' hb hb' x hx line l; (cases x with | nil => exact absurd rfl hx | cons a x => rcases hb with rfl | rfl <;> rcases hb' with rfl | rfl <;> kernel_rfl))
    (all_cons (by intro b b' hb hb' x hx line l; (cases x with | nil => exact absurd rfl hx | cons a x => rcases hb with rfl | rfl <;> rcases hb' with rfl | rfl <;> kernel_rfl))
    (all_cons (by intro b b' hb hb' x hx line l; (cases x with | nil => exact absurd rfl hx | cons a x => rcases hb with rfl | rfl <;> rcases hb' with rfl | rfl <;> kernel_rfl))
    (all_cons (by intro b b' hb hb' x hx line l; (cases x with | nil => exact absurd rfl hx | cons a x => rcases hb with rfl | rfl <;> rcases hb' with rfl | rfl <;> kernel_rfl))
    (all_cons (by intro b b' hb hb' x hx line l; (cases x with | nil => exact absurd rfl hx | cons a x => rcases hb with rfl | rfl <;> rcases hb' with rfl | rfl <;> kernel_rfl))
    (all_cons (by intro b b' hb hb' x hx line l; rcases hb with rfl | rfl <;> rcases hb' with rfl | rfl <;> kernel_rfl)
    (all_cons (by intro b b' hb hb' x hx line l; rcases hb with rfl | rfl <;> rcases hb' with rfl | rfl <;> kernel_rfl)
    (all_cons (by intro b b' hb hb' x hx line l; rcases hb with rfl | rfl <;> rcases hb' with rfl | rfl <;> kernel_rfl)
    (List.forall_mem_nil _)))))))))))))))))))))))))))))))))))

theorem obeys_logvolLines_11 : ∀ v, [Version.F29, Version.F30, Version.F31, Version.F32, Version.F33, Version.F34].contains v = true → Command.Obeys (F29_LogVol.cls F29_LogVolData.cls) logvolLines v :=
  obeys_of obeys_logvolLines_11_object [0] [0, 1, 2, 3, 4, 7, 8, 9, 10, 11, 15, 17, 19, 22, 24, 26, 27, 29, 31, 33, 34, 36, 37, 38, 40, 41, 42, 43, 45, 47, 49, 51, 53, 55] (obeys_logvolLines_11_base _) (all_cons obeys_logvolLines_11_start (List.forall_mem_nil _)) (obeys_logvolLines_11_lines _) (by decide +kernel)

def obeys_logvolLines_12_object (l : Nat) : Ns := [(c!"lineno", .int l), (c!"fstype", .str c!""), (c!"grow", .bool false), (c!"maxSizeMB", .int 0), (c!"name", .str c!"n"), (c!"format", .bool true), (c!"percent", .int 0), (c!"recommended", .bool false), (c!"size", .int 1), (c!"preexist", .bool false), (c!"vgname", .str c!"g"), (c!"mountpoint", .str c!"/x"), (c!"bytesPerInode", .int 4096), (c!"fsopts", .str c!""), (c!"mntpoint", .list [c!"/x"])]

theorem obeys_logvolLines_12_base (n : Str) : Command.FirstBase (FC4_LogVol.cls FC4_LogVolData.cls) n [c!"/x", c!"--name=n", c!"--vgname=g", c!"--size=1"] obeys_logvolLines_12_object := by
  intro b b' hb hb' line l; kernel_rfl

theorem obeys_logvolLines_12_start : Command.FirstStart (FC4_LogVol.cls FC4_LogVolData.cls) obeys_logvolLines_12_object (logvolLines.start.getD 1 ([], [])).2 := fun _ => .inl ⟨fun _ => rfl, (all_cons (by kernel_rfl) (all_cons (by kernel_rfl) (all_cons (by kernel_rfl) (all_cons (by kernel_rfl) (all_cons (by kernel_rfl) (all_cons (by kernel_rfl) (all_cons (by kernel_rfl) (List.forall_mem_nil _))))))))⟩

theorem obeys_logvolLines_12_lines (n : Str) : ∀ i ∈ [11, 14, 16, 18, 20, 27, 34, 37, 38, 41, 42, 43, 58], Command.FirstLine (FC4_LogVol.cls FC4_LogVolData.cls) n [c!"/x", c!"--name=n", c!"--vgname=g", c!"--size=1"] obeys_logvolLines_12_object (logvolLines.lines.getD i noLine) :=
  (all_cons (by intro b b' hb hb' x hx line l; (cases x with | nil => exact absurd rfl hx | cons a x => kernel_rfl))
    (all_cons (by intro b b' hb hb' x hx line l; (cases x with | nil => exact absurd rfl hx | cons a x => kernel_rfl))
    (all_cons (by intro b b' hb hb' x hx line l; (cases x with | nil => exact absurd rfl hx | cons a x => kernel_rfl))
    (all_cons (by intro b b' hb hb' x hx line l; kernel_rfl)
    (all_cons (by intro b b' hb hb' x hx line l; (cases x with | nil => exact absurd rfl hx | cons a x => kernel_rfl))
    (all_cons (by intro b b' hb hb' x hx line l; kernel_rfl)
    (all_cons (by intro b b' hb hb' x hx line l; kernel_rfl)
    (all_cons (by intro b b' hb hb' x hx line l; kernel_rfl)
    (all_cons (by intro b b' hb hb' x hx line l; kernel_rfl)
    (all_cons (by intro b b' hb hb' x hx line l; kernel_rfl)
    (all_cons (by intro b b' hb hb' x hx line l; (cases x with | nil => exact absurd rfl hx | cons a x => kernel_rfl))
    (all_cons (by intro b b' hb hb' x hx line l; (cases x with | nil => exact absurd rfl hx | cons a x => kernel_rfl))
    (all_cons (by intro b b' hb hb' x hx line l; kernel_rfl)
    (List.forall_mem_nil _))))))))))))))

theorem obeys_logvolLines_12 : ∀ v, [Version.FC4, Version.FC5, Version.FC6, Version.F7, Version.F8].contains v = true → Command.Obeys (FC4_LogVol.cls FC4_LogVolData.cls) logvolLines v :=
  obeys_of obeys_logvolLines_12_object [1] [11, 14, 16, 18, 20, 27, 34, 37, 38, 41, 42, 43, 58] (obeys_logvolLines_12_base _) (all_cons obeys_logvolLines_12_start (List.forall_mem_nil _)) (obeys_logvolLines_12_lines _) (by decide +kernel)

def obeys_logvolLines_13_object (l : Nat) : Ns := [(c!"lineno", .int l), (c!"fstype", .str c!""), (c!"grow", .bool false), (c!"maxSizeMB", .int 0), (c!"name", .str c!"n"), (c!"format", .bool true), (c!"percent", .int 0), (c!"recommended", .bool false), (c!"size", .int 1), (c!"preexist", .bool false), (c!"vgname", .str c!"g"), (c!"mountpoint", .str c!"/x"), (c!"mntpoint", .list [c!"/x"])]

theorem obeys_logvolLines_13_base (n : Str) : Command.FirstBase (FC3_LogVol.cls FC3_LogVolData.cls) n [c!"/x", c!"--name=n", c!"--vgname=g", c!"--size=1"] obeys_logvolLines_13_object := by
  intro b b' hb hb' line l; kernel_rfl

theorem obeys_logvolLines_13_start : Command.FirstStart (FC3_LogVol.cls FC3_LogVolData.cls) obeys_logvolLines_13_object (logvolLines.start.getD 0 ([], [])).2 := fun _ => .inl ⟨fun _ => rfl, (all_cons (by kernel_rfl) (all_cons (by kernel_rfl) (all_cons (by kernel_rfl) (all_cons (by kernel_rfl) (all_cons (by kernel_rfl) (all_cons (by kernel_rfl) (List.forall_mem_nil _)))))))⟩

theorem obeys_logvolLines_13_lines (n : Str) : ∀ i ∈ [0, 1, 2, 3, 4, 6, 7, 8, 9, 10, 12, 27, 34, 37, 38, 41, 42, 43, 57], Command.FirstLine (FC3_LogVol.cls FC3_LogVolData.cls) n [c!"/x", c!"--name=n", c!"--vgname=g", c!"--size=1"] obeys_logvolLines_13_object (logvolLines.lines.getD i noLine) :=
  (all_cons (by intro b b' hb hb' x hx line l; (cases x with | nil => exact absurd rfl hx | cons a x => kernel_rfl))
    (all_cons (by intro b b' hb hb' x hx line l; kernel_rfl)
    (all_cons (by intro b b' hb hb' x hx line l; kernel_rfl)
    (all_cons (by intro b b' hb hb' x hx line l; (cases x with | nil => exact absurd rfl hx | cons a x => kernel_rfl))
    (all_cons (by intro b b' hb hb' x hx line l; kernel_rfl)
    (all_cons (by intro b b' hb hb' x hx line l; kernel_rfl)
    (all_cons (by intro b b' hb hb' x hx line l; kernel_rfl)
    (all_cons (by intro b b' hb hb' x hx line l; kernel_rfl)
    (all_cons (by intro b b' hb hb' x hx line l; kernel_rfl)
    (all_cons (by intro b b' hb hb' x hx line l; (cases x with | nil => exact absurd rfl hx | cons a x => kernel_rfl))
    (all_cons (by intro b b' hb hb' x hx line l; (cases x with | nil => exact absurd rfl hx | cons a x => kernel_rfl))
    (all_cons (by intro b b' hb hb' x hx line l; kernel_rfl)
    (all_cons (by intro b b' hb hb' x hx line l; kernel_rfl)
    (all_cons (by intro b b' hb hb' x hx line l; kernel_rfl)
    (all_cons (by intro b b' hb hb' x hx line l; kernel_rfl)
    (all_cons (by intro b b' hb hb' x hx line l; kernel_rfl)
    (all_cons (by intro b b' hb hb' x hx line l; (cases x with | nil => exact absurd rfl hx | cons a x => kernel_rfl))
    (all_cons (by intro b b' hb hb' x hx line l; (cases x with | nil => exact absurd rfl hx | cons a x => kernel_rfl))
    (all_cons (by intro b b' hb hb' x hx line l; kernel_rfl)
    (List.forall_mem_nil _))))))))))))))))))))

theorem obeys_logvolLines_13 : ∀ v, [Version.RHEL3, Version.FC3, Version.RHEL4].contains v = true → Command.Obeys (FC3_LogVol.cls FC3_LogVolData.cls) logvolLines v :=
  obeys_of obeys_logvolLines_13_object [0] [0, 1, 2, 3, 4, 6, 7, 8, 9, 10, 12, 27, 34, 37, 38, 41, 42, 43, 57] (obeys_logvolLines_13_base _) (all_cons obeys_logvolLines_13_start (List.forall_mem_nil _)) (obeys_logvolLines_13_lines _) (by decide +kernel)

def obeys_logvolLines_14_object (l : Nat) : Ns := [(c!"lineno", .int l), (c!"fstype", .str c!""), (c!"grow", .bool false), (c!"maxSizeMB", .int 0), (c!"name", .str c!"n"), (c!"format", .bool true), (c!"percent", .int 0), (c!"recommended", .bool false), (c!"size", .int 1), (c!"preexist", .bool false), (c!"vgname", .str c!"g"), (c!"mountpoint", .str c!"/x"), (c!"bytesPerInode", .int 4096), (c!"fsopts", .str c!""), (c!"encrypted", .bool false), (c!"passphrase", .str c!""), (c!"mntpoint", .list [c!"/x"])]

theorem obeys_logvolLines_14_base (n : Str) : Command.FirstBase (RHEL5_LogVol.cls RHEL5_LogVolData.cls) n [c!"/x", c!"--name=n", c!"--vgname=g", c!"--size=1"] obeys_logvolLines_14_object := by
  intro b b' hb hb' line l; kernel_rfl

theorem obeys_logvolLines_14_start : Command.FirstStart (RHEL5_LogVol.cls RHEL5_LogVolData.cls) obeys_logvolLines_14_object (logvolLines.start.getD 1 ([], [])).2 := fun _ => .inl ⟨fun _ => rfl, (all_cons (by kernel_rfl) (all_cons (by kernel_rfl) (all_cons (by kernel_rfl) (all_cons (by kernel_rfl) (all_cons (by kernel_rfl) (all_cons (by kernel_rfl) (all_cons (by kernel_rfl) (List.forall_mem_nil _))))))))⟩

theorem obeys_logvolLines_14_lines (n : Str) : ∀ i ∈ [17, 19, 27, 34, 37, 38, 41, 42, 43], Command.FirstLine (RHEL5_LogVol.cls RHEL5_LogVolData.cls) n [c!"/x", c!"--name=n", c!"--vgname=g", c!"--size=1"] obeys_logvolLines_14_object (logvolLines.lines.getD i noLine) :=
  (all_cons (by intro b b' hb hb' x hx line l; kernel_rfl)
    (all_cons (by intro b b' hb hb' x hx line l; (cases x with | nil => exact absurd rfl hx | cons a x => kernel_rfl))
    (all_cons (by intro b b' hb hb' x hx line l; kernel_rfl)
    (all_cons (by intro b b' hb hb' x hx line l; kernel_rfl)
    (all_cons (by intro b b' hb hb' x hx line l; kernel_rfl)
    (all_cons (by intro b b' hb hb' x hx line l; kernel_rfl)
    (all_cons (by intro b b' hb hb' x hx line l; kernel_rfl)
    (all_cons (by intro b b' hb hb' x hx line l; (cases x with | nil => exact absurd rfl hx | cons a x => kernel_rfl))
    (all_cons (by intro b b' hb hb' x hx line l; (cases x with | nil => exact absurd rfl hx | cons a x => kernel_rfl))
    (List.forall_mem_nil _))))))))))

theorem obeys_logvolLines_14 : ∀ v, [Version.RHEL5].contains v = true → Command.Obeys (RHEL5_LogVol.cls RHEL5_LogVolData.cls) logvolLines v :=
  obeys_of obeys_logvolLines_14_object [1] [17, 19, 27, 34, 37, 38, 41, 42, 43] (obeys_logvolLines_14_base _) (all_cons obeys_logvolLines_14_start (List.forall_mem_nil _)) (obeys_logvolLines_14_lines _) (by decide +kernel)

def obeys_logvolLines_15_object (l : Nat) : Ns := [(c!"lineno", .int l), (c!"fstype", .str c!""), (c!"grow", .bool false), (c!"maxSizeMB", .int 0), (c!"name", .str c!"n"), (c!"format", .bool true), (c!"percent", .int 0), (c!"recommended", .bool false), (c!"size", .int 1), (c!"preexist", .bool false), (c!"vgname", .str c!"g"), (c!"mountpoint", .str c!"/x"), (c!"fsopts", .str c!""), (c!"fsprofile", .str c!""), (c!"encrypted", .bool false), (c!"passphrase", .str c!""), (c!"escrowcert", .str c!""), (c!"backuppassphrase", .bool false), (c!"cipher", .str c!""), (c!"hibernation", .bool false), (c!"thin_pool", .bool false), (c!"thin_volume", .bool false), (c!"pool_name", .str c!""), (c!"chunk_size", .none), (c!"metadata_size", .none), (c!"profile", .str c!""), (c!"mntpoint", .list [c!"/x"])]

theorem obeys_logvolLines_15_base (n : Str) : Command.FirstBase (RHEL6_LogVol.cls RHEL6_LogVolData.cls) n [c!"/x", c!"--name=n", c!"--vgname=g", c!"--size=1"] obeys_logvolLines_15_object := by
  intro b b' hb hb' line l; kernel_rfl

theorem obeys_logvolLines_15_start : Command.FirstStart (RHEL6_LogVol.cls RHEL6_LogVolData.cls) obeys_logvolLines_15_object (logvolLines.start.getD 0 ([], [])).2 := fun _ => .inl ⟨fun _ => rfl, (all_cons (by kernel_rfl) (all_cons (by kernel_rfl) (all_cons (by kernel_rfl) (all_cons (by kernel_rfl) (all_cons (by kernel_rfl) (all_cons (by kernel_rfl) (List.forall_mem_nil _)))))))⟩

theorem obeys_logvolLines_15_lines (n : Str) : ∀ i ∈ [27, 29, 31, 33, 34, 36, 37, 38, 40, 41, 42, 43], Command.FirstLine (RHEL6_LogVol.cls RHEL6_LogVolData.cls) n [c!"/x", c!"--name=n", c!"--vgname=g", c!"--size=1"] obeys_logvolLines_15_object (logvolLines.lines.getD i noLine) :=
  (all_cons (by intro b b' hb hb' x hx line l; kernel_rfl)
    (all_cons (by intro b b' hb hb' x hx line l; kernel_rfl)
    (all_cons (by intro b b' hb hb' x hx line l; (cases x with | nil => exact absurd rfl hx | cons a x => kernel_rfl))
    (all_cons (by intro b b' hb hb' x hx line l; kernel_rfl)
    (all_cons (by intro b b' hb hb' x hx line l; kernel_rfl)
    (all_cons (by intro b b' hb hb' x hx line l; (cases x with | nil => exact absurd rfl hx | cons a x => kernel_rfl))
    (all_cons (by intro b b' hb hb' x hx line l; kernel_rfl)
    (all_cons (by intro b b' hb hb' x hx line l; kernel_rfl)
    (all_cons (by intro b b' hb hb' x hx line l; (cases x with | nil => exact absurd rfl hx | cons a x => kernel_rfl))
    (all_cons (by intro b b' hb hb' x hx line l; kernel_rfl)
    (all_cons (by intro b b' hb hb' x hx line l; (cases x with | nil => exact absurd rfl hx | cons a x => kernel_rfl))
    (all_cons (by intro b b' hb hb' x hx line l; (cases x with | nil => exact absurd rfl hx | cons a x => kernel_rfl))
    (List.forall_mem_nil _)))))))))))))

theorem obeys_logvolLines_15 : ∀ v, [Version.RHEL6].contains v = true → Command.Obeys (RHEL6_LogVol.cls RHEL6_LogVolData.cls) logvolLines v :=
  obeys_of obeys_logvolLines_15_object [0] [27, 29, 31, 33, 34, 36, 37, 38, 40, 41, 42, 43] (obeys_logvolLines_15_base _) (all_cons obeys_logvolLines_15_start (List.forall_mem_nil _)) (obeys_logvolLines_15_lines _) (by decide +kernel)

def obeys_logvolLines_16_object (l : Nat) : Ns := [(c!"lineno", .int l), (c!"fstype", .str c!""), (c!"grow", .bool false), (c!"maxSizeMB", .int 0), (c!"name", .str c!"n"), (c!"format", .bool true), (c!"percent", .int 0), (c!"recommended", .bool false), (c!"size", .int 1), (c!"preexist", .bool false), (c!"vgname", .str c!"g"), (c!"mountpoint", .str c!"/x"), (c!"fsopts", .str c!""), (c!"fsprofile", .str c!""), (c!"encrypted", .bool false), (c!"passphrase", .str c!""), (c!"escrowcert", .str c!""), (c!"backuppassphrase", .bool false), (c!"label", .str c!""), (c!"resize", .bool false), (c!"hibernation", .bool false), (c!"cipher", .str c!""), (c!"thin_pool", .bool false), (c!"thin_volume", .bool false), (c!"pool_name", .str c!""), (c!"chunk_size", .none), (c!"metadata_size", .none), (c!"profile", .str c!""), (c!"mkfsopts", .str c!""), (c!"mntpoint", .list [c!"/x"])]

theorem obeys_logvolLines_16_base (n : Str) : Command.FirstBase (RHEL7_LogVol.cls RHEL7_LogVolData.cls) n [c!"/x", c!"--name=n", c!"--vgname=g", c!"--size=1"] obeys_logvolLines_16_object := by
  intro b b' hb hb' line l; rcases hb with rfl | rfl <;> rcases hb' with rfl | rfl <;> kernel_rfl

theorem obeys_logvolLines_16_start : Command.FirstStart (RHEL7_LogVol.cls RHEL7_LogVolData.cls) obeys_logvolLines_16_object (logvolLines.start.getD 0 ([], [])).2 := fun _ => .inl ⟨fun _ => rfl, (all_cons (by kernel_rfl) (all_cons (by kernel_rfl) (all_cons (by kernel_rfl) (all_cons (by kernel_rfl) (all_cons (by kernel_rfl) (all_cons (by kernel_rfl) (List.forall_mem_nil _)))))))⟩

theorem obeys_logvolLines_16_lines (n : Str) : ∀ i ∈ [27, 34, 37, 38, 41, 42, 43, 45], Command.FirstLine (RHEL7_LogVol.cls RHEL7_LogVolData.cls) n [c!"/x", c!"--name=n", c!"--vgname=g", c!"--size=1"] obeys_logvolLines_16_object (logvolLines.lines.getD i noLine) :=
  (all_cons (by intro b b' hb hb' x hx line l; rcases hb with rfl | rfl <;> rcases hb' with rfl | rfl <;> kernel_rfl)
    (all_cons (by intro b b' hb hb' x hx line l; rcases hb with rfl | rfl <;> rcases hb' with rfl | rfl <;> kernel_rfl)
    (all_cons (by intro b b' hb hb' x hx line l; rcases hb with rfl | rfl <;> rcases hb' with rfl | rfl <;> kernel_rfl)
    (all_cons (by intro b b' hb hb' x hx line l; rcases hb with rfl | rfl <;> rcases hb' with rfl | rfl <;> kernel_rfl)
    (all_cons (by intro b b' hb hb' x hx line l; rcases hb with rfl | rfl <;> rcases hb' with rfl | rfl <;> kernel_rfl)
    (all_cons (by intro b b' hb hb' x hx line l; (cases x with | nil => exact absurd rfl hx | cons a x => rcases hb with rfl | rfl <;> rcases hb' with rfl | rfl <;> kernel_rfl))
    (all_cons (by intro b b' hb hb' x hx line l; (cases x with | nil => exact absurd rfl hx | cons a x => rcases hb with rfl | rfl <;> rcases hb' with rfl | rfl <;> kernel_rfl))
    (all_cons (by intro b b' hb hb' x hx line l; (cases x with | nil => exact absurd rfl hx | cons a x => rcases hb with rfl | rfl <;> rcases hb' with rfl | rfl <;> kernel_rfl))
    (List.forall_mem_nil _)))))))))

theorem obeys_logvolLines_16 : ∀ v, [Version.RHEL7].contains v = true → Command.Obeys (RHEL7_LogVol.cls RHEL7_LogVolData.cls) logvolLines v :=
  obeys_of obeys_logvolLines_16_object [0] [27, 34, 37, 38, 41, 42, 43, 45] (obeys_logvolLines_16_base _) (all_cons obeys_logvolLines_16_start (List.forall_mem_nil _)) (obeys_logvolLines_16_lines _) (by decide +kernel)

def obeys_logvolLines_17_object (l : Nat) : Ns := [(c!"lineno", .int l), (c!"fstype", .str c!""), (c!"grow", .bool false), (c!"maxSizeMB", .int 0), (c!"name", .str c!"n"), (c!"format", .bool true), (c!"percent", .int 0), (c!"recommended", .bool false), (c!"size", .int 1), (c!"preexist", .bool false), (c!"vgname", .str c!"g"), (c!"mountpoint", .str c!"/x"), (c!"fsopts", .str c!""), (c!"fsprofile", .str c!""), (c!"encrypted", .bool false), (c!"passphrase", .str c!""), (c!"escrowcert", .str c!""), (c!"backuppassphrase", .bool false), (c!"label", .str c!""), (c!"resize", .bool false), (c!"hibernation", .bool false), (c!"cipher", .str c!""), (c!"thin_pool", .bool false), (c!"thin_volume", .bool false), (c!"pool_name", .str c!""), (c!"chunk_size", .none), (c!"metadata_size", .none), (c!"profile", .str c!""), (c!"cache_size", .int 0), (c!"cache_mode", .str c!""), (c!"cache_pvs", .list []), (c!"mkfsopts", .str c!""), (c!"luks_version", .str c!""), (c!"pbkdf", .str c!""), (c!"pbkdf_memory", .int 0), (c!"pbkdf_time", .int 0), (c!"pbkdf_iterations", .int 0), (c!"mntpoint", .list [c!"/x"])]

theorem obeys_logvolLines_17_base (n : Str) : Command.FirstBase (RHEL8_LogVol.cls RHEL8_LogVolData.cls) n [c!"/x", c!"--name=n", c!"--vgname=g", c!"--size=1"] obeys_logvolLines_17_object := by
  intro b b' hb hb' line l; rcases hb with rfl | rfl <;> rcases hb' with rfl | rfl <;> kernel_rfl

theorem obeys_logvolLines_17_start : Command.FirstStart (RHEL8_LogVol.cls RHEL8_LogVolData.cls) obeys_logvolLines_17_object (logvolLines.start.getD 0 ([], [])).2 := fun _ => .inl ⟨fun _ => rfl, (all_cons (by kernel_rfl) (all_cons (by kernel_rfl) (all_cons (by kernel_rfl) (all_cons (by kernel_rfl) (all_cons (by kernel_rfl) (all_cons (by kernel_rfl) (List.forall_mem_nil _)))))))⟩

theorem obeys_logvolLines_17_lines (n : Str) : ∀ i ∈ [27, 34, 37, 38, 41, 42, 43, 47, 49, 51, 53, 55], Command.FirstLine (RHEL8_LogVol.cls RHEL8_LogVolData.cls) n [c!"/x", c!"--name=n", c!"--vgname=g", c!"--size=1"] obeys_logvolLines_17_object (logvolLines.lines.getD i noLine) :=
  (all_cons (by intro b b' hb hb' x hx line l; rcases hb with rfl | rfl <;> rcases hb' with rfl | rfl <;> kernel_rfl)
    (all_cons (by intro b b' hb hb' x hx line l; rcases hb with rfl | rfl <;> rcases hb' with rfl | rfl <;> kernel_rfl)
    (all_cons (by intro b b' hb hb' x hx line l; rcases hb with rfl | rfl <;> rcases hb' with rfl | rfl <;> kernel_rfl)
    (all_cons (by intro b b' hb hb' x hx line l; rcases hb with rfl | rfl <;> rcases hb' with rfl | rfl <;> kernel_rfl)
    (all_cons (by intro b b' hb hb' x hx line l; rcases hb with rfl | rfl <;> rcases hb' with rfl | rfl <;> kernel_rfl)
    (all_cons (by intro b b' hb hb' x hx line l; (cases x with | nil => exact absurd rfl hx | cons a x => rcases hb with rfl | rfl <;> rcases hb' with rfl | rfl <;> kernel_rfl))
    (all_cons (by intro b b' hb hb' x hx line l; (cases x with | nil => exact absurd rfl hx | cons a x => rcases hb with rfl | rfl <;> rcases hb' with rfl | rfl <;> kernel_rfl))
    (all_cons (by intro b b' hb hb' x hx line l; (cases x with | nil => exact absurd rfl hx | cons a x => rcases hb with rfl | rfl <;> rcases hb' with rfl | rfl <;> kernel_rfl))
    (all_cons (by intro b b' hb hb' x hx line l; (cases x with | nil => exact absurd rfl hx | cons a x => rcases hb with rfl | rfl <;> rcases hb' with rfl | rfl <;> kernel_rfl))
    (all_cons (by intro b b' hb hb' x hx line l; rcases hb with rfl | rfl <;> rcases hb' with rfl | rfl <;> kernel_rfl)
    (all_cons (by intro b b' hb hb' x hx line l; rcases hb with rfl | rfl <;> rcases hb' with rfl | rfl <;> kernel_rfl)
    (all_cons (by intro b b' hb hb' x hx line l; rcases hb with rfl | rfl <;> rcases hb' with rfl | rfl <;> kernel_rfl)
    (List.forall_mem_nil _)))))))))))))

theorem obeys_logvolLines_17 : ∀ v, [Version.RHEL8].contains v = true → Command.Obeys (RHEL8_LogVol.cls RHEL8_LogVolData.cls) logvolLines v :=
  obeys_of obeys_logvolLines_17_object [0] [27, 34, 37, 38, 41, 42, 43, 47, 49, 51, 53, 55] (obeys_logvolLines_17_base _) (all_cons obeys_logvolLines_17_start (List.forall_mem_nil _)) (obeys_logvolLines_17_lines _) (by decide +kernel)

theorem obeys_logvolLines : logvolLines.Obeyed := by
  unfold CommandLines.Obeyed commandMaps
  exact (all_cons (fun _ c h => by cases h; exact obeys_logvolLines_0 _ rfl)
    (all_cons (fun _ c h => by cases h; exact obeys_logvolLines_0 _ rfl)
    (all_cons (fun _ c h => by cases h; exact obeys_logvolLines_1 _ rfl)
    (all_cons (fun _ c h => by cases h; exact obeys_logvolLines_1 _ rfl)
    (all_cons (fun _ c h => by cases h; exact obeys_logvolLines_2 _ rfl)
    (all_cons (fun _ c h => by cases h; exact obeys_logvolLines_3 _ rfl)
    (all_cons (fun _ c h => by cases h; exact obeys_logvolLines_4 _ rfl)
    (all_cons (fun _ c h => by cases h; exact obeys_logvolLines_5 _ rfl)
    (all_cons (fun _ c h => by cases h; exact obeys_logvolLines_6 _ rfl)
    (all_cons (fun _ c h => by cases h; exact obeys_logvolLines_7 _ rfl)
    (all_cons (fun _ c h => by cases h; exact obeys_logvolLines_8 _ rfl)
    (all_cons (fun _ c h => by cases h; exact obeys_logvolLines_9 _ rfl)
    (all_cons (fun _ c h => by cases h; exact obeys_logvolLines_9 _ rfl)
    (all_cons (fun _ c h => by cases h; exact obeys_logvolLines_10 _ rfl)
    (all_cons (fun _ c h => by cases h; exact obeys_logvolLines_10 _ rfl)
    (all_cons (fun _ c h => by cases h; exact obeys_logvolLines_10 _ rfl)
    (all_cons (fun _ c h => by cases h; exact obeys_logvolLines_10 _ rfl)
    (all_cons (fun _ c h => by cases h; exact obeys_logvolLines_10 _ rfl)
    (all_cons (fun _ c h => by cases h; exact obeys_logvolLines_10 _ rfl)
    (all_cons (fun _ c h => by cases h; exact obeys_logvolLines_11 _ rfl)
    (all_cons (fun _ c h => by cases h; exact obeys_logvolLines_11 _ rfl)
    (all_cons (fun _ c h => by cases h; exact obeys_logvolLines_11 _ rfl)
    (all_cons (fun _ c h => by cases h; exact obeys_logvolLines_11 _ rfl)
    (all_cons (fun _ c h => by cases h; exact obeys_logvolLines_11 _ rfl)
    (all_cons (fun _ c h => by cases h; exact obeys_logvolLines_11 _ rfl)
    (all_cons (fun _ c h => by cases h; exact obeys_logvolLines_12 _ rfl)
    (all_cons (fun _ c h => by cases h; exact obeys_logvolLines_12 _ rfl)
    (all_cons (fun _ c h => by cases h; exact obeys_logvolLines_0 _ rfl)
    (all_cons (fun _ c h => by cases h; exact obeys_logvolLines_13 _ rfl)
    (all_cons (fun _ c h => by cases h; exact obeys_logvolLines_12 _ rfl)
    (all_cons (fun _ c h => by cases h; exact obeys_logvolLines_12 _ rfl)
    (all_cons (fun _ c h => by cases h; exact obeys_logvolLines_12 _ rfl)
    (all_cons (fun _ c h => by cases h; exact obeys_logvolLines_13 _ rfl)
    (all_cons (fun _ c h => by cases h; exact obeys_logvolLines_13 _ rfl)
    (all_cons (fun _ c h => by cases h; exact obeys_logvolLines_14 _ rfl)
    (all_cons (fun _ c h => by cases h; exact obeys_logvolLines_15 _ rfl)
    (all_cons (fun _ c h => by cases h; exact obeys_logvolLines_16 _ rfl)
    (all_cons (fun _ c h => by cases h; exact obeys_logvolLines_17 _ rfl) (List.forall_mem_nil _)))))))))))))))))))))))))))))))))))))))

def obeys_logvolLines2_0_object (l : Nat) : Ns := [(c!"lineno", .int l), (c!"fstype", .str c!""), (c!"grow", .bool false), (c!"maxSizeMB", .int 0), (c!"name", .str c!"n"), (c!"format", .bool true), (c!"percent", .int 0), (c!"recommended", .bool false), (c!"size", .none), (c!"preexist", .bool true), (c!"vgname", .str c!"g"), (c!"mountpoint", .str c!"/x"), (c!"fsopts", .str c!""), (c!"fsprofile", .str c!""), (c!"encrypted", .bool false), (c!"passphrase", .str c!""), (c!"mntpoint", .list [c!"/x"])]

theorem obeys_logvolLines2_0_base (n : Str) : Command.FirstBase (F9_LogVol.cls F9_LogVolData.cls) n [c!"/x", c!"--name=n", c!"--vgname=g", c!"--useexisting"] obeys_logvolLines2_0_object := by
  intro b b' hb hb' line l; kernel_rfl

theorem obeys_logvolLines2_0_start : Command.FirstStart (F9_LogVol.cls F9_LogVolData.cls) obeys_logvolLines2_0_object (logvolLines2.start.getD 0 ([], [])).2 := fun _ => .inl ⟨fun _ => rfl, (all_cons (by kernel_rfl) (all_cons (by kernel_rfl) (all_cons (by kernel_rfl) (all_cons (by kernel_rfl) (all_cons (by kernel_rfl) (all_cons (by kernel_rfl) (List.forall_mem_nil _)))))))⟩

theorem obeys_logvolLines2_0_lines (n : Str) : ∀ i ∈ [1], Command.FirstLine (F9_LogVol.cls F9_LogVolData.cls) n [c!"/x", c!"--name=n", c!"--vgname=g", c!"--useexisting"] obeys_logvolLines2_0_object (logvolLines2.lines.getD i noLine) :=
  (all_cons (by intro b b' hb hb' x hx line l; kernel_rfl)
    (List.forall_mem_nil _))

theorem obeys_logvolLines2_0 : ∀ v, [Version.F9, Version.F10, Version.F11].contains v = true → Command.Obeys (F9_LogVol.cls F9_LogVolData.cls) logvolLines2 v :=
  obeys_of obeys_logvolLines2_0_object [0] [1] (obeys_logvolLines2_0_base _) (all_cons obeys_logvolLines2_0_start (List.forall_mem_nil _)) (obeys_logvolLines2_0_lines _) (by decide +kernel)

def obeys_logvolLines2_1_object (l : Nat) : Ns := [(c!"lineno", .int l), (c!"fstype", .str c!""), (c!"grow", .bool false), (c!"maxSizeMB", .int 0), (c!"name", .str c!"n"), (c!"format", .bool true), (c!"percent", .int 0), (c!"recommended", .bool false), (c!"size", .none), (c!"preexist", .bool true), (c!"vgname", .str c!"g"), (c!"mountpoint", .str c!"/x"), (c!"fsopts", .str c!""), (c!"fsprofile", .str c!""), (c!"encrypted", .bool false), (c!"passphrase", .str c!""), (c!"escrowcert", .str c!""), (c!"backuppassphrase", .bool false), (c!"mntpoint", .list [c!"/x"])]

theorem obeys_logvolLines2_1_base (n : Str) : Command.FirstBase (F12_LogVol.cls F12_LogVolData.cls) n [c!"/x", c!"--name=n", c!"--vgname=g", c!"--useexisting"] obeys_logvolLines2_1_object := by
  intro b b' hb hb' line l; kernel_rfl

theorem obeys_logvolLines2_1_start : Command.FirstStart (F12_LogVol.cls F12_LogVolData.cls) obeys_logvolLines2_1_object (logvolLines2.start.getD 0 ([], [])).2 := fun _ => .inl ⟨fun _ => rfl, (all_cons (by kernel_rfl) (all_cons (by kernel_rfl) (all_cons (by kernel_rfl) (all_cons (by kernel_rfl) (all_cons (by kernel_rfl) (all_cons (by kernel_rfl) (List.forall_mem_nil _)))))))⟩

theorem obeys_logvolLines2_1_lines (n : Str) : ∀ i ∈ [1], Command.FirstLine (F12_LogVol.cls F12_LogVolData.cls) n [c!"/x", c!"--name=n", c!"--vgname=g", c!"--useexisting"] obeys_logvolLines2_1_object (logvolLines2.lines.getD i noLine) :=
  (all_cons (by intro b b' hb hb' x hx line l; kernel_rfl)
    (List.forall_mem_nil _))

theorem obeys_logvolLines2_1 : ∀ v, [Version.F12, Version.F13].contains v = true → Command.Obeys (F12_LogVol.cls F12_LogVolData.cls) logvolLines2 v :=
  obeys_of obeys_logvolLines2_1_object [0] [1] (obeys_logvolLines2_1_base _) (all_cons obeys_logvolLines2_1_start (List.forall_mem_nil _)) (obeys_logvolLines2_1_lines _) (by decide +kernel)

def obeys_logvolLines2_2_object (l : Nat) : Ns := [(c!"lineno", .int l), (c!"fstype", .str c!""), (c!"grow", .bool false), (c!"maxSizeMB", .int 0), (c!"name", .str c!"n"), (c!"format", .bool true), (c!"percent", .int 0), (c!"recommended", .bool false), (c!"size", .none), (c!"preexist", .bool true), (c!"vgname", .str c!"g"), (c!"mountpoint", .str c!"/x"), (c!"fsopts", .str c!""), (c!"fsprofile", .str c!""), (c!"encrypted", .bool false), (c!"passphrase", .str c!""), (c!"escrowcert", .str c!""), (c!"backuppassphrase", .bool false), (c!"mntpoint", .list [c!"/x"])]

theorem obeys_logvolLines2_2_base (n : Str) : Command.FirstBase (F14_LogVol.cls F14_LogVolData.cls) n [c!"/x", c!"--name=n", c!"--vgname=g", c!"--useexisting"] obeys_logvolLines2_2_object := by
  intro b b' hb hb' line l; kernel_rfl

theorem obeys_logvolLines2_2_start : Command.FirstStart (F14_LogVol.cls F14_LogVolData.cls) obeys_logvolLines2_2_object (logvolLines2.start.getD 0 ([], [])).2 := fun _ => .inl ⟨fun _ => rfl, (all_cons (by kernel_rfl) (all_cons (by kernel_rfl) (all_cons (by kernel_rfl) (all_cons (by kernel_rfl) (all_cons (by kernel_rfl) (all_cons (by kernel_rfl) (List.forall_mem_nil _)))))))⟩

theorem obeys_logvolLines2_2_lines (n : Str) : ∀ i ∈ [1], Command.FirstLine (F14_LogVol.cls F14_LogVolData.cls) n [c!"/x", c!"--name=n", c!"--vgname=g", c!"--useexisting"] obeys_logvolLines2_2_object (logvolLines2.lines.getD i noLine) :=
  (all_cons (by intro b b' hb hb' x hx line l; kernel_rfl)
    (List.forall_mem_nil _))

theorem obeys_logvolLines2_2 : ∀ v, [Version.F14].contains v = true → Command.Obeys (F14_LogVol.cls F14_LogVolData.cls) logvolLines2 v :=
  obeys_of obeys_logvolLines2_2_object [0] [1] (obeys_logvolLines2_2_base _) (all_cons obeys_logvolLines2_2_start (List.forall_mem_nil _)) (obeys_logvolLines2_2_lines _) (by decide +kernel)

def obeys_logvolLines2_3_object (l : Nat) : Ns := [(c!"lineno", .int l), (c!"fstype", .str c!""), (c!"grow", .bool false), (c!"maxSizeMB", .int 0), (c!"name", .str c!"n"), (c!"format", .bool true), (c!"percent", .int 0), (c!"recommended", .bool false), (c!"size", .none), (c!"preexist", .bool true), (c!"vgname", .str c!"g"), (c!"mountpoint", .str c!"/x"), (c!"fsopts", .str c!""), (c!"fsprofile", .str c!""), (c!"encrypted", .bool false), (c!"passphrase", .str c!""), (c!"escrowcert", .str c!""), (c!"backuppassphrase", .bool false), (c!"label", .str c!""), (c!"mntpoint", .list [c!"/x"])]

theorem obeys_logvolLines2_3_base (n : Str) : Command.FirstBase (F15_LogVol.cls F15_LogVolData.cls) n [c!"/x", c!"--name=n", c!"--vgname=g", c!"--useexisting"] obeys_logvolLines2_3_object := by
  intro b b' hb hb' line l; kernel_rfl

theorem obeys_logvolLines2_3_start : Command.FirstStart (F15_LogVol.cls F15_LogVolData.cls) obeys_logvolLines2_3_object (logvolLines2.start.getD 0 ([], [])).2 := fun _ => .inl ⟨fun _ => rfl, (all_cons (by kernel_rfl) (all_cons (by kernel_rfl) (all_cons (by kernel_rfl) (all_cons (by kernel_rfl) (all_cons (by kernel_rfl) (all_cons (by kernel_rfl) (List.forall_mem_nil _)))))))⟩

theorem obeys_logvolLines2_3_lines (n : Str) : ∀ i ∈ [1], Command.FirstLine (F15_LogVol.cls F15_LogVolData.cls) n [c!"/x", c!"--name=n", c!"--vgname=g", c!"--useexisting"] obeys_logvolLines2_3_object (logvolLines2.lines.getD i noLine) :=
  (all_cons (by intro b b' hb hb' x hx line l; kernel_rfl)
    (List.forall_mem_nil _))

theorem obeys_logvolLines2_3 : ∀ v, [Version.F15].contains v = true → Command.Obeys (F15_LogVol.cls F15_LogVolData.cls) logvolLines2 v :=
  obeys_of obeys_logvolLines2_3_object [0] [1] (obeys_logvolLines2_3_base _) (all_cons obeys_logvolLines2_3_start (List.forall_mem_nil _)) (obeys_logvolLines2_3_lines _) (by decide +kernel)

def obeys_logvolLines2_4_object (l : Nat) : Ns := [(c!"lineno", .int l), (c!"fstype", .str c!""), (c!"grow", .bool false), (c!"maxSizeMB", .int 0), (c!"name", .str c!"n"), (c!"format", .bool true), (c!"percent", .int 0), (c!"recommended", .bool false), (c!"size", .none), (c!"preexist", .bool true), (c!"vgname", .str c!"g"), (c!"mountpoint", .str c!"/x"), (c!"fsopts", .str c!""), (c!"fsprofile", .str c!""), (c!"encrypted", .bool false), (c!"passphrase", .str c!""), (c!"escrowcert", .str c!""), (c!"backuppassphrase", .bool false), (c!"label", .str c!""), (c!"resize", .bool false), (c!"mntpoint", .list [c!"/x"])]

theorem obeys_logvolLines2_4_base (n : Str) : Command.FirstBase (F15_LogVol.cls F17_LogVolData.cls) n [c!"/x", c!"--name=n", c!"--vgname=g", c!"--useexisting"] obeys_logvolLines2_4_object := by
  intro b b' hb hb' line l; kernel_rfl

theorem obeys_logvolLines2_4_start : Command.FirstStart (F15_LogVol.cls F17_LogVolData.cls) obeys_logvolLines2_4_object (logvolLines2.start.getD 0 ([], [])).2 := fun _ => .inl ⟨fun _ => rfl, (all_cons (by kernel_rfl) (all_cons (by kernel_rfl) (all_cons (by kernel_rfl) (all_cons (by kernel_rfl) (all_cons (by kernel_rfl) (all_cons (by kernel_rfl) (List.forall_mem_nil _)))))))⟩

theorem obeys_logvolLines2_4_lines (n : Str) : ∀ i ∈ [1], Command.FirstLine (F15_LogVol.cls F17_LogVolData.cls) n [c!"/x", c!"--name=n", c!"--vgname=g", c!"--useexisting"] obeys_logvolLines2_4_object (logvolLines2.lines.getD i noLine) :=
  (all_cons (by intro b b' hb hb' x hx line l; kernel_rfl)
    (List.forall_mem_nil _))

theorem obeys_logvolLines2_4 : ∀ v, [Version.F16].contains v = true → Command.Obeys (F15_LogVol.cls F17_LogVolData.cls) logvolLines2 v :=
  obeys_of obeys_logvolLines2_4_object [0] [1] (obeys_logvolLines2_4_base _) (all_cons obeys_logvolLines2_4_start (List.forall_mem_nil _)) (obeys_logvolLines2_4_lines _) (by decide +kernel)

def obeys_logvolLines2_5_object (l : Nat) : Ns := [(c!"lineno", .int l), (c!"fstype", .str c!""), (c!"grow", .bool false), (c!"maxSizeMB", .int 0), (c!"name", .str c!"n"), (c!"format", .bool true), (c!"percent", .int 0), (c!"recommended", .bool false), (c!"size", .none), (c!"preexist", .bool true), (c!"vgname", .str c!"g"), (c!"mountpoint", .str c!"/x"), (c!"fsopts", .str c!""), (c!"fsprofile", .str c!""), (c!"encrypted", .bool false), (c!"passphrase", .str c!""), (c!"escrowcert", .str c!""), (c!"backuppassphrase", .bool false), (c!"label", .str c!""), (c!"resize", .bool false), (c!"mntpoint", .list [c!"/x"])]

theorem obeys_logvolLines2_5_base (n : Str) : Command.FirstBase (F17_LogVol.cls F17_LogVolData.cls) n [c!"/x", c!"--name=n", c!"--vgname=g", c!"--useexisting"] obeys_logvolLines2_5_object := by
  intro b b' hb hb' line l; kernel_rfl

theorem obeys_logvolLines2_5_start : Command.FirstStart (F17_LogVol.cls F17_LogVolData.cls) obeys_logvolLines2_5_object (logvolLines2.start.getD 0 ([], [])).2 := fun _ => .inl ⟨fun _ => rfl, (all_cons (by kernel_rfl) (all_cons (by kernel_rfl) (all_cons (by kernel_rfl) (all_cons (by kernel_rfl) (all_cons (by kernel_rfl) (all_cons (by kernel_rfl) (List.forall_mem_nil _)))))))⟩

theorem obeys_logvolLines2_5_lines (n : Str) : ∀ i ∈ [1], Command.FirstLine (F17_LogVol.cls F17_LogVolData.cls) n [c!"/x", c!"--name=n", c!"--vgname=g", c!"--useexisting"] obeys_logvolLines2_5_object (logvolLines2.lines.getD i noLine) :=
  (all_cons (by intro b b' hb hb' x hx line l; kernel_rfl)
    (List.forall_mem_nil _))

theorem obeys_logvolLines2_5 : ∀ v, [Version.F17].contains v = true → Command.Obeys (F17_LogVol.cls F17_LogVolData.cls) logvolLines2 v :=
  obeys_of obeys_logvolLines2_5_object [0] [1] (obeys_logvolLines2_5_base _) (all_cons obeys_logvolLines2_5_start (List.forall_mem_nil _)) (obeys_logvolLines2_5_lines _) (by decide +kernel)

def obeys_logvolLines2_6_object (l : Nat) : Ns := [(c!"lineno", .int l), (c!"fstype", .str c!""), (c!"grow", .bool false), (c!"maxSizeMB", .int 0), (c!"name", .str c!"n"), (c!"format", .bool true), (c!"percent", .int 0), (c!"recommended", .bool false), (c!"size", .none), (c!"preexist", .bool true), (c!"vgname", .str c!"g"), (c!"mountpoint", .str c!"/x"), (c!"fsopts", .str c!""), (c!"fsprofile", .str c!""), (c!"encrypted", .bool false), (c!"passphrase", .str c!""), (c!"escrowcert", .str c!""), (c!"backuppassphrase", .bool false), (c!"label", .str c!""), (c!"resize", .bool false), (c!"hibernation", .bool false), (c!"cipher", .str c!""), (c!"mntpoint", .list [c!"/x"])]

theorem obeys_logvolLines2_6_base (n : Str) : Command.FirstBase (F18_LogVol.cls F18_LogVolData.cls) n [c!"/x", c!"--name=n", c!"--vgname=g", c!"--useexisting"] obeys_logvolLines2_6_object := by
  intro b b' hb hb' line l; kernel_rfl

theorem obeys_logvolLines2_6_start : Command.FirstStart (F18_LogVol.cls F18_LogVolData.cls) obeys_logvolLines2_6_object (logvolLines2.start.getD 0 ([], [])).2 := fun _ => .inl ⟨fun _ => rfl, (all_cons (by kernel_rfl) (all_cons (by kernel_rfl) (all_cons (by kernel_rfl) (all_cons (by kernel_rfl) (all_cons (by kernel_rfl) (all_cons (by kernel_rfl) (List.forall_mem_nil _)))))))⟩

theorem obeys_logvolLines2_6_lines (n : Str) : ∀ i ∈ [1], Command.FirstLine (F18_LogVol.cls F18_LogVolData.cls) n [c!"/x", c!"--name=n", c!"--vgname=g", c!"--useexisting"] obeys_logvolLines2_6_object (logvolLines2.lines.getD i noLine) :=
  (all_cons (by intro b b' hb hb' x hx line l; kernel_rfl)
    (List.forall_mem_nil _))

theorem obeys_logvolLines2_6 : ∀ v, [Version.F18].contains v = true → Command.Obeys (F18_LogVol.cls F18_LogVolData.cls) logvolLines2 v :=
  obeys_of obeys_logvolLines2_6_object [0] [1] (obeys_logvolLines2_6_base _) (all_cons obeys_logvolLines2_6_start (List.forall_mem_nil _)) (obeys_logvolLines2_6_lines _) (by decide +kernel)

def obeys_logvolLines2_7_object (l : Nat) : Ns := [(c!"lineno", .int l), (c!"fstype", .str c!""), (c!"grow", .bool false), (c!"maxSizeMB", .int 0), (c!"name", .str c!"n"), (c!"format", .bool true), (c!"percent", .int 0), (c!"recommended", .bool false), (c!"size", .none), (c!"preexist", .bool true), (c!"vgname", .str c!"g"), (c!"mountpoint", .str c!"/x"), (c!"fsopts", .str c!""), (c!"fsprofile", .str c!""), (c!"encrypted", .bool false), (c!"passphrase", .str c!""), (c!"escrowcert", .str c!""), (c!"backuppassphrase", .bool false), (c!"label", .str c!""), (c!"resize", .bool false), (c!"hibernation", .bool false), (c!"cipher", .str c!""), (c!"thin_pool", .bool false), (c!"thin_volume", .bool false), (c!"pool_name", .str c!""), (c!"chunk_size", .none), (c!"metadata_size", .none), (c!"mntpoint", .list [c!"/x"])]

theorem obeys_logvolLines2_7_base (n : Str) : Command.FirstBase (F18_LogVol.cls F20_LogVolData.cls) n [c!"/x", c!"--name=n", c!"--vgname=g", c!"--useexisting"] obeys_logvolLines2_7_object := by
  intro b b' hb hb' line l; kernel_rfl

theorem obeys_logvolLines2_7_start : Command.FirstStart (F18_LogVol.cls F20_LogVolData.cls) obeys_logvolLines2_7_object (logvolLines2.start.getD 0 ([], [])).2 := fun _ => .inl ⟨fun _ => rfl, (all_cons (by kernel_rfl) (all_cons (by kernel_rfl) (all_cons (by kernel_rfl) (all_cons (by kernel_rfl) (all_cons (by kernel_rfl) (all_cons (by kernel_rfl) (List.forall_mem_nil _)))))))⟩

theorem obeys_logvolLines2_7_lines (n : Str) : ∀ i ∈ [1], Command.FirstLine (F18_LogVol.cls F20_LogVolData.cls) n [c!"/x", c!"--name=n", c!"--vgname=g", c!"--useexisting"] obeys_logvolLines2_7_object (logvolLines2.lines.getD i noLine) :=
  (all_cons (by intro b b' hb hb' x hx line l; kernel_rfl)
    (List.forall_mem_nil _))

theorem obeys_logvolLines2_7 : ∀ v, [Version.F19].contains v = true → Command.Obeys (F18_LogVol.cls F20_LogVolData.cls) logvolLines2 v :=
  obeys_of obeys_logvolLines2_7_object [0] [1] (obeys_logvolLines2_7_base _) (all_cons obeys_logvolLines2_7_start (List.forall_mem_nil _)) (obeys_logvolLines2_7_lines _) (by decide +kernel)

def obeys_logvolLines2_8_object (l : Nat) : Ns := [(c!"lineno", .int l), (c!"fstype", .str c!""), (c!"grow", .bool false), (c!"maxSizeMB", .int 0), (c!"name", .str c!"n"), (c!"format", .bool true), (c!"percent", .int 0), (c!"recommended", .bool false), (c!"size", .none), (c!"preexist", .bool true), (c!"vgname", .str c!"g"), (c!"mountpoint", .str c!"/x"), (c!"fsopts", .str c!""), (c!"fsprofile", .str c!""), (c!"encrypted", .bool false), (c!"passphrase", .str c!""), (c!"escrowcert", .str c!""), (c!"backuppassphrase", .bool false), (c!"label", .str c!""), (c!"resize", .bool false), (c!"hibernation", .bool false), (c!"cipher", .str c!""), (c!"thin_pool", .bool false), (c!"thin_volume", .bool false), (c!"pool_name", .str c!""), (c!"chunk_size", .none), (c!"metadata_size", .none), (c!"mntpoint", .list [c!"/x"])]

theorem obeys_logvolLines2_8_base (n : Str) : Command.FirstBase (F20_LogVol.cls F20_LogVolData.cls) n [c!"/x", c!"--name=n", c!"--vgname=g", c!"--useexisting"] obeys_logvolLines2_8_object := by
  intro b b' hb hb' line l; rcases hb with rfl | rfl <;> rcases hb' with rfl | rfl <;> kernel_rfl

theorem obeys_logvolLines2_8_start : Command.FirstStart (F20_LogVol.cls F20_LogVolData.cls) obeys_logvolLines2_8_object (logvolLines2.start.getD 0 ([], [])).2 := fun _ => .inl ⟨fun _ => rfl, (all_cons (by kernel_rfl) (all_cons (by kernel_rfl) (all_cons (by kernel_rfl) (all_cons (by kernel_rfl) (all_cons (by kernel_rfl) (all_cons (by kernel_rfl) (List.forall_mem_nil _)))))))⟩

theorem obeys_logvolLines2_8_lines (n : Str) : ∀ i ∈ [1], Command.FirstLine (F20_LogVol.cls F20_LogVolData.cls) n [c!"/x", c!"--name=n", c!"--vgname=g", c!"--useexisting"] obeys_logvolLines2_8_object (logvolLines2.lines.getD i noLine) :=
  (all_cons (by intro b b' hb hb' x hx line l; rcases hb with rfl | rfl <;> rcases hb' with rfl | rfl <;> kernel_rfl)
    (List.forall_mem_nil _))

theorem obeys_logvolLines2_8 : ∀ v, [Version.F20].contains v = true → Command.Obeys (F20_LogVol.cls F20_LogVolData.cls) logvolLines2 v :=
  obeys_of obeys_logvolLines2_8_object [0] [1] (obeys_logvolLines2_8_base _) (all_cons obeys_logvolLines2_8_start (List.forall_mem_nil _)) (obeys_logvolLines2_8_lines _) (by decide +kernel)

def obeys_logvolLines2_9_object (l : Nat) : Ns := [(c!"lineno", .int l), (c!"fstype", .str c!""), (c!"grow", .bool false), (c!"maxSizeMB", .int 0), (c!"name", .str c!"n"), (c!"format", .bool true), (c!"percent", .int 0), (c!"recommended", .bool false), (c!"size", .none), (c!"preexist", .bool true), (c!"vgname", .str c!"g"), (c!"mountpoint", .str c!"/x"), (c!"fsopts", .str c!""), (c!"fsprofile", .str c!""), (c!"encrypted", .bool false), (c!"passphrase", .str c!""), (c!"escrowcert", .str c!""), (c!"backuppassphrase", .bool false), (c!"label", .str c!""), (c!"resize", .bool false), (c!"hibernation", .bool false), (c!"cipher", .str c!""), (c!"thin_pool", .bool false), (c!"thin_volume", .bool false), (c!"pool_name", .str c!""), (c!"chunk_size", .none), (c!"metadata_size", .none), (c!"profile", .str c!""), (c!"mntpoint", .list [c!"/x"])]

theorem obeys_logvolLines2_9_base (n : Str) : Command.FirstBase (F21_LogVol.cls F21_LogVolData.cls) n [c!"/x", c!"--name=n", c!"--vgname=g", c!"--useexisting"] obeys_logvolLines2_9_object := by
  intro b b' hb hb' line l; rcases hb with rfl | rfl <;> rcases hb' with rfl | rfl <;> kernel_rfl

theorem obeys_logvolLines2_9_start : Command.FirstStart (F21_LogVol.cls F21_LogVolData.cls) obeys_logvolLines2_9_object (logvolLines2.start.getD 0 ([], [])).2 := fun _ => .inl ⟨fun _ => rfl, (all_cons (by kernel_rfl) (all_cons (by kernel_rfl) (all_cons (by kernel_rfl) (all_cons (by kernel_rfl) (all_cons (by kernel_rfl) (all_cons (by kernel_rfl) (List.forall_mem_nil _)))))))⟩

theorem obeys_logvolLines2_9_lines (n : Str) : ∀ i ∈ [1], Command.FirstLine (F21_LogVol.cls F21_LogVolData.cls) n [c!"/x", c!"--name=n", c!"--vgname=g", c!"--useexisting"] obeys_logvolLines2_9_object (logvolLines2.lines.getD i noLine) :=
  (all_cons (by intro b b' hb hb' x hx line l; rcases hb with rfl | rfl <;> rcases hb' with rfl | rfl <;> kernel_rfl)
    (List.forall_mem_nil _))

theorem obeys_logvolLines2_9 : ∀ v, [Version.F21, Version.F22].contains v = true → Command.Obeys (F21_LogVol.cls F21_LogVolData.cls) logvolLines2 v :=
  obeys_of obeys_logvolLines2_9_object [0] [1] (obeys_logvolLines2_9_base _) (all_cons obeys_logvolLines2_9_start (List.forall_mem_nil _)) (obeys_logvolLines2_9_lines _) (by decide +kernel)

def obeys_logvolLines2_10_object (l : Nat) : Ns := [(c!"lineno", .int l), (c!"fstype", .str c!""), (c!"grow", .bool false), (c!"maxSizeMB", .int 0), (c!"name", .str c!"n"), (c!"format", .bool true), (c!"percent", .int 0), (c!"recommended", .bool false), (c!"size", .none), (c!"preexist", .bool true), (c!"vgname", .str c!"g"), (c!"mountpoint", .str c!"/x"), (c!"fsopts", .str c!""), (c!"fsprofile", .str c!""), (c!"encrypted", .bool false), (c!"passphrase", .str c!""), (c!"escrowcert", .str c!""), (c!"backuppassphrase", .bool false), (c!"label", .str c!""), (c!"resize", .bool false), (c!"hibernation", .bool false), (c!"cipher", .str c!""), (c!"thin_pool", .bool false), (c!"thin_volume", .bool false), (c!"pool_name", .str c!""), (c!"chunk_size", .none), (c!"metadata_size", .none), (c!"profile", .str c!""), (c!"cache_size", .int 0), (c!"cache_mode", .str c!""), (c!"cache_pvs", .list []), (c!"mkfsopts", .str c!""), (c!"mntpoint", .list [c!"/x"])]

theorem obeys_logvolLines2_10_base (n : Str) : Command.FirstBase (F23_LogVol.cls F23_LogVolData.cls) n [c!"/x", c!"--name=n", c!"--vgname=g", c!"--useexisting"] obeys_logvolLines2_10_object := by
  intro b b' hb hb' line l; rcases hb with rfl | rfl <;> rcases hb' with rfl | rfl <;> kernel_rfl

theorem obeys_logvolLines2_10_start : Command.FirstStart (F23_LogVol.cls F23_LogVolData.cls) obeys_logvolLines2_10_object (logvolLines2.start.getD 0 ([], [])).2 := fun _ => .inl ⟨fun _ => rfl, (all_cons (by kernel_rfl) (all_cons (by kernel_rfl) (all_cons (by kernel_rfl) (all_cons (by kernel_rfl) (all_cons (by kernel_rfl) (all_cons (by kernel_rfl) (List.forall_mem_nil _)))))))⟩

theorem obeys_logvolLines2_10_lines (n : Str) : ∀ i ∈ [1], Command.FirstLine (F23_LogVol.cls F23_LogVolData.cls) n [c!"/x", c!"--name=n", c!"--vgname=g", c!"--useexisting"] obeys_logvolLines2_10_object (logvolLines2.lines.getD i noLine) :=
  (all_cons (by intro b b' hb hb' x hx line l; rcases hb with rfl | rfl <;> rcases hb' with rfl | rfl <;> kernel_rfl)
    (List.forall_mem_nil _))

theorem obeys_logvolLines2_10 : ∀ v, [Version.F23, Version.F24, Version.F25, Version.F26, Version.F27, Version.F28].contains v = true → Command.Obeys (F23_LogVol.cls F23_LogVolData.cls) logvolLines2 v :=
  obeys_of obeys_logvolLines2_10_object [0] [1] (obeys_logvolLines2_10_base _) (all_cons obeys_logvolLines2_10_start (List.forall_mem_nil _)) (obeys_logvolLines2_10_lines _) (by decide +kernel)

def obeys_logvolLines2_11_object (l : Nat) : Ns := [(c!"lineno", .int l), (c!"fstype", .str c!""), (c!"grow", .bool false), (c!"maxSizeMB", .int 0), (c!"name", .str c!"n"), (c!"format", .bool true), (c!"percent", .int 0), (c!"recommended", .bool false), (c!"size", .none), (c!"preexist", .bool true), (c!"vgname", .str c!"g"), (c!"mountpoint", .str c!"/x"), (c!"fsopts", .str c!""), (c!"fsprofile", .str c!""), (c!"encrypted", .bool false), (c!"passphrase", .str c!""), (c!"escrowcert", .str c!""), (c!"backuppassphrase", .bool false), (c!"label", .str c!""), (c!"resize", .bool false), (c!"hibernation", .bool false), (c!"cipher", .str c!""), (c!"thin_pool", .bool false), (c!"thin_volume", .bool false), (c!"pool_name", .str c!""), (c!"chunk_size", .none), (c!"metadata_size", .none), (c!"profile", .str c!""), (c!"cache_size", .int 0), (c!"cache_mode", .str c!""), (c!"cache_pvs", .list []), (c!"mkfsopts", .str c!""), (c!"luks_version", .str c!""), (c!"pbkdf", .str c!""), (c!"pbkdf_memory", .int 0), (c!"pbkdf_time", .int 0), (c!"pbkdf_iterations", .int 0), (c!"mntpoint", .list [c!"/x"])]

theorem obeys_logvolLines2_11_base (n : Str) : Command.FirstBase (F29_LogVol.cls F29_LogVolData.cls) n [c!"/x", c!"--name=n", c!"--vgname=g", c!"--useexisting"] obeys_logvolLines2_11_object := by
  intro b b' hb hb' line l; rcases hb with rfl | rfl <;> rcases hb' with rfl | rfl <;> kernel_rfl

theorem obeys_logvolLines2_11_start : Command.FirstStart (F29_LogVol.cls F29_LogVolData.cls) obeys_logvolLines2_11_object (logvolLines2.start.getD 0 ([], [])).2 := fun _ => .inl ⟨fun _ => rfl, (all_cons (by kernel_rfl) (all_cons (by kernel_rfl) (all_cons (by kernel_rfl) (all_cons (by kernel_rfl) (all_cons (by kernel_rfl) (all_cons (by kernel_rfl) (List.forall_mem_nil _)))))))⟩

theorem obeys_logvolLines2_11_lines (n : Str) : ∀ i ∈ [0, 1, 2, 3], Command.FirstLine (F29_LogVol.cls F29_LogVolData.cls) n [c!"/x", c!"--name=n", c!"--vgname=g", c!"--useexisting"] obeys_logvolLines2_11_object (logvolLines2.lines.getD i noLine) :=
  (all_cons (by intro b b' hb hb' x hx line l; rcases hb with rfl | rfl <;> rcases hb' with rfl | rfl <;> kernel_rfl)
    (all_cons (by intro b b' hb hb' x hx line l; rcases hb with rfl | rfl <;> rcases hb' with rfl | rfl <;> kernel_rfl)
    (all_cons (by intro b b' hb hb' x hx line l; rcases hb with rfl | rfl <;> rcases hb' with rfl | rfl <;> kernel_rfl)
    (all_cons (by intro b b' hb hb' x hx line l; rcases hb with rfl | rfl <;> rcases hb' with rfl | rfl <;> kernel_rfl)
    (List.forall_mem_nil _)))))

theorem obeys_logvolLines2_11 : ∀ v, [Version.F29, Version.F30, Version.F31, Version.F32, Version.F33, Version.F34].contains v = true → Command.Obeys (F29_LogVol.cls F29_LogVolData.cls) logvolLines2 v :=
  obeys_of obeys_logvolLines2_11_object [0] [0, 1, 2, 3] (obeys_logvolLines2_11_base _) (all_cons obeys_logvolLines2_11_start (List.forall_mem_nil _)) (obeys_logvolLines2_11_lines _) (by decide +kernel)

def obeys_logvolLines2_12_object (l : Nat) : Ns := [(c!"lineno", .int l), (c!"fstype", .str c!""), (c!"grow", .bool false), (c!"maxSizeMB", .int 0), (c!"name", .str c!"n"), (c!"format", .bool true), (c!"percent", .int 0), (c!"recommended", .bool false), (c!"size", .none), (c!"preexist", .bool true), (c!"vgname", .str c!"g"), (c!"mountpoint", .str c!"/x"), (c!"bytesPerInode", .int 4096), (c!"fsopts", .str c!""), (c!"mntpoint", .list [c!"/x"])]

theorem obeys_logvolLines2_12_base (n : Str) : Command.FirstBase (FC4_LogVol.cls FC4_LogVolData.cls) n [c!"/x", c!"--name=n", c!"--vgname=g", c!"--useexisting"] obeys_logvolLines2_12_object := by
  intro b b' hb hb' line l; kernel_rfl

theorem obeys_logvolLines2_12_start : Command.FirstStart (FC4_LogVol.cls FC4_LogVolData.cls) obeys_logvolLines2_12_object (logvolLines2.start.getD 1 ([], [])).2 := fun _ => .inl ⟨fun _ => rfl, (all_cons (by kernel_rfl) (all_cons (by kernel_rfl) (all_cons (by kernel_rfl) (all_cons (by kernel_rfl) (all_cons (by kernel_rfl) (all_cons (by kernel_rfl) (all_cons (by kernel_rfl) (List.forall_mem_nil _))))))))⟩

theorem obeys_logvolLines2_12_lines (n : Str) : ∀ i ∈ [1], Command.FirstLine (FC4_LogVol.cls FC4_LogVolData.cls) n [c!"/x", c!"--name=n", c!"--vgname=g", c!"--useexisting"] obeys_logvolLines2_12_object (logvolLines2.lines.getD i noLine) :=
  (all_cons (by intro b b' hb hb' x hx line l; kernel_rfl)
    (List.forall_mem_nil _))

theorem obeys_logvolLines2_12 : ∀ v, [Version.FC4, Version.FC5, Version.FC6, Version.F7, Version.F8].contains v = true → Command.Obeys (FC4_LogVol.cls FC4_LogVolData.cls) logvolLines2 v :=
  obeys_of obeys_logvolLines2_12_object [1] [1] (obeys_logvolLines2_12_base _) (all_cons obeys_logvolLines2_12_start (List.forall_mem_nil _)) (obeys_logvolLines2_12_lines _) (by decide +kernel)

def obeys_logvolLines2_13_object (l : Nat) : Ns := [(c!"lineno", .int l), (c!"fstype", .str c!""), (c!"grow", .bool false), (c!"maxSizeMB", .int 0), (c!"name", .str c!"n"), (c!"format", .bool true), (c!"percent", .int 0), (c!"recommended", .bool false), (c!"size", .none), (c!"preexist", .bool true), (c!"vgname", .str c!"g"), (c!"mountpoint", .str c!"/x"), (c!"mntpoint", .list [c!"/x"])]

theorem obeys_logvolLines2_13_base (n : Str) : Command.FirstBase (FC3_LogVol.cls FC3_LogVolData.cls) n [c!"/x", c!"--name=n", c!"--vgname=g", c!"--useexisting"] obeys_logvolLines2_13_object := by
  intro b b' hb hb' line l; kernel_rfl

theorem obeys_logvolLines2_13_start : Command.FirstStart (FC3_LogVol.cls FC3_LogVolData.cls) obeys_logvolLines2_13_object (logvolLines2.start.getD 0 ([], [])).2 := fun _ => .inl ⟨fun _ => rfl, (all_cons (by kernel_rfl) (all_cons (by kernel_rfl) (all_cons (by kernel_rfl) (all_cons (by kernel_rfl) (all_cons (by kernel_rfl) (all_cons (by kernel_rfl) (List.forall_mem_nil _)))))))⟩

theorem obeys_logvolLines2_13_lines (n : Str) : ∀ i ∈ [0, 1, 2, 3], Command.FirstLine (FC3_LogVol.cls FC3_LogVolData.cls) n [c!"/x", c!"--name=n", c!"--vgname=g", c!"--useexisting"] obeys_logvolLines2_13_object (logvolLines2.lines.getD i noLine) :=
  (all_cons (by intro b b' hb hb' x hx line l; kernel_rfl)
    (all_cons (by intro b b' hb hb' x hx line l; kernel_rfl)
    (all_cons (by intro b b' hb hb' x hx line l; kernel_rfl)
    (all_cons (by intro b b' hb hb' x hx line l; kernel_rfl)
    (List.forall_mem_nil _)))))

theorem obeys_logvolLines2_13 : ∀ v, [Version.RHEL3, Version.FC3, Version.RHEL4].contains v = true → Command.Obeys (FC3_LogVol.cls FC3_LogVolData.cls) logvolLines2 v :=
  obeys_of obeys_logvolLines2_13_object [0] [0, 1, 2, 3] (obeys_logvolLines2_13_base _) (all_cons obeys_logvolLines2_13_start (List.forall_mem_nil _)) (obeys_logvolLines2_13_lines _) (by decide +kernel)

def obeys_logvolLines2_14_object (l : Nat) : Ns := [(c!"lineno", .int l), (c!"fstype", .str c!""), (c!"grow", .bool false), (c!"maxSizeMB", .int 0), (c!"name", .str c!"n"), (c!"format", .bool true), (c!"percent", .int 0), (c!"recommended", .bool false), (c!"size", .none), (c!"preexist", .bool true), (c!"vgname", .str c!"g"), (c!"mountpoint", .str c!"/x"), (c!"bytesPerInode", .int 4096), (c!"fsopts", .str c!""), (c!"encrypted", .bool false), (c!"passphrase", .str c!""), (c!"mntpoint", .list [c!"/x"])]

theorem obeys_logvolLines2_14_base (n : Str) : Command.FirstBase (RHEL5_LogVol.cls RHEL5_LogVolData.cls) n [c!"/x", c!"--name=n", c!"--vgname=g", c!"--useexisting"] obeys_logvolLines2_14_object := by
  intro b b' hb hb' line l; kernel_rfl

theorem obeys_logvolLines2_14_start : Command.FirstStart (RHEL5_LogVol.cls RHEL5_LogVolData.cls) obeys_logvolLines2_14_object (logvolLines2.start.getD 1 ([], [])).2 := fun _ => .inl ⟨fun _ => rfl, (all_cons (by kernel_rfl) (all_cons (by kernel_rfl) (all_cons (by kernel_rfl) (all_cons (by kernel_rfl) (all_cons (by kernel_rfl) (all_cons (by kernel_rfl) (all_cons (by kernel_rfl) (List.forall_mem_nil _))))))))⟩

theorem obeys_logvolLines2_14_lines (n : Str) : ∀ i ∈ [1], Command.FirstLine (RHEL5_LogVol.cls RHEL5_LogVolData.cls) n [c!"/x", c!"--name=n", c!"--vgname=g", c!"--useexisting"] obeys_logvolLines2_14_object (logvolLines2.lines.getD i noLine) :=
  (all_cons (by intro b b' hb hb' x hx line l; kernel_rfl)
    (List.forall_mem_nil _))

theorem obeys_logvolLines2_14 : ∀ v, [Version.RHEL5].contains v = true → Command.Obeys (RHEL5_LogVol.cls RHEL5_LogVolData.cls) logvolLines2 v :=
  obeys_of obeys_logvolLines2_14_object [1] [1] (obeys_logvolLines2_14_base _) (all_cons obeys_logvolLines2_14_start (List.forall_mem_nil _)) (obeys_logvolLines2_14_lines _) (by decide +kernel)

def obeys_logvolLines2_15_object (l : Nat) : Ns := [(c!"lineno", .int l), (c!"fstype", .str c!""), (c!"grow", .bool false), (c!"maxSizeMB", .int 0), (c!"name", .str c!"n"), (c!"format", .bool true), (c!"percent", .int 0), (c!"recommended", .bool false), (c!"size", .none), (c!"preexist", .bool true), (c!"vgname", .str c!"g"), (c!"mountpoint", .str c!"/x"), (c!"fsopts", .str c!""), (c!"fsprofile", .str c!""), (c!"encrypted", .bool false), (c!"passphrase", .str c!""), (c!"escrowcert", .str c!""), (c!"backuppassphrase", .bool false), (c!"cipher", .str c!""), (c!"hibernation", .bool false), (c!"thin_pool", .bool false), (c!"thin_volume", .bool false), (c!"pool_name", .str c!""), (c!"chunk_size", .none), (c!"metadata_size", .none), (c!"profile", .str c!""), (c!"mntpoint", .list [c!"/x"])]

theorem obeys_logvolLines2_15_base (n : Str) : Command.FirstBase (RHEL6_LogVol.cls RHEL6_LogVolData.cls) n [c!"/x", c!"--name=n", c!"--vgname=g", c!"--useexisting"] obeys_logvolLines2_15_object := by
  intro b b' hb hb' line l; kernel_rfl

theorem obeys_logvolLines2_15_start : Command.FirstStart (RHEL6_LogVol.cls RHEL6_LogVolData.cls) obeys_logvolLines2_15_object (logvolLines2.start.getD 0 ([], [])).2 := fun _ => .inl ⟨fun _ => rfl, (all_cons (by kernel_rfl) (all_cons (by kernel_rfl) (all_cons (by kernel_rfl) (all_cons (by kernel_rfl) (all_cons (by kernel_rfl) (all_cons (by kernel_rfl) (List.forall_mem_nil _)))))))⟩

theorem obeys_logvolLines2_15_lines (n : Str) : ∀ i ∈ [1], Command.FirstLine (RHEL6_LogVol.cls RHEL6_LogVolData.cls) n [c!"/x", c!"--name=n", c!"--vgname=g", c!"--useexisting"] obeys_logvolLines2_15_object (logvolLines2.lines.getD i noLine) :=
  (all_cons (by intro b b' hb hb' x hx line l; kernel_rfl)
    (List.forall_mem_nil _))

theorem obeys_logvolLines2_15 : ∀ v, [Version.RHEL6].contains v = true → Command.Obeys (RHEL6_LogVol.cls RHEL6_LogVolData.cls) logvolLines2 v :=
  obeys_of obeys_logvolLines2_15_object [0] [1] (obeys_logvolLines2_15_base _) (all_cons obeys_logvolLines2_15_start (List.forall_mem_nil _)) (obeys_logvolLines2_15_lines _) (by decide +kernel)

def obeys_logvolLines2_16_object (l : Nat) : Ns := [(c!"lineno", .int l), (c!"fstype", .str c!""), (c!"grow", .bool false), (c!"maxSizeMB", .int 0), (c!"name", .str c!"n"), (c!"format", .bool true), (c!"percent", .int 0), (c!"recommended", .bool false), (c!"size", .none), (c!"preexist", .bool true), (c!"vgname", .str c!"g"), (c!"mountpoint", .str c!"/x"), (c!"fsopts", .str c!""), (c!"fsprofile", .str c!""), (c!"encrypted", .bool false), (c!"passphrase", .str c!""), (c!"escrowcert", .str c!""), (c!"backuppassphrase", .bool false), (c!"label", .str c!""), (c!"resize", .bool false), (c!"hibernation", .bool false), (c!"cipher", .str c!""), (c!"thin_pool", .bool false), (c!"thin_volume", .bool false), (c!"pool_name", .str c!""), (c!"chunk_size", .none), (c!"metadata_size", .none), (c!"profile", .str c!""), (c!"mkfsopts", .str c!""), (c!"mntpoint", .list [c!"/x"])]

theorem obeys_logvolLines2_16_base (n : Str) : Command.FirstBase (RHEL7_LogVol.cls RHEL7_LogVolData.cls) n [c!"/x", c!"--name=n", c!"--vgname=g", c!"--useexisting"] obeys_logvolLines2_16_object := by
  intro b b' hb hb' line l; rcases hb with rfl | rfl <;> rcases hb' with rfl | rfl <;> kernel_rfl

theorem obeys_logvolLines2_16_start : Command.FirstStart (RHEL7_LogVol.cls RHEL7_LogVolData.cls) obeys_logvolLines2_16_object (logvolLines2.start.getD 0 ([], [])).2 := fun _ => .inl ⟨fun _ => rfl, (all_cons (by kernel_rfl) (all_cons (by kernel_rfl) (all_cons (by kernel_rfl) (all_cons (by kernel_rfl) (all_cons (by kernel_rfl) (all_cons (by kernel_rfl) (List.forall_mem_nil _)))))))⟩

theorem obeys_logvolLines2_16_lines (n : Str) : ∀ i ∈ [1], Command.FirstLine (RHEL7_LogVol.cls RHEL7_LogVolData.cls) n [c!"/x", c!"--name=n", c!"--vgname=g", c!"--useexisting"] obeys_logvolLines2_16_object (logvolLines2.lines.getD i noLine) :=
  (all_cons (by intro b b' hb hb' x hx line l; rcases hb with rfl | rfl <;> rcases hb' with rfl | rfl <;> kernel_rfl)
    (List.forall_mem_nil _))

theorem obeys_logvolLines2_16 : ∀ v, [Version.RHEL7].contains v = true → Command.Obeys (RHEL7_LogVol.cls RHEL7_LogVolData.cls) logvolLines2 v :=
  obeys_of obeys_logvolLines2_16_object [0] [1] (obeys_logvolLines2_16_base _) (all_cons obeys_logvolLines2_16_start (List.forall_mem_nil _)) (obeys_logvolLines2_16_lines _) (by decide +kernel)

def obeys_logvolLines2_17_object (l : Nat) : Ns := [(c!"lineno", .int l), (c!"fstype", .str c!""), (c!"grow", .bool false), (c!"maxSizeMB", .int 0), (c!"name", .str c!"n"), (c!"format", .bool true), (c!"percent", .int 0), (c!"recommended", .bool false), (c!"size", .none), (c!"preexist", .bool true), (c!"vgname", .str c!"g"), (c!"mountpoint", .str c!"/x"), (c!"fsopts", .str c!""), (c!"fsprofile", .str c!""), (c!"encrypted", .bool false), (c!"passphrase", .str c!""), (c!"escrowcert", .str c!""), (c!"backuppassphrase", .bool false), (c!"label", .str c!""), (c!"resize", .bool false), (c!"hibernation", .bool false), (c!"cipher", .str c!""), (c!"thin_pool", .bool false), (c!"thin_volume", .bool false), (c!"pool_name", .str c!""), (c!"chunk_size", .none), (c!"metadata_size", .none), (c!"profile", .str c!""), (c!"cache_size", .int 0), (c!"cache_mode", .str c!""), (c!"cache_pvs", .list []), (c!"mkfsopts", .str c!""), (c!"luks_version", .str c!""), (c!"pbkdf", .str c!""), (c!"pbkdf_memory", .int 0), (c!"pbkdf_time", .int 0), (c!"pbkdf_iterations", .int 0), (c!"mntpoint", .list [c!"/x"])]

theorem obeys_logvolLines2_17_base (n : Str) : Command.FirstBase (RHEL8_LogVol.cls RHEL8_LogVolData.cls) n [c!"/x", c!"--name=n", c!"--vgname=g", c!"--useexisting"] obeys_logvolLines2_17_object := by
  intro b b' hb hb' line l; rcases hb with rfl | rfl <;> rcases hb' with rfl | rfl <;> kernel_rfl

theorem obeys_logvolLines2_17_start : Command.FirstStart (RHEL8_LogVol.cls RHEL8_LogVolData.cls) obeys_logvolLines2_17_object (logvolLines2.start.getD 0 ([], [])).2 := fun _ => .inl ⟨fun _ => rfl, (all_cons (by kernel_rfl) (all_cons (by kernel_rfl) (all_cons (by kernel_rfl) (all_cons (by kernel_rfl) (all_cons (by kernel_rfl) (all_cons (by kernel_rfl) (List.forall_mem_nil _)))))))⟩

theorem obeys_logvolLines2_17_lines (n : Str) : ∀ i ∈ [1], Command.FirstLine (RHEL8_LogVol.cls RHEL8_LogVolData.cls) n [c!"/x", c!"--name=n", c!"--vgname=g", c!"--useexisting"] obeys_logvolLines2_17_object (logvolLines2.lines.getD i noLine) :=
  (all_cons (by intro b b' hb hb' x hx line l; rcases hb with rfl | rfl <;> rcases hb' with rfl | rfl <;> kernel_rfl)
    (List.forall_mem_nil _))

theorem obeys_logvolLines2_17 : ∀ v, [Version.RHEL8].contains v = true → Command.Obeys (RHEL8_LogVol.cls RHEL8_LogVolData.cls) logvolLines2 v :=
  obeys_of obeys_logvolLines2_17_object [0] [1] (obeys_logvolLines2_17_base _) (all_cons obeys_logvolLines2_17_start (List.forall_mem_nil _)) (obeys_logvolLines2_17_lines _) (by decide +kernel)

theorem obeys_logvolLines2 : logvolLines2.Obeyed := by
  unfold CommandLines.Obeyed commandMaps
  exact (all_cons (fun _ c h => by cases h; exact obeys_logvolLines2_0 _ rfl)
    (all_cons (fun _ c h => by cases h; exact obeys_logvolLines2_0 _ rfl)
    (all_cons (fun _ c h => by cases h; exact obeys_logvolLines2_1 _ rfl)
    (all_cons (fun _ c h => by cases h; exact obeys_logvolLines2_1 _ rfl)
    (all_cons (fun _ c h => by cases h; exact obeys_logvolLines2_2 _ rfl)
    (all_cons (fun _ c h => by cases h; exact obeys_logvolLines2_3 _ rfl)
    (all_cons (fun _ c h => by cases h; exact obeys_logvolLines2_4 _ rfl)
    (all_cons (fun _ c h => by cases h; exact obeys_logvolLines2_5 _ rfl)
    (all_cons (fun _ c h => by cases h; exact obeys_logvolLines2_6 _ rfl)
    (all_cons (fun _ c h => by cases h; exact obeys_logvolLines2_7 _ rfl)
    (all_cons (fun _ c h => by cases h; exact obeys_logvolLines2_8 _ rfl)
    (all_cons (fun _ c h => by cases h; exact obeys_logvolLines2_9 _ rfl)
    (all_cons (fun _ c h => by cases h; exact obeys_logvolLines2_9 _ rfl)
    (all_cons (fun _ c h => by cases h; exact obeys_logvolLines2_10 _ rfl)
    (all_cons (fun _ c h => by cases h; exact obeys_logvolLines2_10 _ rfl)
    (all_cons (fun _ c h => by cases h; exact obeys_logvolLines2_10 _ rfl)
    (all_cons (fun _ c h => by cases h; exact obeys_logvolLines2_10 _ rfl)
    (all_cons (fun _ c h => by cases h; exact obeys_logvolLines2_10 _ rfl)
    (all_cons (fun _ c h => by cases h; exact obeys_logvolLines2_10 _ rfl)
    (all_cons (fun _ c h => by cases h; exact obeys_logvolLines2_11 _ rfl)
    (all_cons (fun _ c h => by cases h; exact obeys_logvolLines2_11 _ rfl)
    (all_cons (fun _ c h => by cases h; exact obeys_logvolLines2_11 _ rfl)
    (all_cons (fun _ c h => by cases h; exact obeys_logvolLines2_11 _ rfl)
    (all_cons (fun _ c h => by cases h; exact obeys_logvolLines2_11 _ rfl)
    (all_cons (fun _ c h => by cases h; exact obeys_logvolLines2_11 _ rfl)
    (all_cons (fun _ c h => by cases h; exact obeys_logvolLines2_12 _ rfl)
    (all_cons (fun _ c h => by cases h; exact obeys_logvolLines2_12 _ rfl)
    (all_cons (fun _ c h => by cases h; exact obeys_logvolLines2_0 _ rfl)
    (all_cons (fun _ c h => by cases h; exact obeys_logvolLines2_13 _ rfl)
    (all_cons (fun _ c h => by cases h; exact obeys_logvolLines2_12 _ rfl)
    (all_cons (fun _ c h => by cases h; exact obeys_logvolLines2_12 _ rfl)
    (all_cons (fun _ c h => by cases h; exact obeys_logvolLines2_12 _ rfl)
    (all_cons (fun _ c h => by cases h; exact obeys_logvolLines2_13 _ rfl)
    (all_cons (fun _ c h => by cases h; exact obeys_logvolLines2_13 _ rfl)
    (all_cons (fun _ c h => by cases h; exact obeys_logvolLines2_14 _ rfl)
    (all_cons (fun _ c h => by cases h; exact obeys_logvolLines2_15 _ rfl)
    (all_cons (fun _ c h => by cases h; exact obeys_logvolLines2_16 _ rfl)
    (all_cons (fun _ c h => by cases h; exact obeys_logvolLines2_17 _ rfl) (List.forall_mem_nil _)))))))))))))))))))))))))))))))))))))))

def obeys_logvolLines3_0_object (l : Nat) : Ns := [(c!"lineno", .int l), (c!"fstype", .str c!""), (c!"grow", .bool false), (c!"maxSizeMB", .int 0), (c!"name", .str c!"n"), (c!"format", .bool true), (c!"percent", .int 0), (c!"recommended", .bool false), (c!"size", .none), (c!"preexist", .bool false), (c!"vgname", .str c!"g"), (c!"mountpoint", .str c!"/x"), (c!"fsopts", .str c!""), (c!"fsprofile", .str c!""), (c!"encrypted", .bool false), (c!"passphrase", .str c!""), (c!"mntpoint", .list [c!"/x"])]

theorem obeys_logvolLines3_0_base (n : Str) : Command.FirstBase (F9_LogVol.cls F9_LogVolData.cls) n [c!"/x", c!"--name=n", c!"--vgname=g"] obeys_logvolLines3_0_object := by
  intro b b' hb hb' line l; kernel_rfl

theorem obeys_logvolLines3_0_start : Command.FirstStart (F9_LogVol.cls F9_LogVolData.cls) obeys_logvolLines3_0_object (logvolLines3.start.getD 0 ([], [])).2 := fun _ => .inl ⟨fun _ => rfl, (all_cons (by kernel_rfl) (all_cons (by kernel_rfl) (all_cons (by kernel_rfl) (all_cons (by kernel_rfl) (all_cons (by kernel_rfl) (List.forall_mem_nil _))))))⟩

theorem obeys_logvolLines3_0_lines (n : Str) : ∀ i ∈ [], Command.FirstLine (F9_LogVol.cls F9_LogVolData.cls) n [c!"/x", c!"--name=n", c!"--vgname=g"] obeys_logvolLines3_0_object (logvolLines3.lines.getD i noLine) :=
  (List.forall_mem_nil _)

theorem obeys_logvolLines3_0 : ∀ v, [Version.F9, Version.F10, Version.F11].contains v = true → Command.Obeys (F9_LogVol.cls F9_LogVolData.cls) logvolLines3 v :=
  obeys_of obeys_logvolLines3_0_object [0] [] (obeys_logvolLines3_0_base _) (all_cons obeys_logvolLines3_0_start (List.forall_mem_nil _)) (obeys_logvolLines3_0_lines _) (by decide +kernel)

def obeys_logvolLines3_1_object (l : Nat) : Ns := [(c!"lineno", .int l), (c!"fstype", .str c!""), (c!"grow", .bool false), (c!"maxSizeMB", .int 0), (c!"name", .str c!"n"), (c!"format", .bool true), (c!"percent", .int 0), (c!"recommended", .bool false), (c!"size", .none), (c!"preexist", .bool false), (c!"vgname", .str c!"g"), (c!"mountpoint", .str c!"/x"), (c!"fsopts", .str c!""), (c!"fsprofile", .str c!""), (c!"encrypted", .bool false), (c!"passphrase", .str c!""), (c!"escrowcert", .str c!""), (c!"backuppassphrase", .bool false), (c!"mntpoint", .list [c!"/x"])]

theorem obeys_logvolLines3_1_base (n : Str) : Command.FirstBase (F12_LogVol.cls F12_LogVolData.cls) n [c!"/x", c!"--name=n", c!"--vgname=g"] obeys_logvolLines3_1_object := by
  intro b b' hb hb' line l; kernel_rfl

theorem obeys_logvolLines3_1_start : Command.FirstStart (F12_LogVol.cls F12_LogVolData.cls) obeys_logvolLines3_1_object (logvolLines3.start.getD 0 ([], [])).2 := fun _ => .inl ⟨fun _ => rfl, (all_cons (by kernel_rfl) (all_cons (by kernel_rfl) (all_cons (by kernel_rfl) (all_cons (by kernel_rfl) (all_cons (by kernel_rfl) (List.forall_mem_nil _))))))⟩

theorem obeys_logvolLines3_1_lines (n : Str) : ∀ i ∈ [], Command.FirstLine (F12_LogVol.cls F12_LogVolData.cls) n [c!"/x", c!"--name=n", c!"--vgname=g"] obeys_logvolLines3_1_object (logvolLines3.lines.getD i noLine) :=
  (List.forall_mem_nil _)

theorem obeys_logvolLines3_1 : ∀ v, [Version.F12, Version.F13].contains v = true → Command.Obeys (F12_LogVol.cls F12_LogVolData.cls) logvolLines3 v :=
  obeys_of obeys_logvolLines3_1_object [0] [] (obeys_logvolLines3_1_base _) (all_cons obeys_logvolLines3_1_start (List.forall_mem_nil _)) (obeys_logvolLines3_1_lines _) (by decide +kernel)

def obeys_logvolLines3_2_object (l : Nat) : Ns := [(c!"lineno", .int l), (c!"fstype", .str c!""), (c!"grow", .bool false), (c!"maxSizeMB", .int 0), (c!"name", .str c!"n"), (c!"format", .bool true), (c!"percent", .int 0), (c!"recommended", .bool false), (c!"size", .none), (c!"preexist", .bool false), (c!"vgname", .str c!"g"), (c!"mountpoint", .str c!"/x"), (c!"fsopts", .str c!""), (c!"fsprofile", .str c!""), (c!"encrypted", .bool false), (c!"passphrase", .str c!""), (c!"escrowcert", .str c!""), (c!"backuppassphrase", .bool false), (c!"mntpoint", .list [c!"/x"])]

theorem obeys_logvolLines3_2_base (n : Str) : Command.FirstBase (F14_LogVol.cls F14_LogVolData.cls) n [c!"/x", c!"--name=n", c!"--vgname=g"] obeys_logvolLines3_2_object := by
  intro b b' hb hb' line l; kernel_rfl

theorem obeys_logvolLines3_2_start : Command.FirstStart (F14_LogVol.cls F14_LogVolData.cls) obeys_logvolLines3_2_object (logvolLines3.start.getD 0 ([], [])).2 := fun _ => .inl ⟨fun _ => rfl, (all_cons (by kernel_rfl) (all_cons (by kernel_rfl) (all_cons (by kernel_rfl) (all_cons (by kernel_rfl) (all_cons (by kernel_rfl) (List.forall_mem_nil _))))))⟩

theorem obeys_logvolLines3_2_lines (n : Str) : ∀ i ∈ [], Command.FirstLine (F14_LogVol.cls F14_LogVolData.cls) n [c!"/x", c!"--name=n", c!"--vgname=g"] obeys_logvolLines3_2_object (logvolLines3.lines.getD i noLine) :=
  (List.forall_mem_nil _)

theorem obeys_logvolLines3_2 : ∀ v, [Version.F14].contains v = true → Command.Obeys (F14_LogVol.cls F14_LogVolData.cls) logvolLines3 v :=
  obeys_of obeys_logvolLines3_2_object [0] [] (obeys_logvolLines3_2_base _) (all_cons obeys_logvolLines3_2_start (List.forall_mem_nil _)) (obeys_logvolLines3_2_lines _) (by decide +kernel)

def obeys_logvolLines3_3_object (l : Nat) : Ns := [(c!"lineno", .int l), (c!"fstype", .str c!""), (c!"grow", .bool false), (c!"maxSizeMB", .int 0), (c!"name", .str c!"n"), (c!"format", .bool true), (c!"percent", .int 0), (c!"recommended", .bool false), (c!"size", .none), (c!"preexist", .bool false), (c!"vgname", .str c!"g"), (c!"mountpoint", .str c!"/x"), (c!"fsopts", .str c!""), (c!"fsprofile", .str c!""), (c!"encrypted", .bool false), (c!"passphrase", .str c!""), (c!"escrowcert", .str c!""), (c!"backuppassphrase", .bool false), (c!"label", .str c!""), (c!"mntpoint", .list [c!"/x"])]

theorem obeys_logvolLines3_3_base (n : Str) : Command.FirstBase (F15_LogVol.cls F15_LogVolData.cls) n [c!"/x", c!"--name=n", c!"--vgname=g"] obeys_logvolLines3_3_object := by
  intro b b' hb hb' line l; kernel_rfl

theorem obeys_logvolLines3_3_start : Command.FirstStart (F15_LogVol.cls F15_LogVolData.cls) obeys_logvolLines3_3_object (logvolLines3.start.getD 0 ([], [])).2 := fun _ => .inl ⟨fun _ => rfl, (all_cons (by kernel_rfl) (all_cons (by kernel_rfl) (all_cons (by kernel_rfl) (all_cons (by kernel_rfl) (all_cons (by kernel_rfl) (List.forall_mem_nil _))))))⟩

theorem obeys_logvolLines3_3_lines (n : Str) : ∀ i ∈ [], Command.FirstLine (F15_LogVol.cls F15_LogVolData.cls) n [c!"/x", c!"--name=n", c!"--vgname=g"] obeys_logvolLines3_3_object (logvolLines3.lines.getD i noLine) :=
  (List.forall_mem_nil _)

theorem obeys_logvolLines3_3 : ∀ v, [Version.F15].contains v = true → Command.Obeys (F15_LogVol.cls F15_LogVolData.cls) logvolLines3 v :=
  obeys_of obeys_logvolLines3_3_object [0] [] (obeys_logvolLines3_3_base _) (all_cons obeys_logvolLines3_3_start (List.forall_mem_nil _)) (obeys_logvolLines3_3_lines _) (by decide +kernel)

def obeys_logvolLines3_4_object (l : Nat) : Ns := [(c!"lineno", .int l), (c!"fstype", .str c!""), (c!"grow", .bool false), (c!"maxSizeMB", .int 0), (c!"name", .str c!"n"), (c!"format", .bool true), (c!"percent", .int 0), (c!"recommended", .bool false), (c!"size", .none), (c!"preexist", .bool false), (c!"vgname", .str c!"g"), (c!"mountpoint", .str c!"/x"), (c!"fsopts", .str c!""), (c!"fsprofile", .str c!""), (c!"encrypted", .bool false), (c!"passphrase", .str c!""), (c!"escrowcert", .str c!""), (c!"backuppassphrase", .bool false), (c!"label", .str c!""), (c!"resize", .bool false), (c!"mntpoint", .list [c!"/x"])]

theorem obeys_logvolLines3_4_base (n : Str) : Command.FirstBase (F15_LogVol.cls F17_LogVolData.cls) n [c!"/x", c!"--name=n", c!"--vgname=g"] obeys_logvolLines3_4_object := by
  intro b b' hb hb' line l; kernel_rfl

theorem obeys_logvolLines3_4_start : Command.FirstStart (F15_LogVol.cls F17_LogVolData.cls) obeys_logvolLines3_4_object (logvolLines3.start.getD 0 ([], [])).2 := fun _ => .inl ⟨fun _ => rfl, (all_cons (by kernel_rfl) (all_cons (by kernel_rfl) (all_cons (by kernel_rfl) (all_cons (by kernel_rfl) (all_cons (by kernel_rfl) (List.forall_mem_nil _))))))⟩

theorem obeys_logvolLines3_4_lines (n : Str) : ∀ i ∈ [], Command.FirstLine (F15_LogVol.cls F17_LogVolData.cls) n [c!"/x", c!"--name=n", c!"--vgname=g"] obeys_logvolLines3_4_object (logvolLines3.lines.getD i noLine) :=
  (List.forall_mem_nil _)

theorem obeys_logvolLines3_4 : ∀ v, [Version.F16].contains v = true → Command.Obeys (F15_LogVol.cls F17_LogVolData.cls) logvolLines3 v :=
  obeys_of obeys_logvolLines3_4_object [0] [] (obeys_logvolLines3_4_base _) (all_cons obeys_logvolLines3_4_start (List.forall_mem_nil _)) (obeys_logvolLines3_4_lines _) (by decide +kernel)

def obeys_logvolLines3_5_object (l : Nat) : Ns := [(c!"lineno", .int l), (c!"fstype", .str c!""), (c!"grow", .bool false), (c!"maxSizeMB", .int 0), (c!"name", .str c!"n"), (c!"format", .bool true), (c!"percent", .int 0), (c!"recommended", .bool false), (c!"size", .none), (c!"preexist", .bool false), (c!"vgname", .str c!"g"), (c!"mountpoint", .str c!"/x"), (c!"fsopts", .str c!""), (c!"fsprofile", .str c!""), (c!"encrypted", .bool false), (c!"passphrase", .str c!""), (c!"escrowcert", .str c!""), (c!"backuppassphrase", .bool false), (c!"label", .str c!""), (c!"resize", .bool false), (c!"mntpoint", .list [c!"/x"])]

theorem obeys_logvolLines3_5_base (n : Str) : Command.FirstBase (F17_LogVol.cls F17_LogVolData.cls) n [c!"/x", c!"--name=n", c!"--vgname=g"] obeys_logvolLines3_5_object := by
  intro b b' hb hb' line l; kernel_rfl

theorem obeys_logvolLines3_5_start : Command.FirstStart (F17_LogVol.cls F17_LogVolData.cls) obeys_logvolLines3_5_object (logvolLines3.start.getD 0 ([], [])).2 := fun _ => .inl ⟨fun _ => rfl, (all_cons (by kernel_rfl) (all_cons (by kernel_rfl) (all_cons (by kernel_rfl) (all_cons (by kernel_rfl) (all_cons (by kernel_rfl) (List.forall_mem_nil _))))))⟩

theorem obeys_logvolLines3_5_lines (n : Str) : ∀ i ∈ [], Command.FirstLine (F17_LogVol.cls F17_LogVolData.cls) n [c!"/x", c!"--name=n", c!"--vgname=g"] obeys_logvolLines3_5_object (logvolLines3.lines.getD i noLine) :=
  (List.forall_mem_nil _)

theorem obeys_logvolLines3_5 : ∀ v, [Version.F17].contains v = true → Command.Obeys (F17_LogVol.cls F17_LogVolData.cls) logvolLines3 v :=
  obeys_of obeys_logvolLines3_5_object [0] [] (obeys_logvolLines3_5_base _) (all_cons obeys_logvolLines3_5_start (List.forall_mem_nil _)) (obeys_logvolLines3_5_lines _) (by decide +kernel)

def obeys_logvolLines3_6_object (l : Nat) : Ns := [(c!"lineno", .int l), (c!"fstype", .str c!""), (c!"grow", .bool false), (c!"maxSizeMB", .int 0), (c!"name", .str c!"n"), (c!"format", .bool true), (c!"percent", .int 0), (c!"recommended", .bool false), (c!"size", .none), (c!"preexist", .bool false), (c!"vgname", .str c!"g"), (c!"mountpoint", .str c!"/x"), (c!"fsopts", .str c!""), (c!"fsprofile", .str c!""), (c!"encrypted", .bool false), (c!"passphrase", .str c!""), (c!"escrowcert", .str c!""), (c!"backuppassphrase", .bool false), (c!"label", .str c!""), (c!"resize", .bool false), (c!"hibernation", .bool false), (c!"cipher", .str c!""), (c!"mntpoint", .list [c!"/x"])]

theorem obeys_logvolLines3_6_base (n : Str) : Command.FirstBase (F18_LogVol.cls F18_LogVolData.cls) n [c!"/x", c!"--name=n", c!"--vgname=g"] obeys_logvolLines3_6_object := by
  intro b b' hb hb' line l; kernel_rfl

theorem obeys_logvolLines3_6_start : Command.FirstStart (F18_LogVol.cls F18_LogVolData.cls) obeys_logvolLines3_6_object (logvolLines3.start.getD 0 ([], [])).2 := fun _ => .inl ⟨fun _ => rfl, (all_cons (by kernel_rfl) (all_cons (by kernel_rfl) (all_cons (by kernel_rfl) (all_cons (by kernel_rfl) (all_cons (by kernel_rfl) (List.forall_mem_nil _))))))⟩

theorem obeys_logvolLines3_6_lines (n : Str) : ∀ i ∈ [], Command.FirstLine (F18_LogVol.cls F18_LogVolData.cls) n [c!"/x", c!"--name=n", c!"--vgname=g"] obeys_logvolLines3_6_object (logvolLines3.lines.getD i noLine) :=
  (List.forall_mem_nil _)

theorem obeys_logvolLines3_6 : ∀ v, [Version.F18].contains v = true → Command.Obeys (F18_LogVol.cls F18_LogVolData.cls) logvolLines3 v :=
  obeys_of obeys_logvolLines3_6_object [0] [] (obeys_logvolLines3_6_base _) (all_cons obeys_logvolLines3_6_start (List.forall_mem_nil _)) (obeys_logvolLines3_6_lines _) (by decide +kernel)

def obeys_logvolLines3_7_object (l : Nat) : Ns := [(c!"lineno", .int l), (c!"fstype", .str c!""), (c!"grow", .bool false), (c!"maxSizeMB", .int 0), (c!"name", .str c!"n"), (c!"format", .bool true), (c!"percent", .int 0), (c!"recommended", .bool false), (c!"size", .none), (c!"preexist", .bool false), (c!"vgname", .str c!"g"), (c!"mountpoint", .str c!"/x"), (c!"fsopts", .str c!""), (c!"fsprofile", .str c!""), (c!"encrypted", .bool false), (c!"passphrase", .str c!""), (c!"escrowcert", .str c!""), (c!"backuppassphrase", .bool false), (c!"label", .str c!""), (c!"resize", .bool false), (c!"hibernation", .bool false), (c!"cipher", .str c!""), (c!"thin_pool", .bool false), (c!"thin_volume", .bool false), (c!"pool_name", .str c!""), (c!"chunk_size", .none), (c!"metadata_size", .none), (c!"mntpoint", .list [c!"/x"])]

theorem obeys_logvolLines3_7_base (n : Str) : Command.FirstBase (F18_LogVol.cls F20_LogVolData.cls) n [c!"/x", c!"--name=n", c!"--vgname=g"] obeys_logvolLines3_7_object := by
  intro b b' hb hb' line l; kernel_rfl

theorem obeys_logvolLines3_7_start : Command.FirstStart (F18_LogVol.cls F20_LogVolData.cls) obeys_logvolLines3_7_object (logvolLines3.start.getD 0 ([], [])).2 := fun _ => .inl ⟨fun _ => rfl, (all_cons (by kernel_rfl) (all_cons (by kernel_rfl) (all_cons (by kernel_rfl) (all_cons (by kernel_rfl) (all_cons (by kernel_rfl) (List.forall_mem_nil _))))))⟩

theorem obeys_logvolLines3_7_lines (n : Str) : ∀ i ∈ [0, 1, 2], Command.FirstLine (F18_LogVol.cls F20_LogVolData.cls) n [c!"/x", c!"--name=n", c!"--vgname=g"] obeys_logvolLines3_7_object (logvolLines3.lines.getD i noLine) :=
  (all_cons (by intro b b' hb hb' x hx line l; kernel_rfl)
    (all_cons (by intro b b' hb hb' x hx line l; kernel_rfl)
    (all_cons (by intro b b' hb hb' x hx line l; kernel_rfl)
    (List.forall_mem_nil _))))

theorem obeys_logvolLines3_7 : ∀ v, [Version.F19].contains v = true → Command.Obeys (F18_LogVol.cls F20_LogVolData.cls) logvolLines3 v :=
  obeys_of obeys_logvolLines3_7_object [0] [0, 1, 2] (obeys_logvolLines3_7_base _) (all_cons obeys_logvolLines3_7_start (List.forall_mem_nil _)) (obeys_logvolLines3_7_lines _) (by decide +kernel)

def obeys_logvolLines3_8_object (l : Nat) : Ns := [(c!"lineno", .int l), (c!"fstype", .str c!""), (c!"grow", .bool false), (c!"maxSizeMB", .int 0), (c!"name", .str c!"n"), (c!"format", .bool true), (c!"percent", .int 0), (c!"recommended", .bool false), (c!"size", .none), (c!"preexist", .bool false), (c!"vgname", .str c!"g"), (c!"mountpoint", .str c!"/x"), (c!"bytesPerInode", .int 4096), (c!"fsopts", .str c!""), (c!"mntpoint", .list [c!"/x"])]

theorem obeys_logvolLines3_8_base (n : Str) : Command.FirstBase (FC4_LogVol.cls FC4_LogVolData.cls) n [c!"/x", c!"--name=n", c!"--vgname=g"] obeys_logvolLines3_8_object := by
  intro b b' hb hb' line l; kernel_rfl

theorem obeys_logvolLines3_8_start : Command.FirstStart (FC4_LogVol.cls FC4_LogVolData.cls) obeys_logvolLines3_8_object (logvolLines3.start.getD 1 ([], [])).2 := fun _ => .inl ⟨fun _ => rfl, (all_cons (by kernel_rfl) (all_cons (by kernel_rfl) (all_cons (by kernel_rfl) (all_cons (by kernel_rfl) (all_cons (by kernel_rfl) (all_cons (by kernel_rfl) (List.forall_mem_nil _)))))))⟩

theorem obeys_logvolLines3_8_lines (n : Str) : ∀ i ∈ [], Command.FirstLine (FC4_LogVol.cls FC4_LogVolData.cls) n [c!"/x", c!"--name=n", c!"--vgname=g"] obeys_logvolLines3_8_object (logvolLines3.lines.getD i noLine) :=
  (List.forall_mem_nil _)

theorem obeys_logvolLines3_8 : ∀ v, [Version.FC4, Version.FC5, Version.FC6, Version.F7, Version.F8].contains v = true → Command.Obeys (FC4_LogVol.cls FC4_LogVolData.cls) logvolLines3 v :=
  obeys_of obeys_logvolLines3_8_object [1] [] (obeys_logvolLines3_8_base _) (all_cons obeys_logvolLines3_8_start (List.forall_mem_nil _)) (obeys_logvolLines3_8_lines _) (by decide +kernel)

def obeys_logvolLines3_9_object (l : Nat) : Ns := [(c!"lineno", .int l), (c!"fstype", .str c!""), (c!"grow", .bool false), (c!"maxSizeMB", .int 0), (c!"name", .str c!"n"), (c!"format", .bool true), (c!"percent", .int 0), (c!"recommended", .bool false), (c!"size", .none), (c!"preexist", .bool false), (c!"vgname", .str c!"g"), (c!"mountpoint", .str c!"/x"), (c!"mntpoint", .list [c!"/x"])]

theorem obeys_logvolLines3_9_base (n : Str) : Command.FirstBase (FC3_LogVol.cls FC3_LogVolData.cls) n [c!"/x", c!"--name=n", c!"--vgname=g"] obeys_logvolLines3_9_object := by
  intro b b' hb hb' line l; kernel_rfl

theorem obeys_logvolLines3_9_start : Command.FirstStart (FC3_LogVol.cls FC3_LogVolData.cls) obeys_logvolLines3_9_object (logvolLines3.start.getD 0 ([], [])).2 := fun _ => .inl ⟨fun _ => rfl, (all_cons (by kernel_rfl) (all_cons (by kernel_rfl) (all_cons (by kernel_rfl) (all_cons (by kernel_rfl) (all_cons (by kernel_rfl) (List.forall_mem_nil _))))))⟩

theorem obeys_logvolLines3_9_lines (n : Str) : ∀ i ∈ [0, 1, 2], Command.FirstLine (FC3_LogVol.cls FC3_LogVolData.cls) n [c!"/x", c!"--name=n", c!"--vgname=g"] obeys_logvolLines3_9_object (logvolLines3.lines.getD i noLine) :=
  (all_cons (by intro b b' hb hb' x hx line l; kernel_rfl)
    (all_cons (by intro b b' hb hb' x hx line l; kernel_rfl)
    (all_cons (by intro b b' hb hb' x hx line l; kernel_rfl)
    (List.forall_mem_nil _))))

theorem obeys_logvolLines3_9 : ∀ v, [Version.RHEL3, Version.FC3, Version.RHEL4].contains v = true → Command.Obeys (FC3_LogVol.cls FC3_LogVolData.cls) logvolLines3 v :=
  obeys_of obeys_logvolLines3_9_object [0] [0, 1, 2] (obeys_logvolLines3_9_base _) (all_cons obeys_logvolLines3_9_start (List.forall_mem_nil _)) (obeys_logvolLines3_9_lines _) (by decide +kernel)

def obeys_logvolLines3_10_object (l : Nat) : Ns := [(c!"lineno", .int l), (c!"fstype", .str c!""), (c!"grow", .bool false), (c!"maxSizeMB", .int 0), (c!"name", .str c!"n"), (c!"format", .bool true), (c!"percent", .int 0), (c!"recommended", .bool false), (c!"size", .none), (c!"preexist", .bool false), (c!"vgname", .str c!"g"), (c!"mountpoint", .str c!"/x"), (c!"bytesPerInode", .int 4096), (c!"fsopts", .str c!""), (c!"encrypted", .bool false), (c!"passphrase", .str c!""), (c!"mntpoint", .list [c!"/x"])]

theorem obeys_logvolLines3_10_base (n : Str) : Command.FirstBase (RHEL5_LogVol.cls RHEL5_LogVolData.cls) n [c!"/x", c!"--name=n", c!"--vgname=g"] obeys_logvolLines3_10_object := by
  intro b b' hb hb' line l; kernel_rfl

theorem obeys_logvolLines3_10_start : Command.FirstStart (RHEL5_LogVol.cls RHEL5_LogVolData.cls) obeys_logvolLines3_10_object (logvolLines3.start.getD 1 ([], [])).2 := fun _ => .inl ⟨fun _ => rfl, (all_cons (by kernel_rfl) (all_cons (by kernel_rfl) (all_cons (by kernel_rfl) (all_cons (by kernel_rfl) (all_cons (by kernel_rfl) (all_cons (by kernel_rfl) (List.forall_mem_nil _)))))))⟩

theorem obeys_logvolLines3_10_lines (n : Str) : ∀ i ∈ [], Command.FirstLine (RHEL5_LogVol.cls RHEL5_LogVolData.cls) n [c!"/x", c!"--name=n", c!"--vgname=g"] obeys_logvolLines3_10_object (logvolLines3.lines.getD i noLine) :=
  (List.forall_mem_nil _)

theorem obeys_logvolLines3_10 : ∀ v, [Version.RHEL5].contains v = true → Command.Obeys (RHEL5_LogVol.cls RHEL5_LogVolData.cls) logvolLines3 v :=
  obeys_of obeys_logvolLines3_10_object [1] [] (obeys_logvolLines3_10_base _) (all_cons obeys_logvolLines3_10_start (List.forall_mem_nil _)) (obeys_logvolLines3_10_lines _) (by decide +kernel)

def obeys_logvolLines3_11_object (l : Nat) : Ns := [(c!"lineno", .int l), (c!"fstype", .str c!""), (c!"grow", .bool false), (c!"maxSizeMB", .int 0), (c!"name", .str c!"n"), (c!"format", .bool true), (c!"percent", .int 0), (c!"recommended", .bool false), (c!"size", .none), (c!"preexist", .bool false), (c!"vgname", .str c!"g"), (c!"mountpoint", .str c!"/x"), (c!"fsopts", .str c!""), (c!"fsprofile", .str c!""), (c!"encrypted", .bool false), (c!"passphrase", .str c!""), (c!"escrowcert", .str c!""), (c!"backuppassphrase", .bool false), (c!"cipher", .str c!""), (c!"hibernation", .bool false), (c!"thin_pool", .bool false), (c!"thin_volume", .bool false), (c!"pool_name", .str c!""), (c!"chunk_size", .none), (c!"metadata_size", .none), (c!"profile", .str c!""), (c!"mntpoint", .list [c!"/x"])]

theorem obeys_logvolLines3_11_base (n : Str) : Command.FirstBase (RHEL6_LogVol.cls RHEL6_LogVolData.cls) n [c!"/x", c!"--name=n", c!"--vgname=g"] obeys_logvolLines3_11_object := by
  intro b b' hb hb' line l; kernel_rfl

theorem obeys_logvolLines3_11_start : Command.FirstStart (RHEL6_LogVol.cls RHEL6_LogVolData.cls) obeys_logvolLines3_11_object (logvolLines3.start.getD 0 ([], [])).2 := fun _ => .inl ⟨fun _ => rfl, (all_cons (by kernel_rfl) (all_cons (by kernel_rfl) (all_cons (by kernel_rfl) (all_cons (by kernel_rfl) (all_cons (by kernel_rfl) (List.forall_mem_nil _))))))⟩

theorem obeys_logvolLines3_11_lines (n : Str) : ∀ i ∈ [], Command.FirstLine (RHEL6_LogVol.cls RHEL6_LogVolData.cls) n [c!"/x", c!"--name=n", c!"--vgname=g"] obeys_logvolLines3_11_object (logvolLines3.lines.getD i noLine) :=
  (List.forall_mem_nil _)

theorem obeys_logvolLines3_11 : ∀ v, [Version.RHEL6].contains v = true → Command.Obeys (RHEL6_LogVol.cls RHEL6_LogVolData.cls) logvolLines3 v :=
  obeys_of obeys_logvolLines3_11_object [0] [] (obeys_logvolLines3_11_base _) (all_cons obeys_logvolLines3_11_start (List.forall_mem_nil _)) (obeys_logvolLines3_11_lines _) (by decide +kernel)

theorem obeys_logvolLines3 : logvolLines3.Obeyed := by
  unfold CommandLines.Obeyed commandMaps
  exact (all_cons (fun _ c h => by cases h; exact obeys_logvolLines3_0 _ rfl)
    (all_cons (fun _ c h => by cases h; exact obeys_logvolLines3_0 _ rfl)
    (all_cons (fun _ c h => by cases h; exact obeys_logvolLines3_1 _ rfl)
    (all_cons (fun _ c h => by cases h; exact obeys_logvolLines3_1 _ rfl)
    (all_cons (fun _ c h => by cases h; exact obeys_logvolLines3_2 _ rfl)
    (all_cons (fun _ c h => by cases h; exact obeys_logvolLines3_3 _ rfl)
    (all_cons (fun _ c h => by cases h; exact obeys_logvolLines3_4 _ rfl)
    (all_cons (fun _ c h => by cases h; exact obeys_logvolLines3_5 _ rfl)
    (all_cons (fun _ c h => by cases h; exact obeys_logvolLines3_6 _ rfl)
    (all_cons (fun _ c h => by cases h; exact obeys_logvolLines3_7 _ rfl)
    (all_cons (fun hv => absurd hv (by decide))
    (all_cons (fun hv => absurd hv (by decide))
    (all_cons (fun hv => absurd hv (by decide))
    (all_cons (fun hv => absurd hv (by decide))
    (all_cons (fun hv => absurd hv (by decide))
    (all_cons (fun hv => absurd hv (by decide))
    (all_cons (fun hv => absurd hv (by decide))
    (all_cons (fun hv => absurd hv (by decide))
    (all_cons (fun hv => absurd hv (by decide))
    (all_cons (fun hv => absurd hv (by decide))
    (all_cons (fun hv => absurd hv (by decide))
    (all_cons (fun hv => absurd hv (by decide))
    (all_cons (fun hv => absurd hv (by decide))
    (all_cons (fun hv => absurd hv (by decide))
    (all_cons (fun hv => absurd hv (by decide))
    (all_cons (fun _ c h => by cases h; exact obeys_logvolLines3_8 _ rfl)
    (all_cons (fun _ c h => by cases h; exact obeys_logvolLines3_8 _ rfl)
    (all_cons (fun _ c h => by cases h; exact obeys_logvolLines3_0 _ rfl)
    (all_cons (fun _ c h => by cases h; exact obeys_logvolLines3_9 _ rfl)
    (all_cons (fun _ c h => by cases h; exact obeys_logvolLines3_8 _ rfl)
    (all_cons (fun _ c h => by cases h; exact obeys_logvolLines3_8 _ rfl)
    (all_cons (fun _ c h => by cases h; exact obeys_logvolLines3_8 _ rfl)
    (all_cons (fun _ c h => by cases h; exact obeys_logvolLines3_9 _ rfl)
    (all_cons (fun _ c h => by cases h; exact obeys_logvolLines3_9 _ rfl)
    (all_cons (fun _ c h => by cases h; exact obeys_logvolLines3_10 _ rfl)
    (all_cons (fun _ c h => by cases h; exact obeys_logvolLines3_11 _ rfl)
    (all_cons (fun hv => absurd hv (by decide))
    (all_cons (fun hv => absurd hv (by decide)) (List.forall_mem_nil _)))))))))))))))))))))))))))))))))))))))

def obeys_logvolLines4_0_object (l : Nat) : Ns := [(c!"lineno", .int l), (c!"fstype", .str c!""), (c!"grow", .bool false), (c!"maxSizeMB", .int 0), (c!"name", .str c!"n"), (c!"format", .bool true), (c!"percent", .int 0), (c!"recommended", .bool false), (c!"size", .int 1), (c!"preexist", .bool false), (c!"vgname", .str c!"g"), (c!"mountpoint", .str c!"/x"), (c!"fsopts", .str c!""), (c!"fsprofile", .str c!""), (c!"encrypted", .bool false), (c!"passphrase", .str c!""), (c!"escrowcert", .str c!""), (c!"backuppassphrase", .bool false), (c!"label", .str c!""), (c!"resize", .bool false), (c!"hibernation", .bool false), (c!"cipher", .str c!""), (c!"thin_pool", .bool false), (c!"thin_volume", .bool false), (c!"pool_name", .str c!"p"), (c!"chunk_size", .none), (c!"metadata_size", .none), (c!"mntpoint", .list [c!"/x"])]

theorem obeys_logvolLines4_0_base (n : Str) : Command.FirstBase (F20_LogVol.cls F20_LogVolData.cls) n [c!"/x", c!"--name=n", c!"--vgname=g", c!"--size=1", c!"--poolname=p"] obeys_logvolLines4_0_object := by
  intro b b' hb hb' line l; rcases hb with rfl | rfl <;> rcases hb' with rfl | rfl <;> kernel_rfl

theorem obeys_logvolLines4_0_start : Command.FirstStart (F20_LogVol.cls F20_LogVolData.cls) obeys_logvolLines4_0_object (logvolLines4.start.getD 0 ([], [])).2 := fun _ => .inl ⟨fun _ => rfl, (all_cons (by kernel_rfl) (all_cons (by kernel_rfl) (all_cons (by kernel_rfl) (all_cons (by kernel_rfl) (all_cons (by kernel_rfl) (all_cons (by kernel_rfl) (all_cons (by kernel_rfl) (List.forall_mem_nil _))))))))⟩

theorem obeys_logvolLines4_0_lines (n : Str) : ∀ i ∈ [2], Command.FirstLine (F20_LogVol.cls F20_LogVolData.cls) n [c!"/x", c!"--name=n", c!"--vgname=g", c!"--size=1", c!"--poolname=p"] obeys_logvolLines4_0_object (logvolLines4.lines.getD i noLine) :=
  (all_cons (by intro b b' hb hb' x hx line l; (cases x with | nil => exact absurd rfl hx | cons a x => rcases hb with rfl | rfl <;> rcases hb' with rfl | rfl <;> kernel_rfl))
    (List.forall_mem_nil _))

theorem obeys_logvolLines4_0 : ∀ v, [Version.F20].contains v = true → Command.Obeys (F20_LogVol.cls F20_LogVolData.cls) logvolLines4 v :=
  obeys_of obeys_logvolLines4_0_object [0] [2] (obeys_logvolLines4_0_base _) (all_cons obeys_logvolLines4_0_start (List.forall_mem_nil _)) (obeys_logvolLines4_0_lines _) (by decide +kernel)

def obeys_logvolLines4_1_object (l : Nat) : Ns := [(c!"lineno", .int l), (c!"fstype", .str c!""), (c!"grow", .bool false), (c!"maxSizeMB", .int 0), (c!"name", .str c!"n"), (c!"format", .bool true), (c!"percent", .int 0), (c!"recommended", .bool false), (c!"size", .int 1), (c!"preexist", .bool false), (c!"vgname", .str c!"g"), (c!"mountpoint", .str c!"/x"), (c!"fsopts", .str c!""), (c!"fsprofile", .str c!""), (c!"encrypted", .bool false), (c!"passphrase", .str c!""), (c!"escrowcert", .str c!""), (c!"backuppassphrase", .bool false), (c!"label", .str c!""), (c!"resize", .bool false), (c!"hibernation", .bool false), (c!"cipher", .str c!""), (c!"thin_pool", .bool false), (c!"thin_volume", .bool false), (c!"pool_name", .str c!"p"), (c!"chunk_size", .none), (c!"metadata_size", .none), (c!"profile", .str c!""), (c!"mntpoint", .list [c!"/x"])]

theorem obeys_logvolLines4_1_base (n : Str) : Command.FirstBase (F21_LogVol.cls F21_LogVolData.cls) n [c!"/x", c!"--name=n", c!"--vgname=g", c!"--size=1", c!"--poolname=p"] obeys_logvolLines4_1_object := by
  intro b b' hb hb' line l; rcases hb with rfl | rfl <;> rcases hb' with rfl | rfl <;> kernel_rfl

theorem obeys_logvolLines4_1_start : Command.FirstStart (F21_LogVol.cls F21_LogVolData.cls) obeys_logvolLines4_1_object (logvolLines4.start.getD 0 ([], [])).2 := fun _ => .inl ⟨fun _ => rfl, (all_cons (by kernel_rfl) (all_cons (by kernel_rfl) (all_cons (by kernel_rfl) (all_cons (by kernel_rfl) (all_cons (by kernel_rfl) (all_cons (by kernel_rfl) (all_cons (by kernel_rfl) (List.forall_mem_nil _))))))))⟩

theorem obeys_logvolLines4_1_lines (n : Str) : ∀ i ∈ [], Command.FirstLine (F21_LogVol.cls F21_LogVolData.cls) n [c!"/x", c!"--name=n", c!"--vgname=g", c!"--size=1", c!"--poolname=p"] obeys_logvolLines4_1_object (logvolLines4.lines.getD i noLine) :=
  (List.forall_mem_nil _)

theorem obeys_logvolLines4_1 : ∀ v, [Version.F21, Version.F22].contains v = true → Command.Obeys (F21_LogVol.cls F21_LogVolData.cls) logvolLines4 v :=
  obeys_of obeys_logvolLines4_1_object [0] [] (obeys_logvolLines4_1_base _) (all_cons obeys_logvolLines4_1_start (List.forall_mem_nil _)) (obeys_logvolLines4_1_lines _) (by decide +kernel)

def obeys_logvolLines4_2_object (l : Nat) : Ns := [(c!"lineno", .int l), (c!"fstype", .str c!""), (c!"grow", .bool false), (c!"maxSizeMB", .int 0), (c!"name", .str c!"n"), (c!"format", .bool true), (c!"percent", .int 0), (c!"recommended", .bool false), (c!"size", .int 1), (c!"preexist", .bool false), (c!"vgname", .str c!"g"), (c!"mountpoint", .str c!"/x"), (c!"fsopts", .str c!""), (c!"fsprofile", .str c!""), (c!"encrypted", .bool false), (c!"passphrase", .str c!""), (c!"escrowcert", .str c!""), (c!"backuppassphrase", .bool false), (c!"label", .str c!""), (c!"resize", .bool false), (c!"hibernation", .bool false), (c!"cipher", .str c!""), (c!"thin_pool", .bool false), (c!"thin_volume", .bool false), (c!"pool_name", .str c!"p"), (c!"chunk_size", .none), (c!"metadata_size", .none), (c!"profile", .str c!""), (c!"cache_size", .int 0), (c!"cache_mode", .str c!""), (c!"cache_pvs", .list []), (c!"mkfsopts", .str c!""), (c!"mntpoint", .list [c!"/x"])]

theorem obeys_logvolLines4_2_base (n : Str) : Command.FirstBase (F23_LogVol.cls F23_LogVolData.cls) n [c!"/x", c!"--name=n", c!"--vgname=g", c!"--size=1", c!"--poolname=p"] obeys_logvolLines4_2_object := by
  intro b b' hb hb' line l; rcases hb with rfl | rfl <;> rcases hb' with rfl | rfl <;> kernel_rfl

theorem obeys_logvolLines4_2_start : Command.FirstStart (F23_LogVol.cls F23_LogVolData.cls) obeys_logvolLines4_2_object (logvolLines4.start.getD 0 ([], [])).2 := fun _ => .inl ⟨fun _ => rfl, (all_cons (by kernel_rfl) (all_cons (by kernel_rfl) (all_cons (by kernel_rfl) (all_cons (by kernel_rfl) (all_cons (by kernel_rfl) (all_cons (by kernel_rfl) (all_cons (by kernel_rfl) (List.forall_mem_nil _))))))))⟩

theorem obeys_logvolLines4_2_lines (n : Str) : ∀ i ∈ [], Command.FirstLine (F23_LogVol.cls F23_LogVolData.cls) n [c!"/x", c!"--name=n", c!"--vgname=g", c!"--size=1", c!"--poolname=p"] obeys_logvolLines4_2_object (logvolLines4.lines.getD i noLine) :=
  (List.forall_mem_nil _)

theorem obeys_logvolLines4_2 : ∀ v, [Version.F23, Version.F24, Version.F25, Version.F26, Version.F27, Version.F28].contains v = true → Command.Obeys (F23_LogVol.cls F23_LogVolData.cls) logvolLines4 v :=
  obeys_of obeys_logvolLines4_2_object [0] [] (obeys_logvolLines4_2_base _) (all_cons obeys_logvolLines4_2_start (List.forall_mem_nil _)) (obeys_logvolLines4_2_lines _) (by decide +kernel)

def obeys_logvolLines4_3_object (l : Nat) : Ns := [(c!"lineno", .int l), (c!"fstype", .str c!""), (c!"grow", .bool false), (c!"maxSizeMB", .int 0), (c!"name", .str c!"n"), (c!"format", .bool true), (c!"percent", .int 0), (c!"recommended", .bool false), (c!"size", .int 1), (c!"preexist", .bool false), (c!"vgname", .str c!"g"), (c!"mountpoint", .str c!"/x"), (c!"fsopts", .str c!""), (c!"fsprofile", .str c!""), (c!"encrypted", .bool false), (c!"passphrase", .str c!""), (c!"escrowcert", .str c!""), (c!"backuppassphrase", .bool false), (c!"label", .str c!""), (c!"resize", .bool false), (c!"hibernation", .bool false), (c!"cipher", .str c!""), (c!"thin_pool", .bool false), (c!"thin_volume", .bool false), (c!"pool_name", .str c!"p"), (c!"chunk_size", .none), (c!"metadata_size", .none), (c!"profile", .str c!""), (c!"cache_size", .int 0), (c!"cache_mode", .str c!""), (c!"cache_pvs", .list []), (c!"mkfsopts", .str c!""), (c!"luks_version", .str c!""), (c!"pbkdf", .str c!""), (c!"pbkdf_memory", .int 0), (c!"pbkdf_time", .int 0), (c!"pbkdf_iterations", .int 0), (c!"mntpoint", .list [c!"/x"])]

theorem obeys_logvolLines4_3_base (n : Str) : Command.FirstBase (F29_LogVol.cls F29_LogVolData.cls) n [c!"/x", c!"--name=n", c!"--vgname=g", c!"--size=1", c!"--poolname=p"] obeys_logvolLines4_3_object := by
  intro b b' hb hb' line l; rcases hb with rfl | rfl <;> rcases hb' with rfl | rfl <;> kernel_rfl

theorem obeys_logvolLines4_3_start : Command.FirstStart (F29_LogVol.cls F29_LogVolData.cls) obeys_logvolLines4_3_object (logvolLines4.start.getD 0 ([], [])).2 := fun _ => .inl ⟨fun _ => rfl, (all_cons (by kernel_rfl) (all_cons (by kernel_rfl) (all_cons (by kernel_rfl) (all_cons (by kernel_rfl) (all_cons (by kernel_rfl) (all_cons (by kernel_rfl) (all_cons (by kernel_rfl) (List.forall_mem_nil _))))))))⟩

theorem obeys_logvolLines4_3_lines (n : Str) : ∀ i ∈ [0, 1, 2], Command.FirstLine (F29_LogVol.cls F29_LogVolData.cls) n [c!"/x", c!"--name=n", c!"--vgname=g", c!"--size=1", c!"--poolname=p"] obeys_logvolLines4_3_object (logvolLines4.lines.getD i noLine) :=
  (all_cons (by intro b b' hb hb' x hx line l; rcases hb with rfl | rfl <;> rcases hb' with rfl | rfl <;> kernel_rfl)
    (all_cons (by intro b b' hb hb' x hx line l; rcases hb with rfl | rfl <;> rcases hb' with rfl | rfl <;> kernel_rfl)
    (all_cons (by intro b b' hb hb' x hx line l; (cases x with | nil => exact absurd rfl hx | cons a x => rcases hb with rfl | rfl <;> rcases hb' with rfl | rfl <;> kernel_rfl))
    (List.forall_mem_nil _))))

theorem obeys_logvolLines4_3 : ∀ v, [Version.F29, Version.F30, Version.F31, Version.F32, Version.F33, Version.F34].contains v = true → Command.Obeys (F29_LogVol.cls F29_LogVolData.cls) logvolLines4 v :=
  obeys_of obeys_logvolLines4_3_object [0] [0, 1, 2] (obeys_logvolLines4_3_base _) (all_cons obeys_logvolLines4_3_start (List.forall_mem_nil _)) (obeys_logvolLines4_3_lines _) (by decide +kernel)

def obeys_logvolLines4_4_object (l : Nat) : Ns := [(c!"lineno", .int l), (c!"fstype", .str c!""), (c!"grow", .bool false), (c!"maxSizeMB", .int 0), (c!"name", .str c!"n"), (c!"format", .bool true), (c!"percent", .int 0), (c!"recommended", .bool false), (c!"size", .int 1), (c!"preexist", .bool false), (c!"vgname", .str c!"g"), (c!"mountpoint", .str c!"/x"), (c!"fsopts", .str c!""), (c!"fsprofile", .str c!""), (c!"encrypted", .bool false), (c!"passphrase", .str c!""), (c!"escrowcert", .str c!""), (c!"backuppassphrase", .bool false), (c!"cipher", .str c!""), (c!"hibernation", .bool false), (c!"thin_pool", .bool false), (c!"thin_volume", .bool false), (c!"pool_name", .str c!"p"), (c!"chunk_size", .none), (c!"metadata_size", .none), (c!"profile", .str c!""), (c!"mntpoint", .list [c!"/x"])]

theorem obeys_logvolLines4_4_base (n : Str) : Command.FirstBase (RHEL6_LogVol.cls RHEL6_LogVolData.cls) n [c!"/x", c!"--name=n", c!"--vgname=g", c!"--size=1", c!"--poolname=p"] obeys_logvolLines4_4_object := by
  intro b b' hb hb' line l; kernel_rfl

theorem obeys_logvolLines4_4_start : Command.FirstStart (RHEL6_LogVol.cls RHEL6_LogVolData.cls) obeys_logvolLines4_4_object (logvolLines4.start.getD 0 ([], [])).2 := fun _ => .inl ⟨fun _ => rfl, (all_cons (by kernel_rfl) (all_cons (by kernel_rfl) (all_cons (by kernel_rfl) (all_cons (by kernel_rfl) (all_cons (by kernel_rfl) (all_cons (by kernel_rfl) (all_cons (by kernel_rfl) (List.forall_mem_nil _))))))))⟩

theorem obeys_logvolLines4_4_lines (n : Str) : ∀ i ∈ [0, 1, 3], Command.FirstLine (RHEL6_LogVol.cls RHEL6_LogVolData.cls) n [c!"/x", c!"--name=n", c!"--vgname=g", c!"--size=1", c!"--poolname=p"] obeys_logvolLines4_4_object (logvolLines4.lines.getD i noLine) :=
  (all_cons (by intro b b' hb hb' x hx line l; kernel_rfl)
    (all_cons (by intro b b' hb hb' x hx line l; kernel_rfl)
    (all_cons (by intro b b' hb hb' x hx line l; (cases x with | nil => exact absurd rfl hx | cons a x => kernel_rfl))
    (List.forall_mem_nil _))))

theorem obeys_logvolLines4_4 : ∀ v, [Version.RHEL6].contains v = true → Command.Obeys (RHEL6_LogVol.cls RHEL6_LogVolData.cls) logvolLines4 v :=
  obeys_of obeys_logvolLines4_4_object [0] [0, 1, 3] (obeys_logvolLines4_4_base _) (all_cons obeys_logvolLines4_4_start (List.forall_mem_nil _)) (obeys_logvolLines4_4_lines _) (by decide +kernel)

def obeys_logvolLines4_5_object (l : Nat) : Ns := [(c!"lineno", .int l), (c!"fstype", .str c!""), (c!"grow", .bool false), (c!"maxSizeMB", .int 0), (c!"name", .str c!"n"), (c!"format", .bool true), (c!"percent", .int 0), (c!"recommended", .bool false), (c!"size", .int 1), (c!"preexist", .bool false), (c!"vgname", .str c!"g"), (c!"mountpoint", .str c!"/x"), (c!"fsopts", .str c!""), (c!"fsprofile", .str c!""), (c!"encrypted", .bool false), (c!"passphrase", .str c!""), (c!"escrowcert", .str c!""), (c!"backuppassphrase", .bool false), (c!"label", .str c!""), (c!"resize", .bool false), (c!"hibernation", .bool false), (c!"cipher", .str c!""), (c!"thin_pool", .bool false), (c!"thin_volume", .bool false), (c!"pool_name", .str c!"p"), (c!"chunk_size", .none), (c!"metadata_size", .none), (c!"profile", .str c!""), (c!"mkfsopts", .str c!""), (c!"mntpoint", .list [c!"/x"])]

theorem obeys_logvolLines4_5_base (n : Str) : Command.FirstBase (RHEL7_LogVol.cls RHEL7_LogVolData.cls) n [c!"/x", c!"--name=n", c!"--vgname=g", c!"--size=1", c!"--poolname=p"] obeys_logvolLines4_5_object := by
  intro b b' hb hb' line l; rcases hb with rfl | rfl <;> rcases hb' with rfl | rfl <;> kernel_rfl

theorem obeys_logvolLines4_5_start : Command.FirstStart (RHEL7_LogVol.cls RHEL7_LogVolData.cls) obeys_logvolLines4_5_object (logvolLines4.start.getD 0 ([], [])).2 := fun _ => .inl ⟨fun _ => rfl, (all_cons (by kernel_rfl) (all_cons (by kernel_rfl) (all_cons (by kernel_rfl) (all_cons (by kernel_rfl) (all_cons (by kernel_rfl) (all_cons (by kernel_rfl) (all_cons (by kernel_rfl) (List.forall_mem_nil _))))))))⟩

theorem obeys_logvolLines4_5_lines (n : Str) : ∀ i ∈ [], Command.FirstLine (RHEL7_LogVol.cls RHEL7_LogVolData.cls) n [c!"/x", c!"--name=n", c!"--vgname=g", c!"--size=1", c!"--poolname=p"] obeys_logvolLines4_5_object (logvolLines4.lines.getD i noLine) :=
  (List.forall_mem_nil _)

theorem obeys_logvolLines4_5 : ∀ v, [Version.RHEL7].contains v = true → Command.Obeys (RHEL7_LogVol.cls RHEL7_LogVolData.cls) logvolLines4 v :=
  obeys_of obeys_logvolLines4_5_object [0] [] (obeys_logvolLines4_5_base _) (all_cons obeys_logvolLines4_5_start (List.forall_mem_nil _)) (obeys_logvolLines4_5_lines _) (by decide +kernel)

def obeys_logvolLines4_6_object (l : Nat) : Ns := [(c!"lineno", .int l), (c!"fstype", .str c!""), (c!"grow", .bool false), (c!"maxSizeMB", .int 0), (c!"name", .str c!"n"), (c!"format", .bool true), (c!"percent", .int 0), (c!"recommended", .bool false), (c!"size", .int 1), (c!"preexist", .bool false), (c!"vgname", .str c!"g"), (c!"mountpoint", .str c!"/x"), (c!"fsopts", .str c!""), (c!"fsprofile", .str c!""), (c!"encrypted", .bool false), (c!"passphrase", .str c!""), (c!"escrowcert", .str c!""), (c!"backuppassphrase", .bool false), (c!"label", .str c!""), (c!"resize", .bool false), (c!"hibernation", .bool false), (c!"cipher", .str c!""), (c!"thin_pool", .bool false), (c!"thin_volume", .bool false), (c!"pool_name", .str c!"p"), (c!"chunk_size", .none), (c!"metadata_size", .none), (c!"profile", .str c!""), (c!"cache_size", .int 0), (c!"cache_mode", .str c!""), (c!"cache_pvs", .list []), (c!"mkfsopts", .str c!""), (c!"luks_version", .str c!""), (c!"pbkdf", .str c!""), (c!"pbkdf_memory", .int 0), (c!"pbkdf_time", .int 0), (c!"pbkdf_iterations", .int 0), (c!"mntpoint", .list [c!"/x"])]

theorem obeys_logvolLines4_6_base (n : Str) : Command.FirstBase (RHEL8_LogVol.cls RHEL8_LogVolData.cls) n [c!"/x", c!"--name=n", c!"--vgname=g", c!"--size=1", c!"--poolname=p"] obeys_logvolLines4_6_object := by
  intro b b' hb hb' line l; rcases hb with rfl | rfl <;> rcases hb' with rfl | rfl <;> kernel_rfl

theorem obeys_logvolLines4_6_start : Command.FirstStart (RHEL8_LogVol.cls RHEL8_LogVolData.cls) obeys_logvolLines4_6_object (logvolLines4.start.getD 0 ([], [])).2 := fun _ => .inl ⟨fun _ => rfl, (all_cons (by kernel_rfl) (all_cons (by kernel_rfl) (all_cons (by kernel_rfl) (all_cons (by kernel_rfl) (all_cons (by kernel_rfl) (all_cons (by kernel_rfl) (all_cons (by kernel_rfl) (List.forall_mem_nil _))))))))⟩

theorem obeys_logvolLines4_6_lines (n : Str) : ∀ i ∈ [], Command.FirstLine (RHEL8_LogVol.cls RHEL8_LogVolData.cls) n [c!"/x", c!"--name=n", c!"--vgname=g", c!"--size=1", c!"--poolname=p"] obeys_logvolLines4_6_object (logvolLines4.lines.getD i noLine) :=
  (List.forall_mem_nil _)

theorem obeys_logvolLines4_6 : ∀ v, [Version.RHEL8].contains v = true → Command.Obeys (RHEL8_LogVol.cls RHEL8_LogVolData.cls) logvolLines4 v :=
  obeys_of obeys_logvolLines4_6_object [0] [] (obeys_logvolLines4_6_base _) (all_cons obeys_logvolLines4_6_start (List.forall_mem_nil _)) (obeys_logvolLines4_6_lines _) (by decide +kernel)

theorem obeys_logvolLines4 : logvolLines4.Obeyed := by
  unfold CommandLines.Obeyed commandMaps
  exact (all_cons (fun hv => absurd hv (by decide))
    (all_cons (fun hv => absurd hv (by decide))
    (all_cons (fun hv => absurd hv (by decide))
    (all_cons (fun hv => absurd hv (by decide))
    (all_cons (fun hv => absurd hv (by decide))
    (all_cons (fun hv => absurd hv (by decide))
    (all_cons (fun hv => absurd hv (by decide))
    (all_cons (fun hv => absurd hv (by decide))
    (all_cons (fun hv => absurd hv (by decide))
    (all_cons (fun hv => absurd hv (by decide))
    (all_cons (fun _ c h => by cases h; exact obeys_logvolLines4_0 _ rfl)
    (all_cons (fun _ c h => by cases h; exact obeys_logvolLines4_1 _ rfl)
    (all_cons (fun _ c h => by cases h; exact obeys_logvolLines4_1 _ rfl)
    (all_cons (fun _ c h => by cases h; exact obeys_logvolLines4_2 _ rfl)
    (all_cons (fun _ c h => by cases h; exact obeys_logvolLines4_2 _ rfl)
    (all_cons (fun _ c h => by cases h; exact obeys_logvolLines4_2 _ rfl)
    (all_cons (fun _ c h => by cases h; exact obeys_logvolLines4_2 _ rfl)
    (all_cons (fun _ c h => by cases h; exact obeys_logvolLines4_2 _ rfl)
    (all_cons (fun _ c h => by cases h; exact obeys_logvolLines4_2 _ rfl)
    (all_cons (fun _ c h => by cases h; exact obeys_logvolLines4_3 _ rfl)
    (all_cons (fun _ c h => by cases h; exact obeys_logvolLines4_3 _ rfl)
    (all_cons (fun _ c h => by cases h; exact obeys_logvolLines4_3 _ rfl)
    (all_cons (fun _ c h => by cases h; exact obeys_logvolLines4_3 _ rfl)
    (all_cons (fun _ c h => by cases h; exact obeys_logvolLines4_3 _ rfl)
    (all_cons (fun _ c h => by cases h; exact obeys_logvolLines4_3 _ rfl)
    (all_cons (fun hv => absurd hv (by decide))
    (all_cons (fun hv => absurd hv (by decide))
    (all_cons (fun hv => absurd hv (by decide))
    (all_cons (fun hv => absurd hv (by decide))
    (all_cons (fun hv => absurd hv (by decide))
    (all_cons (fun hv => absurd hv (by decide))
    (all_cons (fun hv => absurd hv (by decide))
    (all_cons (fun hv => absurd hv (by decide))
    (all_cons (fun hv => absurd hv (by decide))
    (all_cons (fun hv => absurd hv (by decide))
    (all_cons (fun _ c h => by cases h; exact obeys_logvolLines4_4 _ rfl)
    (all_cons (fun _ c h => by cases h; exact obeys_logvolLines4_5 _ rfl)
    (all_cons (fun _ c h => by cases h; exact obeys_logvolLines4_6 _ rfl) (List.forall_mem_nil _)))))))))))))))))))))))))))))))))))))))

def obeys_logvolLines5_0_object (l : Nat) : Ns := [(c!"lineno", .int l), (c!"fstype", .str c!""), (c!"grow", .bool false), (c!"maxSizeMB", .int 0), (c!"name", .str c!"n"), (c!"format", .bool true), (c!"percent", .int 0), (c!"recommended", .bool false), (c!"size", .int 1), (c!"preexist", .bool false), (c!"vgname", .str c!"g"), (c!"mountpoint", .str c!"none"), (c!"fsopts", .str c!""), (c!"fsprofile", .str c!""), (c!"encrypted", .bool false), (c!"passphrase", .str c!""), (c!"escrowcert", .str c!""), (c!"backuppassphrase", .bool false), (c!"label", .str c!""), (c!"resize", .bool false), (c!"hibernation", .bool false), (c!"cipher", .str c!""), (c!"thin_pool", .bool true), (c!"thin_volume", .bool false), (c!"pool_name", .str c!""), (c!"chunk_size", .none), (c!"metadata_size", .none), (c!"mntpoint", .list [c!"none"])]

theorem obeys_logvolLines5_0_base (n : Str) : Command.FirstBase (F20_LogVol.cls F20_LogVolData.cls) n [c!"none", c!"--name=n", c!"--vgname=g", c!"--size=1", c!"--thinpool"] obeys_logvolLines5_0_object := by
  intro b b' hb hb' line l; rcases hb with rfl | rfl <;> rcases hb' with rfl | rfl <;> kernel_rfl

theorem obeys_logvolLines5_0_start : Command.FirstStart (F20_LogVol.cls F20_LogVolData.cls) obeys_logvolLines5_0_object (logvolLines5.start.getD 0 ([], [])).2 := fun _ => .inl ⟨fun _ => rfl, (all_cons (by kernel_rfl) (all_cons (by kernel_rfl) (all_cons (by kernel_rfl) (all_cons (by kernel_rfl) (all_cons (by kernel_rfl) (all_cons (by kernel_rfl) (all_cons (by kernel_rfl) (List.forall_mem_nil _))))))))⟩

theorem obeys_logvolLines5_0_lines (n : Str) : ∀ i ∈ [2], Command.FirstLine (F20_LogVol.cls F20_LogVolData.cls) n [c!"none", c!"--name=n", c!"--vgname=g", c!"--size=1", c!"--thinpool"] obeys_logvolLines5_0_object (logvolLines5.lines.getD i noLine) :=
  (all_cons (by intro b b' hb hb' x hx line l; (cases x with | nil => exact absurd rfl hx | cons a x => rcases hb with rfl | rfl <;> rcases hb' with rfl | rfl <;> kernel_rfl))
    (List.forall_mem_nil _))

theorem obeys_logvolLines5_0 : ∀ v, [Version.F20].contains v = true → Command.Obeys (F20_LogVol.cls F20_LogVolData.cls) logvolLines5 v :=
  obeys_of obeys_logvolLines5_0_object [0] [2] (obeys_logvolLines5_0_base _) (all_cons obeys_logvolLines5_0_start (List.forall_mem_nil _)) (obeys_logvolLines5_0_lines _) (by decide +kernel)

def obeys_logvolLines5_1_object (l : Nat) : Ns := [(c!"lineno", .int l), (c!"fstype", .str c!""), (c!"grow", .bool false), (c!"maxSizeMB", .int 0), (c!"name", .str c!"n"), (c!"format", .bool true), (c!"percent", .int 0), (c!"recommended", .bool false), (c!"size", .int 1), (c!"preexist", .bool false), (c!"vgname", .str c!"g"), (c!"mountpoint", .str c!"none"), (c!"fsopts", .str c!""), (c!"fsprofile", .str c!""), (c!"encrypted", .bool false), (c!"passphrase", .str c!""), (c!"escrowcert", .str c!""), (c!"backuppassphrase", .bool false), (c!"label", .str c!""), (c!"resize", .bool false), (c!"hibernation", .bool false), (c!"cipher", .str c!""), (c!"thin_pool", .bool true), (c!"thin_volume", .bool false), (c!"pool_name", .str c!""), (c!"chunk_size", .none), (c!"metadata_size", .none), (c!"profile", .str c!""), (c!"mntpoint", .list [c!"none"])]

theorem obeys_logvolLines5_1_base (n : Str) : Command.FirstBase (F21_LogVol.cls F21_LogVolData.cls) n [c!"none", c!"--name=n", c!"--vgname=g", c!"--size=1", c!"--thinpool"] obeys_logvolLines5_1_object := by
  intro b b' hb hb' line l; rcases hb with rfl | rfl <;> rcases hb' with rfl | rfl <;> kernel_rfl

theorem obeys_logvolLines5_1_start : Command.FirstStart (F21_LogVol.cls F21_LogVolData.cls) obeys_logvolLines5_1_object (logvolLines5.start.getD 0 ([], [])).2 := fun _ => .inl ⟨fun _ => rfl, (all_cons (by kernel_rfl) (all_cons (by kernel_rfl) (all_cons (by kernel_rfl) (all_cons (by kernel_rfl) (all_cons (by kernel_rfl) (all_cons (by kernel_rfl) (all_cons (by kernel_rfl) (List.forall_mem_nil _))))))))⟩

theorem obeys_logvolLines5_1_lines (n : Str) : ∀ i ∈ [3], Command.FirstLine (F21_LogVol.cls F21_LogVolData.cls) n [c!"none", c!"--name=n", c!"--vgname=g", c!"--size=1", c!"--thinpool"] obeys_logvolLines5_1_object (logvolLines5.lines.getD i noLine) :=
  (all_cons (by intro b b' hb hb' x hx line l; (cases x with | nil => exact absurd rfl hx | cons a x => rcases hb with rfl | rfl <;> rcases hb' with rfl | rfl <;> kernel_rfl))
    (List.forall_mem_nil _))

theorem obeys_logvolLines5_1 : ∀ v, [Version.F21, Version.F22].contains v = true → Command.Obeys (F21_LogVol.cls F21_LogVolData.cls) logvolLines5 v :=
  obeys_of obeys_logvolLines5_1_object [0] [3] (obeys_logvolLines5_1_base _) (all_cons obeys_logvolLines5_1_start (List.forall_mem_nil _)) (obeys_logvolLines5_1_lines _) (by decide +kernel)

def obeys_logvolLines5_2_object (l : Nat) : Ns := [(c!"lineno", .int l), (c!"fstype", .str c!""), (c!"grow", .bool false), (c!"maxSizeMB", .int 0), (c!"name", .str c!"n"), (c!"format", .bool true), (c!"percent", .int 0), (c!"recommended", .bool false), (c!"size", .int 1), (c!"preexist", .bool false), (c!"vgname", .str c!"g"), (c!"mountpoint", .str c!"none"), (c!"fsopts", .str c!""), (c!"fsprofile", .str c!""), (c!"encrypted", .bool false), (c!"passphrase", .str c!""), (c!"escrowcert", .str c!""), (c!"backuppassphrase", .bool false), (c!"label", .str c!""), (c!"resize", .bool false), (c!"hibernation", .bool false), (c!"cipher", .str c!""), (c!"thin_pool", .bool true), (c!"thin_volume", .bool false), (c!"pool_name", .str c!""), (c!"chunk_size", .none), (c!"metadata_size", .none), (c!"profile", .str c!""), (c!"cache_size", .int 0), (c!"cache_mode", .str c!""), (c!"cache_pvs", .list []), (c!"mkfsopts", .str c!""), (c!"mntpoint", .list [c!"none"])]

theorem obeys_logvolLines5_2_base (n : Str) : Command.FirstBase (F23_LogVol.cls F23_LogVolData.cls) n [c!"none", c!"--name=n", c!"--vgname=g", c!"--size=1", c!"--thinpool"] obeys_logvolLines5_2_object := by
  intro b b' hb hb' line l; rcases hb with rfl | rfl <;> rcases hb' with rfl | rfl <;> kernel_rfl

theorem obeys_logvolLines5_2_start : Command.FirstStart (F23_LogVol.cls F23_LogVolData.cls) obeys_logvolLines5_2_object (logvolLines5.start.getD 0 ([], [])).2 := fun _ => .inl ⟨fun _ => rfl, (all_cons (by kernel_rfl) (all_cons (by kernel_rfl) (all_cons (by kernel_rfl) (all_cons (by kernel_rfl) (all_cons (by kernel_rfl) (all_cons (by kernel_rfl) (all_cons (by kernel_rfl) (List.forall_mem_nil _))))))))⟩

theorem obeys_logvolLines5_2_lines (n : Str) : ∀ i ∈ [], Command.FirstLine (F23_LogVol.cls F23_LogVolData.cls) n [c!"none", c!"--name=n", c!"--vgname=g", c!"--size=1", c!"--thinpool"] obeys_logvolLines5_2_object (logvolLines5.lines.getD i noLine) :=
  (List.forall_mem_nil _)

theorem obeys_logvolLines5_2 : ∀ v, [Version.F23, Version.F24, Version.F25, Version.F26, Version.F27, Version.F28].contains v = true → Command.Obeys (F23_LogVol.cls F23_LogVolData.cls) logvolLines5 v :=
  obeys_of obeys_logvolLines5_2_object [0] [] (obeys_logvolLines5_2_base _) (all_cons obeys_logvolLines5_2_start (List.forall_mem_nil _)) (obeys_logvolLines5_2_lines _) (by decide +kernel)

def obeys_logvolLines5_3_object (l : Nat) : Ns := [(c!"lineno", .int l), (c!"fstype", .str c!""), (c!"grow", .bool false), (c!"maxSizeMB", .int 0), (c!"name", .str c!"n"), (c!"format", .bool true), (c!"percent", .int 0), (c!"recommended", .bool false), (c!"size", .int 1), (c!"preexist", .bool false), (c!"vgname", .str c!"g"), (c!"mountpoint", .str c!"none"), (c!"fsopts", .str c!""), (c!"fsprofile", .str c!""), (c!"encrypted", .bool false), (c!"passphrase", .str c!""), (c!"escrowcert", .str c!""), (c!"backuppassphrase", .bool false), (c!"label", .str c!""), (c!"resize", .bool false), (c!"hibernation", .bool false), (c!"cipher", .str c!""), (c!"thin_pool", .bool true), (c!"thin_volume", .bool false), (c!"pool_name", .str c!""), (c!"chunk_size", .none), (c!"metadata_size", .none), (c!"profile", .str c!""), (c!"cache_size", .int 0), (c!"cache_mode", .str c!""), (c!"cache_pvs", .list []), (c!"mkfsopts", .str c!""), (c!"luks_version", .str c!""), (c!"pbkdf", .str c!""), (c!"pbkdf_memory", .int 0), (c!"pbkdf_time", .int 0), (c!"pbkdf_iterations", .int 0), (c!"mntpoint", .list [c!"none"])]

theorem obeys_logvolLines5_3_base (n : Str) : Command.FirstBase (F29_LogVol.cls F29_LogVolData.cls) n [c!"none", c!"--name=n", c!"--vgname=g", c!"--size=1", c!"--thinpool"] obeys_logvolLines5_3_object := by
  intro b b' hb hb' line l; rcases hb with rfl | rfl <;> rcases hb' with rfl | rfl <;> kernel_rfl

theorem obeys_logvolLines5_3_start : Command.FirstStart (F29_LogVol.cls F29_LogVolData.cls) obeys_logvolLines5_3_object (logvolLines5.start.getD 0 ([], [])).2 := fun _ => .inl ⟨fun _ => rfl, (all_cons (by kernel_rfl) (all_cons (by kernel_rfl) (all_cons (by kernel_rfl) (all_cons (by kernel_rfl) (all_cons (by kernel_rfl) (all_cons (by kernel_rfl) (all_cons (by kernel_rfl) (List.forall_mem_nil _))))))))⟩

theorem obeys_logvolLines5_3_lines (n : Str) : ∀ i ∈ [0, 1, 3, 4], Command.FirstLine (F29_LogVol.cls F29_LogVolData.cls) n [c!"none", c!"--name=n", c!"--vgname=g", c!"--size=1", c!"--thinpool"] obeys_logvolLines5_3_object (logvolLines5.lines.getD i noLine) :=
  (all_cons (by intro b b' hb hb' x hx line l; rcases hb with rfl | rfl <;> rcases hb' with rfl | rfl <;> kernel_rfl)
    (all_cons (by intro b b' hb hb' x hx line l; rcases hb with rfl | rfl <;> rcases hb' with rfl | rfl <;> kernel_rfl)
    (all_cons (by intro b b' hb hb' x hx line l; (cases x with | nil => exact absurd rfl hx | cons a x => rcases hb with rfl | rfl <;> rcases hb' with rfl | rfl <;> kernel_rfl))
    (all_cons (by intro b b' hb hb' x hx line l; rcases hb with rfl | rfl <;> rcases hb' with rfl | rfl <;> kernel_rfl)
    (List.forall_mem_nil _)))))

theorem obeys_logvolLines5_3 : ∀ v, [Version.F29, Version.F30, Version.F31, Version.F32, Version.F33, Version.F34].contains v = true → Command.Obeys (F29_LogVol.cls F29_LogVolData.cls) logvolLines5 v :=
  obeys_of obeys_logvolLines5_3_object [0] [0, 1, 3, 4] (obeys_logvolLines5_3_base _) (all_cons obeys_logvolLines5_3_start (List.forall_mem_nil _)) (obeys_logvolLines5_3_lines _) (by decide +kernel)

def obeys_logvolLines5_4_object (l : Nat) : Ns := [(c!"lineno", .int l), (c!"fstype", .str c!""), (c!"grow", .bool false), (c!"maxSizeMB", .int 0), (c!"name", .str c!"n"), (c!"format", .bool true), (c!"percent", .int 0), (c!"recommended", .bool false), (c!"size", .int 1), (c!"preexist", .bool false), (c!"vgname", .str c!"g"), (c!"mountpoint", .str c!"none"), (c!"fsopts", .str c!""), (c!"fsprofile", .str c!""), (c!"encrypted", .bool false), (c!"passphrase", .str c!""), (c!"escrowcert", .str c!""), (c!"backuppassphrase", .bool false), (c!"cipher", .str c!""), (c!"hibernation", .bool false), (c!"thin_pool", .bool true), (c!"thin_volume", .bool false), (c!"pool_name", .str c!""), (c!"chunk_size", .none), (c!"metadata_size", .none), (c!"profile", .str c!""), (c!"mntpoint", .list [c!"none"])]

theorem obeys_logvolLines5_4_base (n : Str) : Command.FirstBase (RHEL6_LogVol.cls RHEL6_LogVolData.cls) n [c!"none", c!"--name=n", c!"--vgname=g", c!"--size=1", c!"--thinpool"] obeys_logvolLines5_4_object := by
  intro b b' hb hb' line l; kernel_rfl

theorem obeys_logvolLines5_4_start : Command.FirstStart (RHEL6_LogVol.cls RHEL6_LogVolData.cls) obeys_logvolLines5_4_object (logvolLines5.start.getD 0 ([], [])).2 := fun _ => .inl ⟨fun _ => rfl, (all_cons (by kernel_rfl) (all_cons (by kernel_rfl) (all_cons (by kernel_rfl) (all_cons (by kernel_rfl) (all_cons (by kernel_rfl) (all_cons (by kernel_rfl) (all_cons (by kernel_rfl) (List.forall_mem_nil _))))))))⟩

theorem obeys_logvolLines5_4_lines (n : Str) : ∀ i ∈ [0, 1, 3, 4], Command.FirstLine (RHEL6_LogVol.cls RHEL6_LogVolData.cls) n [c!"none", c!"--name=n", c!"--vgname=g", c!"--size=1", c!"--thinpool"] obeys_logvolLines5_4_object (logvolLines5.lines.getD i noLine) :=
  (all_cons (by intro b b' hb hb' x hx line l; kernel_rfl)
    (all_cons (by intro b b' hb hb' x hx line l; kernel_rfl)
    (all_cons (by intro b b' hb hb' x hx line l; (cases x with | nil => exact absurd rfl hx | cons a x => kernel_rfl))
    (all_cons (by intro b b' hb hb' x hx line l; kernel_rfl)
    (List.forall_mem_nil _)))))

theorem obeys_logvolLines5_4 : ∀ v, [Version.RHEL6].contains v = true → Command.Obeys (RHEL6_LogVol.cls RHEL6_LogVolData.cls) logvolLines5 v :=
  obeys_of obeys_logvolLines5_4_object [0] [0, 1, 3, 4] (obeys_logvolLines5_4_base _) (all_cons obeys_logvolLines5_4_start (List.forall_mem_nil _)) (obeys_logvolLines5_4_lines _) (by decide +kernel)

def obeys_logvolLines5_5_object (l : Nat) : Ns := [(c!"lineno", .int l), (c!"fstype", .str c!""), (c!"grow", .bool false), (c!"maxSizeMB", .int 0), (c!"name", .str c!"n"), (c!"format", .bool true), (c!"percent", .int 0), (c!"recommended", .bool false), (c!"size", .int 1), (c!"preexist", .bool false), (c!"vgname", .str c!"g"), (c!"mountpoint", .str c!"none"), (c!"fsopts", .str c!""), (c!"fsprofile", .str c!""), (c!"encrypted", .bool false), (c!"passphrase", .str c!""), (c!"escrowcert", .str c!""), (c!"backuppassphrase", .bool false), (c!"label", .str c!""), (c!"resize", .bool false), (c!"hibernation", .bool false), (c!"cipher", .str c!""), (c!"thin_pool", .bool true), (c!"thin_volume", .bool false), (c!"pool_name", .str c!""), (c!"chunk_size", .none), (c!"metadata_size", .none), (c!"profile", .str c!""), (c!"mkfsopts", .str c!""), (c!"mntpoint", .list [c!"none"])]

theorem obeys_logvolLines5_5_base (n : Str) : Command.FirstBase (RHEL7_LogVol.cls RHEL7_LogVolData.cls) n [c!"none", c!"--name=n", c!"--vgname=g", c!"--size=1", c!"--thinpool"] obeys_logvolLines5_5_object := by
  intro b b' hb hb' line l; rcases hb with rfl | rfl <;> rcases hb' with rfl | rfl <;> kernel_rfl

theorem obeys_logvolLines5_5_start : Command.FirstStart (RHEL7_LogVol.cls RHEL7_LogVolData.cls) obeys_logvolLines5_5_object (logvolLines5.start.getD 0 ([], [])).2 := fun _ => .inl ⟨fun _ => rfl, (all_cons (by kernel_rfl) (all_cons (by kernel_rfl) (all_cons (by kernel_rfl) (all_cons (by kernel_rfl) (all_cons (by kernel_rfl) (all_cons (by kernel_rfl) (all_cons (by kernel_rfl) (List.forall_mem_nil _))))))))⟩

theorem obeys_logvolLines5_5_lines (n : Str) : ∀ i ∈ [], Command.FirstLine (RHEL7_LogVol.cls RHEL7_LogVolData.cls) n [c!"none", c!"--name=n", c!"--vgname=g", c!"--size=1", c!"--thinpool"] obeys_logvolLines5_5_object (logvolLines5.lines.getD i noLine) :=
  (List.forall_mem_nil _)

theorem obeys_logvolLines5_5 : ∀ v, [Version.RHEL7].contains v = true → Command.Obeys (RHEL7_LogVol.cls RHEL7_LogVolData.cls) logvolLines5 v :=
  obeys_of obeys_logvolLines5_5_object [0] [] (obeys_logvolLines5_5_base _) (all_cons obeys_logvolLines5_5_start (List.forall_mem_nil _)) (obeys_logvolLines5_5_lines _) (by decide +kernel)

def obeys_logvolLines5_6_object (l : Nat) : Ns := [(c!"lineno", .int l), (c!"fstype", .str c!""), (c!"grow", .bool false), (c!"maxSizeMB", .int 0), (c!"name", .str c!"n"), (c!"format", .bool true), (c!"percent", .int 0), (c!"recommended", .bool false), (c!"size", .int 1), (c!"preexist", .bool false), (c!"vgname", .str c!"g"), (c!"mountpoint", .str c!"none"), (c!"fsopts", .str c!""), (c!"fsprofile", .str c!""), (c!"encrypted", .bool false), (c!"passphrase", .str c!""), (c!"escrowcert", .str c!""), (c!"backuppassphrase", .bool false), (c!"label", .str c!""), (c!"resize", .bool false), (c!"hibernation", .bool false), (c!"cipher", .str c!""), (c!"thin_pool", .bool true), (c!"thin_volume", .bool false), (c!"pool_name", .str c!""), (c!"chunk_size", .none), (c!"metadata_size", .none), (c!"profile", .str c!""), (c!"cache_size", .int 0), (c!"cache_mode", .str c!""), (c!"cache_pvs", .list []), (c!"mkfsopts", .str c!""), (c!"luks_version", .str c!""), (c!"pbkdf", .str c!""), (c!"pbkdf_memory", .int 0), (c!"pbkdf_time", .int 0), (c!"pbkdf_iterations", .int 0), (c!"mntpoint", .list [c!"none"])]

theorem obeys_logvolLines5_6_base (n : Str) : Command.FirstBase (RHEL8_LogVol.cls RHEL8_LogVolData.cls) n [c!"none", c!"--name=n", c!"--vgname=g", c!"--size=1", c!"--thinpool"] obeys_logvolLines5_6_object := by
  intro b b' hb hb' line l; rcases hb with rfl | rfl <;> rcases hb' with rfl | rfl <;> kernel_rfl

theorem obeys_logvolLines5_6_start : Command.FirstStart (RHEL8_LogVol.cls RHEL8_LogVolData.cls) obeys_logvolLines5_6_object (logvolLines5.start.getD 0 ([], [])).2 := fun _ => .inl ⟨fun _ => rfl, (all_cons (by kernel_rfl) (all_cons (by kernel_rfl) (all_cons (by kernel_rfl) (all_cons (by kernel_rfl) (all_cons (by kernel_rfl) (all_cons (by kernel_rfl) (all_cons (by kernel_rfl) (List.forall_mem_nil _))))))))⟩

theorem obeys_logvolLines5_6_lines (n : Str) : ∀ i ∈ [], Command.FirstLine (RHEL8_LogVol.cls RHEL8_LogVolData.cls) n [c!"none", c!"--name=n", c!"--vgname=g", c!"--size=1", c!"--thinpool"] obeys_logvolLines5_6_object (logvolLines5.lines.getD i noLine) :=
  (List.forall_mem_nil _)

theorem obeys_logvolLines5_6 : ∀ v, [Version.RHEL8].contains v = true → Command.Obeys (RHEL8_LogVol.cls RHEL8_LogVolData.cls) logvolLines5 v :=
  obeys_of obeys_logvolLines5_6_object [0] [] (obeys_logvolLines5_6_base _) (all_cons obeys_logvolLines5_6_start (List.forall_mem_nil _)) (obeys_logvolLines5_6_lines _) (by decide +kernel)

theorem obeys_logvolLines5 : logvolLines5.Obeyed := by
  unfold CommandLines.Obeyed commandMaps
  exact (all_cons (fun hv => absurd hv (by decide))
    (all_cons (fun hv => absurd hv (by decide))
    (all_cons (fun hv => absurd hv (by decide))
    (all_cons (fun hv => absurd hv (by decide))
    (all_cons (fun hv => absurd hv (by decide))
    (all_cons (fun hv => absurd hv (by decide))
    (all_cons (fun hv => absurd hv (by decide))
    (all_cons (fun hv => absurd hv (by decide))
    (all_cons (fun hv => absurd hv (by decide))
    (all_cons (fun hv => absurd hv (by decide))
    (all_cons (fun _ c h => by cases h; exact obeys_logvolLines5_0 _ rfl)
    (all_cons (fun _ c h => by cases h; exact obeys_logvolLines5_1 _ rfl)
    (all_cons (fun _ c h => by cases h; exact obeys_logvolLines5_1 _ rfl)
    (all_cons (fun _ c h => by cases h; exact obeys_logvolLines5_2 _ rfl)
    (all_cons (fun _ c h => by cases h; exact obeys_logvolLines5_2 _ rfl)
    (all_cons (fun _ c h => by cases h; exact obeys_logvolLines5_2 _ rfl)
    (all_cons (fun _ c h => by cases h; exact obeys_logvolLines5_2 _ rfl)
    (all_cons (fun _ c h => by cases h; exact obeys_logvolLines5_2 _ rfl)
    (all_cons (fun _ c h => by cases h; exact obeys_logvolLines5_2 _ rfl)
    (all_cons (fun _ c h => by cases h; exact obeys_logvolLines5_3 _ rfl)
    (all_cons (fun _ c h => by cases h; exact obeys_logvolLines5_3 _ rfl)
    (all_cons (fun _ c h => by cases h; exact obeys_logvolLines5_3 _ rfl)
    (all_cons (fun _ c h => by cases h; exact obeys_logvolLines5_3 _ rfl)
    (all_cons (fun _ c h => by cases h; exact obeys_logvolLines5_3 _ rfl)
    (all_cons (fun _ c h => by cases h; exact obeys_logvolLines5_3 _ rfl)
    (all_cons (fun hv => absurd hv (by decide))
    (all_cons (fun hv => absurd hv (by decide))
    (all_cons (fun hv => absurd hv (by decide))
    (all_cons (fun hv => absurd hv (by decide))
    (all_cons (fun hv => absurd hv (by decide))
    (all_cons (fun hv => absurd hv (by decide))
    (all_cons (fun hv => absurd hv (by decide))
    (all_cons (fun hv => absurd hv (by decide))
    (all_cons (fun hv => absurd hv (by decide))
    (all_cons (fun hv => absurd hv (by decide))
    (all_cons (fun _ c h => by cases h; exact obeys_logvolLines5_4 _ rfl)
    (all_cons (fun _ c h => by cases h; exact obeys_logvolLines5_5 _ rfl)
    (all_cons (fun _ c h => by cases h; exact obeys_logvolLines5_6 _ rfl) (List.forall_mem_nil _)))))))))))))))))))))))))))))))))))))))

def obeys_logvolLines6_0_object (l : Nat) : Ns := [(c!"lineno", .int l), (c!"fstype", .str c!""), (c!"grow", .bool false), (c!"maxSizeMB", .int 0), (c!"name", .str c!"n"), (c!"format", .bool true), (c!"percent", .int 0), (c!"recommended", .bool false), (c!"size", .int 1), (c!"preexist", .bool false), (c!"vgname", .str c!"g"), (c!"mountpoint", .str c!"/x"), (c!"fsopts", .str c!""), (c!"fsprofile", .str c!""), (c!"encrypted", .bool false), (c!"passphrase", .str c!""), (c!"escrowcert", .str c!""), (c!"backuppassphrase", .bool false), (c!"label", .str c!""), (c!"resize", .bool false), (c!"hibernation", .bool false), (c!"cipher", .str c!""), (c!"thin_pool", .bool false), (c!"thin_volume", .bool false), (c!"pool_name", .str c!""), (c!"chunk_size", .none), (c!"metadata_size", .none), (c!"profile", .str c!""), (c!"cache_size", .int 5), (c!"cache_mode", .str c!""), (c!"cache_pvs", .list [c!"a"]), (c!"mkfsopts", .str c!""), (c!"mntpoint", .list [c!"/x"])]

theorem obeys_logvolLines6_0_base (n : Str) : Command.FirstBase (F23_LogVol.cls F23_LogVolData.cls) n [c!"/x", c!"--name=n", c!"--vgname=g", c!"--size=1", c!"--cachepvs=a", c!"--cachesize=5"] obeys_logvolLines6_0_object := by
  intro b b' hb hb' line l; rcases hb with rfl | rfl <;> rcases hb' with rfl | rfl <;> kernel_rfl

theorem obeys_logvolLines6_0_start : Command.FirstStart (F23_LogVol.cls F23_LogVolData.cls) obeys_logvolLines6_0_object (logvolLines6.start.getD 0 ([], [])).2 := fun _ => .inl ⟨fun _ => rfl, (all_cons (by kernel_rfl) (all_cons (by kernel_rfl) (all_cons (by kernel_rfl) (all_cons (by kernel_rfl) (all_cons (by kernel_rfl) (all_cons (by kernel_rfl) (all_cons (by kernel_rfl) (all_cons (by kernel_rfl) (List.forall_mem_nil _)))))))))⟩

theorem obeys_logvolLines6_0_lines (n : Str) : ∀ i ∈ [0, 1], Command.FirstLine (F23_LogVol.cls F23_LogVolData.cls) n [c!"/x", c!"--name=n", c!"--vgname=g", c!"--size=1", c!"--cachepvs=a", c!"--cachesize=5"] obeys_logvolLines6_0_object (logvolLines6.lines.getD i noLine) :=
  (all_cons (by intro b b' hb hb' x hx line l; rcases hb with rfl | rfl <;> rcases hb' with rfl | rfl <;> kernel_rfl)
    (all_cons (by intro b b' hb hb' x hx line l; rcases hb with rfl | rfl <;> rcases hb' with rfl | rfl <;> kernel_rfl)
    (List.forall_mem_nil _)))

theorem obeys_logvolLines6_0 : ∀ v, [Version.F23, Version.F24, Version.F25, Version.F26, Version.F27, Version.F28].contains v = true → Command.Obeys (F23_LogVol.cls F23_LogVolData.cls) logvolLines6 v :=
  obeys_of obeys_logvolLines6_0_object [0] [0, 1] (obeys_logvolLines6_0_base _) (all_cons obeys_logvolLines6_0_start (List.forall_mem_nil _)) (obeys_logvolLines6_0_lines _) (by decide +kernel)

def obeys_logvolLines6_1_object (l : Nat) : Ns := [(c!"lineno", .int l), (c!"fstype", .str c!""), (c!"grow", .bool false), (c!"maxSizeMB", .int 0), (c!"name", .str c!"n"), (c!"format", .bool true), (c!"percent", .int 0), (c!"recommended", .bool false), (c!"size", .int 1), (c!"preexist", .bool false), (c!"vgname", .str c!"g"), (c!"mountpoint", .str c!"/x"), (c!"fsopts", .str c!""), (c!"fsprofile", .str c!""), (c!"encrypted", .bool false), (c!"passphrase", .str c!""), (c!"escrowcert", .str c!""), (c!"backuppassphrase", .bool false), (c!"label", .str c!""), (c!"resize", .bool false), (c!"hibernation", .bool false), (c!"cipher", .str c!""), (c!"thin_pool", .bool false), (c!"thin_volume", .bool false), (c!"pool_name", .str c!""), (c!"chunk_size", .none), (c!"metadata_size", .none), (c!"profile", .str c!""), (c!"cache_size", .int 5), (c!"cache_mode", .str c!""), (c!"cache_pvs", .list [c!"a"]), (c!"mkfsopts", .str c!""), (c!"luks_version", .str c!""), (c!"pbkdf", .str c!""), (c!"pbkdf_memory", .int 0), (c!"pbkdf_time", .int 0), (c!"pbkdf_iterations", .int 0), (c!"mntpoint", .list [c!"/x"])]

theorem obeys_logvolLines6_1_base (n : Str) : Command.FirstBase (F29_LogVol.cls F29_LogVolData.cls) n [c!"/x", c!"--name=n", c!"--vgname=g", c!"--size=1", c!"--cachepvs=a", c!"--cachesize=5"] obeys_logvolLines6_1_object := by
  intro b b' hb hb' line l; rcases hb with rfl | rfl <;> rcases hb' with rfl | rfl <;> kernel_rfl

theorem obeys_logvolLines6_1_start : Command.FirstStart (F29_LogVol.cls F29_LogVolData.cls) obeys_logvolLines6_1_object (logvolLines6.start.getD 0 ([], [])).2 := fun _ => .inl ⟨fun _ => rfl, (all_cons (by kernel_rfl) (all_cons (by kernel_rfl) (all_cons (by kernel_rfl) (all_cons (by kernel_rfl) (all_cons (by kernel_rfl) (all_cons (by kernel_rfl) (all_cons (by kernel_rfl) (all_cons (by kernel_rfl) (List.forall_mem_nil _)))))))))⟩

theorem obeys_logvolLines6_1_lines (n : Str) : ∀ i ∈ [0, 1], Command.FirstLine (F29_LogVol.cls F29_LogVolData.cls) n [c!"/x", c!"--name=n", c!"--vgname=g", c!"--size=1", c!"--cachepvs=a", c!"--cachesize=5"] obeys_logvolLines6_1_object (logvolLines6.lines.getD i noLine) :=
  (all_cons (by intro b b' hb hb' x hx line l; rcases hb with rfl | rfl <;> rcases hb' with rfl | rfl <;> kernel_rfl)
    (all_cons (by intro b b' hb hb' x hx line l; rcases hb with rfl | rfl <;> rcases hb' with rfl | rfl <;> kernel_rfl)
    (List.forall_mem_nil _)))

theorem obeys_logvolLines6_1 : ∀ v, [Version.F29, Version.F30, Version.F31, Version.F32, Version.F33, Version.F34].contains v = true → Command.Obeys (F29_LogVol.cls F29_LogVolData.cls) logvolLines6 v :=
  obeys_of obeys_logvolLines6_1_object [0] [0, 1] (obeys_logvolLines6_1_base _) (all_cons obeys_logvolLines6_1_start (List.forall_mem_nil _)) (obeys_logvolLines6_1_lines _) (by decide +kernel)

def obeys_logvolLines6_2_object (l : Nat) : Ns := [(c!"lineno", .int l), (c!"fstype", .str c!""), (c!"grow", .bool false), (c!"maxSizeMB", .int 0), (c!"name", .str c!"n"), (c!"format", .bool true), (c!"percent", .int 0), (c!"recommended", .bool false), (c!"size", .int 1), (c!"preexist", .bool false), (c!"vgname", .str c!"g"), (c!"mountpoint", .str c!"/x"), (c!"fsopts", .str c!""), (c!"fsprofile", .str c!""), (c!"encrypted", .bool false), (c!"passphrase", .str c!""), (c!"escrowcert", .str c!""), (c!"backuppassphrase", .bool false), (c!"label", .str c!""), (c!"resize", .bool false), (c!"hibernation", .bool false), (c!"cipher", .str c!""), (c!"thin_pool", .bool false), (c!"thin_volume", .bool false), (c!"pool_name", .str c!""), (c!"chunk_size", .none), (c!"metadata_size", .none), (c!"profile", .str c!""), (c!"cache_size", .int 5), (c!"cache_mode", .str c!""), (c!"cache_pvs", .list [c!"a"]), (c!"mkfsopts", .str c!""), (c!"luks_version", .str c!""), (c!"pbkdf", .str c!""), (c!"pbkdf_memory", .int 0), (c!"pbkdf_time", .int 0), (c!"pbkdf_iterations", .int 0), (c!"mntpoint", .list [c!"/x"])]

theorem obeys_logvolLines6_2_base (n : Str) : Command.FirstBase (RHEL8_LogVol.cls RHEL8_LogVolData.cls) n [c!"/x", c!"--name=n", c!"--vgname=g", c!"--size=1", c!"--cachepvs=a", c!"--cachesize=5"] obeys_logvolLines6_2_object := by
  intro b b' hb hb' line l; rcases hb with rfl | rfl <;> rcases hb' with rfl | rfl <;> kernel_rfl

theorem obeys_logvolLines6_2_start : Command.FirstStart (RHEL8_LogVol.cls RHEL8_LogVolData.cls) obeys_logvolLines6_2_object (logvolLines6.start.getD 0 ([], [])).2 := fun _ => .inl ⟨fun _ => rfl, (all_cons (by kernel_rfl) (all_cons (by kernel_rfl) (all_cons (by kernel_rfl) (all_cons (by kernel_rfl) (all_cons (by kernel_rfl) (all_cons (by kernel_rfl) (all_cons (by kernel_rfl) (all_cons (by kernel_rfl) (List.forall_mem_nil _)))))))))⟩

theorem obeys_logvolLines6_2_lines (n : Str) : ∀ i ∈ [], Command.FirstLine (RHEL8_LogVol.cls RHEL8_LogVolData.cls) n [c!"/x", c!"--name=n", c!"--vgname=g", c!"--size=1", c!"--cachepvs=a", c!"--cachesize=5"] obeys_logvolLines6_2_object (logvolLines6.lines.getD i noLine) :=
  (List.forall_mem_nil _)

theorem obeys_logvolLines6_2 : ∀ v, [Version.RHEL8].contains v = true → Command.Obeys (RHEL8_LogVol.cls RHEL8_LogVolData.cls) logvolLines6 v :=
  obeys_of obeys_logvolLines6_2_object [0] [] (obeys_logvolLines6_2_base _) (all_cons obeys_logvolLines6_2_start (List.forall_mem_nil _)) (obeys_logvolLines6_2_lines _) (by decide +kernel)

theorem obeys_logvolLines6 : logvolLines6.Obeyed := by
  unfold CommandLines.Obeyed commandMaps
  exact (all_cons (fun hv => absurd hv (by decide))
    (all_cons (fun hv => absurd hv (by decide))
    (all_cons (fun hv => absurd hv (by decide))
    (all_cons (fun hv => absurd hv (by decide))
    (all_cons (fun hv => absurd hv (by decide))
    (all_cons (fun hv => absurd hv (by decide))
    (all_cons (fun hv => absurd hv (by decide))
    (all_cons (fun hv => absurd hv (by decide))
    (all_cons (fun hv => absurd hv (by decide))
    (all_cons (fun hv => absurd hv (by decide))
    (all_cons (fun hv => absurd hv (by decide))
    (all_cons (fun hv => absurd hv (by decide))
    (all_cons (fun hv => absurd hv (by decide))
    (all_cons (fun _ c h => by cases h; exact obeys_logvolLines6_0 _ rfl)
    (all_cons (fun _ c h => by cases h; exact obeys_logvolLines6_0 _ rfl)
    (all_cons (fun _ c h => by cases h; exact obeys_logvolLines6_0 _ rfl)
    (all_cons (fun _ c h => by cases h; exact obeys_logvolLines6_0 _ rfl)
    (all_cons (fun _ c h => by cases h; exact obeys_logvolLines6_0 _ rfl)
    (all_cons (fun _ c h => by cases h; exact obeys_logvolLines6_0 _ rfl)
    (all_cons (fun _ c h => by cases h; exact obeys_logvolLines6_1 _ rfl)
    (all_cons (fun _ c h => by cases h; exact obeys_logvolLines6_1 _ rfl)
    (all_cons (fun _ c h => by cases h; exact obeys_logvolLines6_1 _ rfl)
    (all_cons (fun _ c h => by cases h; exact obeys_logvolLines6_1 _ rfl)
    (all_cons (fun _ c h => by cases h; exact obeys_logvolLines6_1 _ rfl)
    (all_cons (fun _ c h => by cases h; exact obeys_logvolLines6_1 _ rfl)
    (all_cons (fun hv => absurd hv (by decide))
    (all_cons (fun hv => absurd hv (by decide))
    (all_cons (fun hv => absurd hv (by decide))
    (all_cons (fun hv => absurd hv (by decide))
    (all_cons (fun hv => absurd hv (by decide))
    (all_cons (fun hv => absurd hv (by decide))
    (all_cons (fun hv => absurd hv (by decide))
    (all_cons (fun hv => absurd hv (by decide))
    (all_cons (fun hv => absurd hv (by decide))
    (all_cons (fun hv => absurd hv (by decide))
    (all_cons (fun hv => absurd hv (by decide))
    (all_cons (fun hv => absurd hv (by decide))
    (all_cons (fun _ c h => by cases h; exact obeys_logvolLines6_2 _ rfl) (List.forall_mem_nil _)))))))))))))))))))))))))))))))))))))))

end Ks.Cmd
