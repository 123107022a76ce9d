import Verif.Commands.LineLogic
import Verif.Commands.LineTable
/-!
# The classes of the command maps do what the table of first lines says

Written by `scripts/gen_lines.py`.
-/
namespace Ks.Cmd

set_option linter.unusedVariables false

def obeys_dmraidLines_0_object (l : Nat) : Ns := [(c!"lineno", .int l), (c!"name", .str c!"n"), (c!"devices", .list [c!"d"]), (c!"dmset", .none)]

theorem obeys_dmraidLines_0_base (n : Str) : Command.FirstBase (FC6_DmRaid.cls FC6_DmRaidData.cls) n [c!"--name=n", c!"--dev=d"] obeys_dmraidLines_0_object := by
  intro b b' hb hb' line l; kernel_rfl

theorem obeys_dmraidLines_0_start : Command.FirstStart (FC6_DmRaid.cls FC6_DmRaidData.cls) obeys_dmraidLines_0_object (dmraidLines.start.getD 0 ([], [])).2 := fun _ => .inl ⟨fun _ => rfl, (all_cons (by kernel_rfl) (all_cons (by kernel_rfl) (List.forall_mem_nil _)))⟩

theorem obeys_dmraidLines_0_lines (n : Str) : ∀ i ∈ [0, 1], Command.FirstLine (FC6_DmRaid.cls FC6_DmRaidData.cls) n [c!"--name=n", c!"--dev=d"] obeys_dmraidLines_0_object (dmraidLines.lines.getD i noLine) :=
  (all_cons (by intro b b' hb hb' x hx line l; kernel_rfl)
    (all_cons (by intro b b' hb hb' x hx line l; (cases x with | nil => exact absurd rfl hx | cons a x => kernel_rfl))
    (List.forall_mem_nil _)))

theorem obeys_dmraidLines_0 : ∀ v, [Version.FC6, Version.RHEL5, Version.F7, Version.F8, Version.F9, Version.F10, Version.F11, Version.F12, Version.F13, Version.RHEL6, Version.F14, Version.F15, Version.F16, Version.F17, Version.F18, Version.F19, Version.F20, Version.F21, Version.RHEL7, Version.F22, Version.F23].contains v = true → Command.Obeys (FC6_DmRaid.cls FC6_DmRaidData.cls) dmraidLines v :=
  obeys_of obeys_dmraidLines_0_object [0] [0, 1] (obeys_dmraidLines_0_base _) (all_cons obeys_dmraidLines_0_start (List.forall_mem_nil _)) (obeys_dmraidLines_0_lines _) (by decide +kernel)

theorem obeys_dmraidLines : dmraidLines.Obeyed := by
  unfold CommandLines.Obeyed commandMaps
  exact (all_cons (fun _ c h => by cases h; exact obeys_dmraidLines_0 _ rfl)
    (all_cons (fun _ c h => by cases h; exact obeys_dmraidLines_0 _ rfl)
    (all_cons (fun _ c h => by cases h; exact obeys_dmraidLines_0 _ rfl)
    (all_cons (fun _ c h => by cases h; exact obeys_dmraidLines_0 _ rfl)
    (all_cons (fun _ c h => by cases h; exact obeys_dmraidLines_0 _ rfl)
    (all_cons (fun _ c h => by cases h; exact obeys_dmraidLines_0 _ rfl)
    (all_cons (fun _ c h => by cases h; exact obeys_dmraidLines_0 _ rfl)
    (all_cons (fun _ c h => by cases h; exact obeys_dmraidLines_0 _ rfl)
    (all_cons (fun _ c h => by cases h; exact obeys_dmraidLines_0 _ rfl)
    (all_cons (fun _ c h => by cases h; exact obeys_dmraidLines_0 _ rfl)
    (all_cons (fun _ c h => by cases h; exact obeys_dmraidLines_0 _ rfl)
    (all_cons (fun _ c h => by cases h; exact obeys_dmraidLines_0 _ rfl)
    (all_cons (fun _ c h => by cases h; exact obeys_dmraidLines_0 _ rfl)
    (all_cons (fun _ c h => by cases h; exact obeys_dmraidLines_0 _ rfl)
    (all_cons (fun hv => absurd hv (by decide))
    (all_cons (fun hv => absurd hv (by decide))
    (all_cons (fun hv => absurd hv (by decide))
    (all_cons (fun hv => absurd hv (by decide))
    (all_cons (fun hv => absurd hv (by decide))
    (all_cons (fun hv => absurd hv (by decide))
    (all_cons (fun hv => absurd hv (by decide))
    (all_cons (fun hv => absurd hv (by decide))
    (all_cons (fun hv => absurd hv (by decide))
    (all_cons (fun hv => absurd hv (by decide))
    (all_cons (fun hv => absurd hv (by decide))
    (all_cons (fun _ c h => by cases h; exact obeys_dmraidLines_0 _ rfl)
    (all_cons (fun _ c h => by cases h; exact obeys_dmraidLines_0 _ rfl)
    (all_cons (fun _ c h => by cases h; exact obeys_dmraidLines_0 _ rfl)
    (all_cons (fun hv => absurd hv (by decide))
    (all_cons (fun hv => absurd hv (by decide))
    (all_cons (fun hv => absurd hv (by decide))
    (all_cons (fun _ c h => by cases h; exact obeys_dmraidLines_0 _ rfl)
    (all_cons (fun hv => absurd hv (by decide))
    (all_cons (fun hv => absurd hv (by decide))
    (all_cons (fun _ c h => by cases h; exact obeys_dmraidLines_0 _ rfl)
    (all_cons (fun _ c h => by cases h; exact obeys_dmraidLines_0 _ rfl)
    (all_cons (fun _ c h => by cases h; exact obeys_dmraidLines_0 _ rfl)
    (all_cons (fun hv => absurd hv (by decide)) (List.forall_mem_nil _)))))))))))))))))))))))))))))))))))))))

def obeys_keyLines_0_object (_ : Nat) : Ns := [(c!"key", .str c!"K"), (c!"skip", .bool false)]

theorem obeys_keyLines_0_base (n : Str) : Command.FirstBase (RHEL5_Key.cls) n [c!"K"] obeys_keyLines_0_object := by
  intro b b' hb hb' line l; kernel_rfl

theorem obeys_keyLines_0_start : Command.FirstStart (RHEL5_Key.cls) obeys_keyLines_0_object (keyLines.start.getD 0 ([], [])).2 := fun _ => .inr ⟨fun _ => rfl, by kernel_rfl⟩

theorem obeys_keyLines_0_lines (n : Str) : ∀ i ∈ [0], Command.FirstLine (RHEL5_Key.cls) n [c!"K"] obeys_keyLines_0_object (keyLines.lines.getD i noLine) :=
  (all_cons (by intro b b' hb hb' x hx line l; kernel_rfl)
    (List.forall_mem_nil _))

theorem obeys_keyLines_0 : ∀ v, [Version.RHEL5, Version.RHEL6].contains v = true → Command.Obeys (RHEL5_Key.cls) keyLines v :=
  obeys_of obeys_keyLines_0_object [0] [0] (obeys_keyLines_0_base _) (all_cons obeys_keyLines_0_start (List.forall_mem_nil _)) (obeys_keyLines_0_lines _) (by decide +kernel)

theorem obeys_keyLines : keyLines.Obeyed := by
  unfold CommandLines.Obeyed commandMaps
  exact (all_cons (fun hv => absurd hv (by decide))
    (all_cons (fun hv => absurd hv (by decide))
    (all_cons (fun hv => absurd hv (by decide))
    (all_cons (fun hv => absurd hv (by decide))
    (all_cons (fun hv => absurd hv (by decide))
    (all_cons (fun hv => absurd hv (by decide))
    (all_cons (fun hv => absurd hv (by decide))
    (all_cons (fun hv => absurd hv (by decide))
    (all_cons (fun hv => absurd hv (by decide))
    (all_cons (fun hv => absurd hv (by decide))
    (all_cons (fun hv => absurd hv (by decide))
    (all_cons (fun hv => absurd hv (by decide))
    (all_cons (fun hv => absurd hv (by decide))
    (all_cons (fun hv => absurd hv (by decide))
    (all_cons (fun hv => absurd hv (by decide))
    (all_cons (fun hv => absurd hv (by decide))
    (all_cons (fun hv => absurd hv (by decide))
    (all_cons (fun hv => absurd hv (by decide))
    (all_cons (fun hv => absurd hv (by decide))
    (all_cons (fun hv => absurd hv (by decide))
    (all_cons (fun hv => absurd hv (by decide))
    (all_cons (fun hv => absurd hv (by decide))
    (all_cons (fun hv => absurd hv (by decide))
    (all_cons (fun hv => absurd hv (by decide))
    (all_cons (fun hv => absurd hv (by decide))
    (all_cons (fun hv => absurd hv (by decide))
    (all_cons (fun hv => absurd hv (by decide))
    (all_cons (fun hv => absurd hv (by decide))
    (all_cons (fun hv => absurd hv (by decide))
    (all_cons (fun hv => absurd hv (by decide))
    (all_cons (fun hv => absurd hv (by decide))
    (all_cons (fun hv => absurd hv (by decide))
    (all_cons (fun hv => absurd hv (by decide))
    (all_cons (fun hv => absurd hv (by decide))
    (all_cons (fun _ c h => by cases h; exact obeys_keyLines_0 _ rfl)
    (all_cons (fun _ c h => by cases h; exact obeys_keyLines_0 _ rfl)
    (all_cons (fun hv => absurd hv (by decide))
    (all_cons (fun hv => absurd hv (by decide)) (List.forall_mem_nil _)))))))))))))))))))))))))))))))))))))))

def obeys_keyLines2_0_object (_ : Nat) : Ns := [(c!"key", .int (-99)), (c!"skip", .bool true)]

theorem obeys_keyLines2_0_base (n : Str) : Command.FirstBase (RHEL5_Key.cls) n [c!"--skip"] obeys_keyLines2_0_object := by
  intro b b' hb hb' line l; kernel_rfl

theorem obeys_keyLines2_0_start : Command.FirstStart (RHEL5_Key.cls) obeys_keyLines2_0_object (keyLines2.start.getD 0 ([], [])).2 := fun _ => .inr ⟨fun _ => rfl, by kernel_rfl⟩

theorem obeys_keyLines2_0_lines (n : Str) : ∀ i ∈ [], Command.FirstLine (RHEL5_Key.cls) n [c!"--skip"] obeys_keyLines2_0_object (keyLines2.lines.getD i noLine) :=
  (List.forall_mem_nil _)

theorem obeys_keyLines2_0 : ∀ v, [Version.RHEL5, Version.RHEL6].contains v = true → Command.Obeys (RHEL5_Key.cls) keyLines2 v :=
  obeys_of obeys_keyLines2_0_object [0] [] (obeys_keyLines2_0_base _) (all_cons obeys_keyLines2_0_start (List.forall_mem_nil _)) (obeys_keyLines2_0_lines _) (by decide +kernel)

theorem obeys_keyLines2 : keyLines2.Obeyed := by
  unfold CommandLines.Obeyed commandMaps
  exact (all_cons (fun hv => absurd hv (by decide))
    (all_cons (fun hv => absurd hv (by decide))
    (all_cons (fun hv => absurd hv (by decide))
    (all_cons (fun hv => absurd hv (by decide))
    (all_cons (fun hv => absurd hv (by decide))
    (all_cons (fun hv => absurd hv (by decide))
    (all_cons (fun hv => absurd hv (by decide))
    (all_cons (fun hv => absurd hv (by decide))
    (all_cons (fun hv => absurd hv (by decide))
    (all_cons (fun hv => absurd hv (by decide))
    (all_cons (fun hv => absurd hv (by decide))
    (all_cons (fun hv => absurd hv (by decide))
    (all_cons (fun hv => absurd hv (by decide))
    (all_cons (fun hv => absurd hv (by decide))
    (all_cons (fun hv => absurd hv (by decide))
    (all_cons (fun hv => absurd hv (by decide))
    (all_cons (fun hv => absurd hv (by decide))
    (all_cons (fun hv => absurd hv (by decide))
    (all_cons (fun hv => absurd hv (by decide))
    (all_cons (fun hv => absurd hv (by decide))
    (all_cons (fun hv => absurd hv (by decide))
    (all_cons (fun hv => absurd hv (by decide))
    (all_cons (fun hv => absurd hv (by decide))
    (all_cons (fun hv => absurd hv (by decide))
    (all_cons (fun hv => absurd hv (by decide))
    (all_cons (fun hv => absurd hv (by decide))
    (all_cons (fun hv => absurd hv (by decide))
    (all_cons (fun hv => absurd hv (by decide))
    (all_cons (fun hv => absurd hv (by decide))
    (all_cons (fun hv => absurd hv (by decide))
    (all_cons (fun hv => absurd hv (by decide))
    (all_cons (fun hv => absurd hv (by decide))
    (all_cons (fun hv => absurd hv (by decide))
    (all_cons (fun hv => absurd hv (by decide))
    (all_cons (fun _ c h => by cases h; exact obeys_keyLines2_0 _ rfl)
    (all_cons (fun _ c h => by cases h; exact obeys_keyLines2_0 _ rfl)
    (all_cons (fun hv => absurd hv (by decide))
    (all_cons (fun hv => absurd hv (by decide)) (List.forall_mem_nil _)))))))))))))))))))))))))))))))))))))))

def obeys_lilocheckLines_0_object (_ : Nat) : Ns := [(c!"check", .bool true)]

theorem obeys_lilocheckLines_0_base (n : Str) : Command.FirstBase (FC3_LiloCheck.cls) n [] obeys_lilocheckLines_0_object := by
  intro b b' hb hb' line l; kernel_rfl

theorem obeys_lilocheckLines_0_start : Command.FirstStart (FC3_LiloCheck.cls) obeys_lilocheckLines_0_object (lilocheckLines.start.getD 0 ([], [])).2 := fun _ => .inr ⟨fun _ => rfl, by kernel_rfl⟩

theorem obeys_lilocheckLines_0_lines (n : Str) : ∀ i ∈ [0], Command.FirstLine (FC3_LiloCheck.cls) n [] obeys_lilocheckLines_0_object (lilocheckLines.lines.getD i noLine) :=
  (all_cons (by intro b b' hb hb' x hx line l; kernel_rfl)
    (List.forall_mem_nil _))

theorem obeys_lilocheckLines_0 : ∀ v, [Version.RHEL3, Version.FC3, Version.RHEL4].contains v = true → Command.Obeys (FC3_LiloCheck.cls) lilocheckLines v :=
  obeys_of obeys_lilocheckLines_0_object [0] [0] (obeys_lilocheckLines_0_base _) (all_cons obeys_lilocheckLines_0_start (List.forall_mem_nil _)) (obeys_lilocheckLines_0_lines _) (by decide +kernel)

theorem obeys_lilocheckLines : lilocheckLines.Obeyed := by
  unfold CommandLines.Obeyed commandMaps
  exact (all_cons (fun hv => absurd hv (by decide))
    (all_cons (fun hv => absurd hv (by decide))
    (all_cons (fun hv => absurd hv (by decide))
    (all_cons (fun hv => absurd hv (by decide))
    (all_cons (fun hv => absurd hv (by decide))
    (all_cons (fun hv => absurd hv (by decide))
    (all_cons (fun hv => absurd hv (by decide))
    (all_cons (fun hv => absurd hv (by decide))
    (all_cons (fun hv => absurd hv (by decide))
    (all_cons (fun hv => absurd hv (by decide))
    (all_cons (fun hv => absurd hv (by decide))
    (all_cons (fun hv => absurd hv (by decide))
    (all_cons (fun hv => absurd hv (by decide))
    (all_cons (fun hv => absurd hv (by decide))
    (all_cons (fun hv => absurd hv (by decide))
    (all_cons (fun hv => absurd hv (by decide))
    (all_cons (fun hv => absurd hv (by decide))
    (all_cons (fun hv => absurd hv (by decide))
    (all_cons (fun hv => absurd hv (by decide))
    (all_cons (fun hv => absurd hv (by decide))
    (all_cons (fun hv => absurd hv (by decide))
    (all_cons (fun hv => absurd hv (by decide))
    (all_cons (fun hv => absurd hv (by decide))
    (all_cons (fun hv => absurd hv (by decide))
    (all_cons (fun hv => absurd hv (by decide))
    (all_cons (fun hv => absurd hv (by decide))
    (all_cons (fun hv => absurd hv (by decide))
    (all_cons (fun hv => absurd hv (by decide))
    (all_cons (fun _ c h => by cases h; exact obeys_lilocheckLines_0 _ rfl)
    (all_cons (fun hv => absurd hv (by decide))
    (all_cons (fun hv => absurd hv (by decide))
    (all_cons (fun hv => absurd hv (by decide))
    (all_cons (fun _ c h => by cases h; exact obeys_lilocheckLines_0 _ rfl)
    (all_cons (fun _ c h => by cases h; exact obeys_lilocheckLines_0 _ rfl)
    (all_cons (fun hv => absurd hv (by decide))
    (all_cons (fun hv => absurd hv (by decide))
    (all_cons (fun hv => absurd hv (by decide))
    (all_cons (fun hv => absurd hv (by decide)) (List.forall_mem_nil _)))))))))))))))))))))))))))))))))))))))

def obeys_ostreesetupLines_0_object (_ : Nat) : Ns := [(c!"osname", .str c!"o"), (c!"remote", .str c!"o"), (c!"url", .str c!"http://u"), (c!"ref", .str c!"r"), (c!"nogpg", .bool false)]

theorem obeys_ostreesetupLines_0_base (n : Str) : Command.FirstBase (F21_OSTreeSetup.cls) n [c!"--osname=o", c!"--url=http://u", c!"--ref=r"] obeys_ostreesetupLines_0_object := by
  intro b b' hb hb' line l; kernel_rfl

theorem obeys_ostreesetupLines_0_start : Command.FirstStart (F21_OSTreeSetup.cls) obeys_ostreesetupLines_0_object (ostreesetupLines.start.getD 0 ([], [])).2 := fun _ => .inr ⟨fun _ => rfl, by kernel_rfl⟩

theorem obeys_ostreesetupLines_0_lines (n : Str) : ∀ i ∈ [0, 1, 2, 3, 4], Command.FirstLine (F21_OSTreeSetup.cls) n [c!"--osname=o", c!"--url=http://u", c!"--ref=r"] obeys_ostreesetupLines_0_object (ostreesetupLines.lines.getD i noLine) :=
  (all_cons (by intro b b' hb hb' x hx line l; (cases x with | nil => exact absurd rfl hx | cons a x => kernel_rfl))
    (all_cons (by intro b b' hb hb' x hx line l; (cases x with | nil => exact absurd rfl hx | cons a x => kernel_rfl))
    (all_cons (by intro b b' hb hb' x hx line l; (cases x with | nil => exact absurd rfl hx | cons a x => kernel_rfl))
    (all_cons (by intro b b' hb hb' x hx line l; (cases x with | nil => exact absurd rfl hx | cons a x => kernel_rfl))
    (all_cons (by intro b b' hb hb' x hx line l; kernel_rfl)
    (List.forall_mem_nil _))))))

theorem obeys_ostreesetupLines_0 : ∀ v, [Version.F21, Version.F22, Version.F23, Version.F24, Version.F25, Version.F26, Version.F27, Version.F28, Version.F29, Version.F30, Version.F31, Version.F32, Version.F33, Version.F34].contains v = true → Command.Obeys (F21_OSTreeSetup.cls) ostreesetupLines v :=
  obeys_of obeys_ostreesetupLines_0_object [0] [0, 1, 2, 3, 4] (obeys_ostreesetupLines_0_base _) (all_cons obeys_ostreesetupLines_0_start (List.forall_mem_nil _)) (obeys_ostreesetupLines_0_lines _) (by decide +kernel)

def obeys_ostreesetupLines_1_object (_ : Nat) : Ns := [(c!"osname", .str c!"o"), (c!"remote", .str c!"o"), (c!"url", .str c!"http://u"), (c!"ref", .str c!"r"), (c!"nogpg", .bool false)]

theorem obeys_ostreesetupLines_1_base (n : Str) : Command.FirstBase (RHEL7_OSTreeSetup.cls) n [c!"--osname=o", c!"--url=http://u", c!"--ref=r"] obeys_ostreesetupLines_1_object := by
  intro b b' hb hb' line l; kernel_rfl

theorem obeys_ostreesetupLines_1_start : Command.FirstStart (RHEL7_OSTreeSetup.cls) obeys_ostreesetupLines_1_object (ostreesetupLines.start.getD 0 ([], [])).2 := fun _ => .inr ⟨fun _ => rfl, by kernel_rfl⟩

theorem obeys_ostreesetupLines_1_lines (n : Str) : ∀ i ∈ [0, 1, 2, 3, 4], Command.FirstLine (RHEL7_OSTreeSetup.cls) n [c!"--osname=o", c!"--url=http://u", c!"--ref=r"] obeys_ostreesetupLines_1_object (ostreesetupLines.lines.getD i noLine) :=
  (all_cons (by intro b b' hb hb' x hx line l; (cases x with | nil => exact absurd rfl hx | cons a x => kernel_rfl))
    (all_cons (by intro b b' hb hb' x hx line l; (cases x with | nil => exact absurd rfl hx | cons a x => kernel_rfl))
    (all_cons (by intro b b' hb hb' x hx line l; (cases x with | nil => exact absurd rfl hx | cons a x => kernel_rfl))
    (all_cons (by intro b b' hb hb' x hx line l; (cases x with | nil => exact absurd rfl hx | cons a x => kernel_rfl))
    (all_cons (by intro b b' hb hb' x hx line l; kernel_rfl)
    (List.forall_mem_nil _))))))

theorem obeys_ostreesetupLines_1 : ∀ v, [Version.RHEL7].contains v = true → Command.Obeys (RHEL7_OSTreeSetup.cls) ostreesetupLines v :=
  obeys_of obeys_ostreesetupLines_1_object [0] [0, 1, 2, 3, 4] (obeys_ostreesetupLines_1_base _) (all_cons obeys_ostreesetupLines_1_start (List.forall_mem_nil _)) (obeys_ostreesetupLines_1_lines _) (by decide +kernel)

def obeys_ostreesetupLines_2_object (_ : Nat) : Ns := [(c!"osname", .str c!"o"), (c!"remote", .str c!"o"), (c!"url", .str c!"http://u"), (c!"ref", .str c!"r"), (c!"nogpg", .bool false)]

theorem obeys_ostreesetupLines_2_base (n : Str) : Command.FirstBase (RHEL8_OSTreeSetup.cls) n [c!"--osname=o", c!"--url=http://u", c!"--ref=r"] obeys_ostreesetupLines_2_object := by
  intro b b' hb hb' line l; kernel_rfl

theorem obeys_ostreesetupLines_2_start : Command.FirstStart (RHEL8_OSTreeSetup.cls) obeys_ostreesetupLines_2_object (ostreesetupLines.start.getD 0 ([], [])).2 := fun _ => .inr ⟨fun _ => rfl, by kernel_rfl⟩

theorem obeys_ostreesetupLines_2_lines (n : Str) : ∀ i ∈ [0, 1, 2, 3, 4], Command.FirstLine (RHEL8_OSTreeSetup.cls) n [c!"--osname=o", c!"--url=http://u", c!"--ref=r"] obeys_ostreesetupLines_2_object (ostreesetupLines.lines.getD i noLine) :=
  (all_cons (by intro b b' hb hb' x hx line l; (cases x with | nil => exact absurd rfl hx | cons a x => kernel_rfl))
    (all_cons (by intro b b' hb hb' x hx line l; (cases x with | nil => exact absurd rfl hx | cons a x => kernel_rfl))
    (all_cons (by intro b b' hb hb' x hx line l; (cases x with | nil => exact absurd rfl hx | cons a x => kernel_rfl))
    (all_cons (by intro b b' hb hb' x hx line l; (cases x with | nil => exact absurd rfl hx | cons a x => kernel_rfl))
    (all_cons (by intro b b' hb hb' x hx line l; kernel_rfl)
    (List.forall_mem_nil _))))))

theorem obeys_ostreesetupLines_2 : ∀ v, [Version.RHEL8].contains v = true → Command.Obeys (RHEL8_OSTreeSetup.cls) ostreesetupLines v :=
  obeys_of obeys_ostreesetupLines_2_object [0] [0, 1, 2, 3, 4] (obeys_ostreesetupLines_2_base _) (all_cons obeys_ostreesetupLines_2_start (List.forall_mem_nil _)) (obeys_ostreesetupLines_2_lines _) (by decide +kernel)

theorem obeys_ostreesetupLines : ostreesetupLines.Obeyed := by
  unfold CommandLines.Obeyed commandMaps
  exact (all_cons (fun hv => absurd hv (by decide))
    (all_cons (fun hv => absurd hv (by decide))
    (all_cons (fun hv => absurd hv (by decide))
    (all_cons (fun hv => absurd hv (by decide))
    (all_cons (fun hv => absurd hv (by decide))
    (all_cons (fun hv => absurd hv (by decide))
    (all_cons (fun hv => absurd hv (by decide))
    (all_cons (fun hv => absurd hv (by decide))
    (all_cons (fun hv => absurd hv (by decide))
    (all_cons (fun hv => absurd hv (by decide))
    (all_cons (fun hv => absurd hv (by decide))
    (all_cons (fun _ c h => by cases h; exact obeys_ostreesetupLines_0 _ rfl)
    (all_cons (fun _ c h => by cases h; exact obeys_ostreesetupLines_0 _ rfl)
    (all_cons (fun _ c h => by cases h; exact obeys_ostreesetupLines_0 _ rfl)
    (all_cons (fun _ c h => by cases h; exact obeys_ostreesetupLines_0 _ rfl)
    (all_cons (fun _ c h => by cases h; exact obeys_ostreesetupLines_0 _ rfl)
    (all_cons (fun _ c h => by cases h; exact obeys_ostreesetupLines_0 _ rfl)
    (all_cons (fun _ c h => by cases h; exact obeys_ostreesetupLines_0 _ rfl)
    (all_cons (fun _ c h => by cases h; exact obeys_ostreesetupLines_0 _ rfl)
    (all_cons (fun _ c h => by cases h; exact obeys_ostreesetupLines_0 _ rfl)
    (all_cons (fun _ c h => by cases h; exact obeys_ostreesetupLines_0 _ rfl)
    (all_cons (fun _ c h => by cases h; exact obeys_ostreesetupLines_0 _ rfl)
    (all_cons (fun _ c h => by cases h; exact obeys_ostreesetupLines_0 _ rfl)
    (all_cons (fun _ c h => by cases h; exact obeys_ostreesetupLines_0 _ rfl)
    (all_cons (fun _ c h => by cases h; exact obeys_ostreesetupLines_0 _ rfl)
    (all_cons (fun hv => absurd hv (by decide))
    (all_cons (fun hv => absurd hv (by decide))
    (all_cons (fun hv => absurd hv (by decide))
    (all_cons (fun hv => absurd hv (by decide))
    (all_cons (fun hv => absurd hv (by decide))
    (all_cons (fun hv => absurd hv (by decide))
    (all_cons (fun hv => absurd hv (by decide))
    (all_cons (fun hv => absurd hv (by decide))
    (all_cons (fun hv => absurd hv (by decide))
    (all_cons (fun hv => absurd hv (by decide))
    (all_cons (fun hv => absurd hv (by decide))
    (all_cons (fun _ c h => by cases h; exact obeys_ostreesetupLines_1 _ rfl)
    (all_cons (fun _ c h => by cases h; exact obeys_ostreesetupLines_2 _ rfl) (List.forall_mem_nil _)))))))))))))))))))))))))))))))))))))))

def obeys_partLines_0_object (l : Nat) : Ns := [(c!"lineno", .int l), (c!"active", .bool false), (c!"primOnly", .bool false), (c!"end", .int 0), (c!"fstype", .str c!""), (c!"grow", .bool false), (c!"maxSizeMB", .int 0), (c!"format", .bool true), (c!"onbiosdisk", .str c!""), (c!"disk", .str c!""), (c!"onPart", .str c!""), (c!"recommended", .bool false), (c!"size", .int 1), (c!"start", .int 0), (c!"mountpoint", .str c!"/x"), (c!"fsopts", .str c!""), (c!"label", .str c!""), (c!"fsprofile", .str c!""), (c!"encrypted", .bool false), (c!"passphrase", .str c!""), (c!"mntpoint", .list [c!"/x"])]

theorem obeys_partLines_0_base (n : Str) : Command.FirstBase (F9_Partition.cls F9_PartData.cls) n [c!"/x", c!"--size=1"] obeys_partLines_0_object := by
  intro b b' hb hb' line l; kernel_rfl

theorem obeys_partLines_0_start : Command.FirstStart (F9_Partition.cls F9_PartData.cls) obeys_partLines_0_object (partLines.start.getD 0 ([], [])).2 := fun _ => .inl ⟨fun _ => rfl, (all_cons (by kernel_rfl) (all_cons (by kernel_rfl) (all_cons (by kernel_rfl) (all_cons (by kernel_rfl) (List.forall_mem_nil _)))))⟩

theorem obeys_partLines_0_lines (n : Str) : ∀ i ∈ [25, 27, 29, 31, 33, 35, 41, 58], Command.FirstLine (F9_Partition.cls F9_PartData.cls) n [c!"/x", c!"--size=1"] obeys_partLines_0_object (partLines.lines.getD i noLine) :=
  (all_cons (by intro b b' hb hb' x hx line l; (cases x with | nil => exact absurd rfl hx | cons a x => kernel_rfl))
    (all_cons (by intro b b' hb hb' x hx line l; (cases x with | nil => exact absurd rfl hx | cons a x => kernel_rfl))
    (all_cons (by intro b b' hb hb' x hx line l; kernel_rfl)
    (all_cons (by intro b b' hb hb' x hx line l; (cases x with | nil => exact absurd rfl hx | cons a x => kernel_rfl))
    (all_cons (by intro b b' hb hb' x hx line l; (cases x with | nil => exact absurd rfl hx | cons a x => kernel_rfl))
    (all_cons (by intro b b' hb hb' x hx line l; (cases x with | nil => exact absurd rfl hx | cons a x => kernel_rfl))
    (all_cons (by intro b b' hb hb' x hx line l; kernel_rfl)
    (all_cons (by intro b b' hb hb' x hx line l; kernel_rfl)
    (List.forall_mem_nil _)))))))))

theorem obeys_partLines_0 : ∀ v, [Version.F9, Version.F10].contains v = true → Command.Obeys (F9_Partition.cls F9_PartData.cls) partLines v :=
  obeys_of obeys_partLines_0_object [0] [25, 27, 29, 31, 33, 35, 41, 58] (obeys_partLines_0_base _) (all_cons obeys_partLines_0_start (List.forall_mem_nil _)) (obeys_partLines_0_lines _) (by decide +kernel)

def obeys_partLines_1_object (l : Nat) : Ns := [(c!"lineno", .int l), (c!"active", .bool false), (c!"primOnly", .bool false), (c!"fstype", .str c!""), (c!"grow", .bool false), (c!"maxSizeMB", .int 0), (c!"format", .bool true), (c!"onbiosdisk", .str c!""), (c!"disk", .str c!""), (c!"onPart", .str c!""), (c!"recommended", .bool false), (c!"size", .int 1), (c!"mountpoint", .str c!"/x"), (c!"fsopts", .str c!""), (c!"label", .str c!""), (c!"fsprofile", .str c!""), (c!"encrypted", .bool false), (c!"passphrase", .str c!""), (c!"mntpoint", .list [c!"/x"])]

theorem obeys_partLines_1_base (n : Str) : Command.FirstBase (F11_Partition.cls F11_PartData.cls) n [c!"/x", c!"--size=1"] obeys_partLines_1_object := by
  intro b b' hb hb' line l; kernel_rfl

theorem obeys_partLines_1_start : Command.FirstStart (F11_Partition.cls F11_PartData.cls) obeys_partLines_1_object (partLines.start.getD 0 ([], [])).2 := fun _ => .inl ⟨fun _ => rfl, (all_cons (by kernel_rfl) (all_cons (by kernel_rfl) (all_cons (by kernel_rfl) (all_cons (by kernel_rfl) (List.forall_mem_nil _)))))⟩

theorem obeys_partLines_1_lines (n : Str) : ∀ i ∈ [3, 6, 34, 36, 37, 39, 41], Command.FirstLine (F11_Partition.cls F11_PartData.cls) n [c!"/x", c!"--size=1"] obeys_partLines_1_object (partLines.lines.getD i noLine) :=
  (all_cons (by intro b b' hb hb' x hx line l; kernel_rfl)
    (all_cons (by intro b b' hb hb' x hx line l; kernel_rfl)
    (all_cons (by intro b b' hb hb' x hx line l; (cases x with | nil => exact absurd rfl hx | cons a x => kernel_rfl))
    (all_cons (by intro b b' hb hb' x hx line l; (cases x with | nil => exact absurd rfl hx | cons a x => kernel_rfl))
    (all_cons (by intro b b' hb hb' x hx line l; (cases x with | nil => exact absurd rfl hx | cons a x => kernel_rfl))
    (all_cons (by intro b b' hb hb' x hx line l; kernel_rfl)
    (all_cons (by intro b b' hb hb' x hx line l; kernel_rfl)
    (List.forall_mem_nil _))))))))

theorem obeys_partLines_1 : ∀ v, [Version.F11].contains v = true → Command.Obeys (F11_Partition.cls F11_PartData.cls) partLines v :=
  obeys_of obeys_partLines_1_object [0] [3, 6, 34, 36, 37, 39, 41] (obeys_partLines_1_base _) (all_cons obeys_partLines_1_start (List.forall_mem_nil _)) (obeys_partLines_1_lines _) (by decide +kernel)

def obeys_partLines_2_object (l : Nat) : Ns := [(c!"lineno", .int l), (c!"active", .bool false), (c!"primOnly", .bool false), (c!"fstype", .str c!""), (c!"grow", .bool false), (c!"maxSizeMB", .int 0), (c!"format", .bool true), (c!"onbiosdisk", .str c!""), (c!"disk", .str c!""), (c!"onPart", .str c!""), (c!"recommended", .bool false), (c!"size", .int 1), (c!"mountpoint", .str c!"/x"), (c!"fsopts", .str c!""), (c!"label", .str c!""), (c!"fsprofile", .str c!""), (c!"encrypted", .bool false), (c!"passphrase", .str c!""), (c!"escrowcert", .str c!""), (c!"backuppassphrase", .bool false), (c!"mntpoint", .list [c!"/x"])]

theorem obeys_partLines_2_base (n : Str) : Command.FirstBase (F12_Partition.cls F12_PartData.cls) n [c!"/x", c!"--size=1"] obeys_partLines_2_object := by
  intro b b' hb hb' line l; kernel_rfl

theorem obeys_partLines_2_start : Command.FirstStart (F12_Partition.cls F12_PartData.cls) obeys_partLines_2_object (partLines.start.getD 0 ([], [])).2 := fun _ => .inl ⟨fun _ => rfl, (all_cons (by kernel_rfl) (all_cons (by kernel_rfl) (all_cons (by kernel_rfl) (all_cons (by kernel_rfl) (List.forall_mem_nil _)))))⟩

theorem obeys_partLines_2_lines (n : Str) : ∀ i ∈ [38, 40, 41, 42, 44], Command.FirstLine (F12_Partition.cls F12_PartData.cls) n [c!"/x", c!"--size=1"] obeys_partLines_2_object (partLines.lines.getD i noLine) :=
  (all_cons (by intro b b' hb hb' x hx line l; (cases x with | nil => exact absurd rfl hx | cons a x => kernel_rfl))
    (all_cons (by intro b b' hb hb' x hx line l; kernel_rfl)
    (all_cons (by intro b b' hb hb' x hx line l; kernel_rfl)
    (all_cons (by intro b b' hb hb' x hx line l; kernel_rfl)
    (all_cons (by intro b b' hb hb' x hx line l; (cases x with | nil => exact absurd rfl hx | cons a x => kernel_rfl))
    (List.forall_mem_nil _))))))

theorem obeys_partLines_2 : ∀ v, [Version.F12, Version.F13].contains v = true → Command.Obeys (F12_Partition.cls F12_PartData.cls) partLines v :=
  obeys_of obeys_partLines_2_object [0] [38, 40, 41, 42, 44] (obeys_partLines_2_base _) (all_cons obeys_partLines_2_start (List.forall_mem_nil _)) (obeys_partLines_2_lines _) (by decide +kernel)

def obeys_partLines_3_object (l : Nat) : Ns := [(c!"lineno", .int l), (c!"active", .bool false), (c!"primOnly", .bool false), (c!"fstype", .str c!""), (c!"grow", .bool false), (c!"maxSizeMB", .int 0), (c!"format", .bool true), (c!"onbiosdisk", .str c!""), (c!"disk", .str c!""), (c!"onPart", .str c!""), (c!"recommended", .bool false), (c!"size", .int 1), (c!"mountpoint", .str c!"/x"), (c!"fsopts", .str c!""), (c!"label", .str c!""), (c!"fsprofile", .str c!""), (c!"encrypted", .bool false), (c!"passphrase", .str c!""), (c!"escrowcert", .str c!""), (c!"backuppassphrase", .bool false), (c!"mntpoint", .list [c!"/x"])]

theorem obeys_partLines_3_base (n : Str) : Command.FirstBase (F14_Partition.cls F14_PartData.cls) n [c!"/x", c!"--size=1"] obeys_partLines_3_object := by
  intro b b' hb hb' line l; kernel_rfl

theorem obeys_partLines_3_start : Command.FirstStart (F14_Partition.cls F14_PartData.cls) obeys_partLines_3_object (partLines.start.getD 0 ([], [])).2 := fun _ => .inl ⟨fun _ => rfl, (all_cons (by kernel_rfl) (all_cons (by kernel_rfl) (all_cons (by kernel_rfl) (all_cons (by kernel_rfl) (List.forall_mem_nil _)))))⟩

theorem obeys_partLines_3_lines (n : Str) : ∀ i ∈ [4, 7, 26, 33, 35, 41, 42, 44, 59], Command.FirstLine (F14_Partition.cls F14_PartData.cls) n [c!"/x", c!"--size=1"] obeys_partLines_3_object (partLines.lines.getD i noLine) :=
  (all_cons (by intro b b' hb hb' x hx line l; kernel_rfl)
    (all_cons (by intro b b' hb hb' x hx line l; kernel_rfl)
    (all_cons (by intro b b' hb hb' x hx line l; (cases x with | nil => exact absurd rfl hx | cons a x => kernel_rfl))
    (all_cons (by intro b b' hb hb' x hx line l; (cases x with | nil => exact absurd rfl hx | cons a x => kernel_rfl))
    (all_cons (by intro b b' hb hb' x hx line l; (cases x with | nil => exact absurd rfl hx | cons a x => kernel_rfl))
    (all_cons (by intro b b' hb hb' x hx line l; kernel_rfl)
    (all_cons (by intro b b' hb hb' x hx line l; kernel_rfl)
    (all_cons (by intro b b' hb hb' x hx line l; (cases x with | nil => exact absurd rfl hx | cons a x => kernel_rfl))
    (all_cons (by intro b b' hb hb' x hx line l; kernel_rfl)
    (List.forall_mem_nil _))))))))))

theorem obeys_partLines_3 : ∀ v, [Version.F14, Version.F15].contains v = true → Command.Obeys (F14_Partition.cls F14_PartData.cls) partLines v :=
  obeys_of obeys_partLines_3_object [0] [4, 7, 26, 33, 35, 41, 42, 44, 59] (obeys_partLines_3_base _) (all_cons obeys_partLines_3_start (List.forall_mem_nil _)) (obeys_partLines_3_lines _) (by decide +kernel)

def obeys_partLines_4_object (l : Nat) : Ns := [(c!"lineno", .int l), (c!"active", .bool false), (c!"primOnly", .bool false), (c!"fstype", .str c!""), (c!"grow", .bool false), (c!"maxSizeMB", .int 0), (c!"format", .bool true), (c!"onbiosdisk", .str c!""), (c!"disk", .str c!""), (c!"onPart", .str c!""), (c!"recommended", .bool false), (c!"size", .int 1), (c!"mountpoint", .str c!"/x"), (c!"fsopts", .str c!""), (c!"label", .str c!""), (c!"fsprofile", .str c!""), (c!"encrypted", .bool false), (c!"passphrase", .str c!""), (c!"escrowcert", .str c!""), (c!"backuppassphrase", .bool false), (c!"resize", .bool false), (c!"mntpoint", .list [c!"/x"])]

theorem obeys_partLines_4_base (n : Str) : Command.FirstBase (F14_Partition.cls F17_PartData.cls) n [c!"/x", c!"--size=1"] obeys_partLines_4_object := by
  intro b b' hb hb' line l; kernel_rfl

theorem obeys_partLines_4_start : Command.FirstStart (F14_Partition.cls F17_PartData.cls) obeys_partLines_4_object (partLines.start.getD 0 ([], [])).2 := fun _ => .inl ⟨fun _ => rfl, (all_cons (by kernel_rfl) (all_cons (by kernel_rfl) (all_cons (by kernel_rfl) (all_cons (by kernel_rfl) (List.forall_mem_nil _)))))⟩

theorem obeys_partLines_4_lines (n : Str) : ∀ i ∈ [41], Command.FirstLine (F14_Partition.cls F17_PartData.cls) n [c!"/x", c!"--size=1"] obeys_partLines_4_object (partLines.lines.getD i noLine) :=
  (all_cons (by intro b b' hb hb' x hx line l; kernel_rfl)
    (List.forall_mem_nil _))

theorem obeys_partLines_4 : ∀ v, [Version.F16].contains v = true → Command.Obeys (F14_Partition.cls F17_PartData.cls) partLines v :=
  obeys_of obeys_partLines_4_object [0] [41] (obeys_partLines_4_base _) (all_cons obeys_partLines_4_start (List.forall_mem_nil _)) (obeys_partLines_4_lines _) (by decide +kernel)

def obeys_partLines_5_object (l : Nat) : Ns := [(c!"lineno", .int l), (c!"active", .bool false), (c!"primOnly", .bool false), (c!"fstype", .str c!""), (c!"grow", .bool false), (c!"maxSizeMB", .int 0), (c!"format", .bool true), (c!"onbiosdisk", .str c!""), (c!"disk", .str c!""), (c!"onPart", .str c!""), (c!"recommended", .bool false), (c!"size", .int 1), (c!"mountpoint", .str c!"/x"), (c!"fsopts", .str c!""), (c!"label", .str c!""), (c!"fsprofile", .str c!""), (c!"encrypted", .bool false), (c!"passphrase", .str c!""), (c!"escrowcert", .str c!""), (c!"backuppassphrase", .bool false), (c!"resize", .bool false), (c!"mntpoint", .list [c!"/x"])]

theorem obeys_partLines_5_base (n : Str) : Command.FirstBase (F17_Partition.cls F17_PartData.cls) n [c!"/x", c!"--size=1"] obeys_partLines_5_object := by
  intro b b' hb hb' line l; kernel_rfl

theorem obeys_partLines_5_start : Command.FirstStart (F17_Partition.cls F17_PartData.cls) obeys_partLines_5_object (partLines.start.getD 0 ([], [])).2 := fun _ => .inl ⟨fun _ => rfl, (all_cons (by kernel_rfl) (all_cons (by kernel_rfl) (all_cons (by kernel_rfl) (all_cons (by kernel_rfl) (List.forall_mem_nil _)))))⟩

theorem obeys_partLines_5_lines (n : Str) : ∀ i ∈ [41, 42, 44], Command.FirstLine (F17_Partition.cls F17_PartData.cls) n [c!"/x", c!"--size=1"] obeys_partLines_5_object (partLines.lines.getD i noLine) :=
  (all_cons (by intro b b' hb hb' x hx line l; kernel_rfl)
    (all_cons (by intro b b' hb hb' x hx line l; kernel_rfl)
    (all_cons (by intro b b' hb hb' x hx line l; (cases x with | nil => exact absurd rfl hx | cons a x => kernel_rfl))
    (List.forall_mem_nil _))))

theorem obeys_partLines_5 : ∀ v, [Version.F17].contains v = true → Command.Obeys (F17_Partition.cls F17_PartData.cls) partLines v :=
  obeys_of obeys_partLines_5_object [0] [41, 42, 44] (obeys_partLines_5_base _) (all_cons obeys_partLines_5_start (List.forall_mem_nil _)) (obeys_partLines_5_lines _) (by decide +kernel)

def obeys_partLines_6_object (l : Nat) : Ns := [(c!"lineno", .int l), (c!"active", .bool false), (c!"primOnly", .bool false), (c!"fstype", .str c!""), (c!"grow", .bool false), (c!"maxSizeMB", .int 0), (c!"format", .bool true), (c!"onbiosdisk", .str c!""), (c!"disk", .str c!""), (c!"onPart", .str c!""), (c!"recommended", .bool false), (c!"size", .int 1), (c!"mountpoint", .str c!"/x"), (c!"fsopts", .str c!""), (c!"label", .str c!""), (c!"fsprofile", .str c!""), (c!"encrypted", .bool false), (c!"passphrase", .str c!""), (c!"escrowcert", .str c!""), (c!"backuppassphrase", .bool false), (c!"resize", .bool false), (c!"hibernation", .bool false), (c!"cipher", .str c!""), (c!"mntpoint", .list [c!"/x"])]

theorem obeys_partLines_6_base (n : Str) : Command.FirstBase (F18_Partition.cls F18_PartData.cls) n [c!"/x", c!"--size=1"] obeys_partLines_6_object := by
  intro b b' hb hb' line l; kernel_rfl

theorem obeys_partLines_6_start : Command.FirstStart (F18_Partition.cls F18_PartData.cls) obeys_partLines_6_object (partLines.start.getD 0 ([], [])).2 := fun _ => .inl ⟨fun _ => rfl, (all_cons (by kernel_rfl) (all_cons (by kernel_rfl) (all_cons (by kernel_rfl) (all_cons (by kernel_rfl) (List.forall_mem_nil _)))))⟩

theorem obeys_partLines_6_lines (n : Str) : ∀ i ∈ [41, 43, 45], Command.FirstLine (F18_Partition.cls F18_PartData.cls) n [c!"/x", c!"--size=1"] obeys_partLines_6_object (partLines.lines.getD i noLine) :=
  (all_cons (by intro b b' hb hb' x hx line l; kernel_rfl)
    (all_cons (by intro b b' hb hb' x hx line l; kernel_rfl)
    (all_cons (by intro b b' hb hb' x hx line l; (cases x with | nil => exact absurd rfl hx | cons a x => kernel_rfl))
    (List.forall_mem_nil _))))

theorem obeys_partLines_6 : ∀ v, [Version.F18, Version.F19].contains v = true → Command.Obeys (F18_Partition.cls F18_PartData.cls) partLines v :=
  obeys_of obeys_partLines_6_object [0] [41, 43, 45] (obeys_partLines_6_base _) (all_cons obeys_partLines_6_start (List.forall_mem_nil _)) (obeys_partLines_6_lines _) (by decide +kernel)

def obeys_partLines_7_object (l : Nat) : Ns := [(c!"lineno", .int l), (c!"active", .bool false), (c!"primOnly", .bool false), (c!"fstype", .str c!""), (c!"grow", .bool false), (c!"maxSizeMB", .int 0), (c!"format", .bool true), (c!"onbiosdisk", .str c!""), (c!"disk", .str c!""), (c!"onPart", .str c!""), (c!"recommended", .bool false), (c!"size", .int 1), (c!"mountpoint", .str c!"/x"), (c!"fsopts", .str c!""), (c!"label", .str c!""), (c!"fsprofile", .str c!""), (c!"encrypted", .bool false), (c!"passphrase", .str c!""), (c!"escrowcert", .str c!""), (c!"backuppassphrase", .bool false), (c!"resize", .bool false), (c!"hibernation", .bool false), (c!"cipher", .str c!""), (c!"mntpoint", .list [c!"/x"])]

theorem obeys_partLines_7_base (n : Str) : Command.FirstBase (F20_Partition.cls F18_PartData.cls) n [c!"/x", c!"--size=1"] obeys_partLines_7_object := by
  intro b b' hb hb' line l; rcases hb with rfl | rfl <;> rcases hb' with rfl | rfl <;> kernel_rfl

theorem obeys_partLines_7_start : Command.FirstStart (F20_Partition.cls F18_PartData.cls) obeys_partLines_7_object (partLines.start.getD 0 ([], [])).2 := fun _ => .inl ⟨fun _ => rfl, (all_cons (by kernel_rfl) (all_cons (by kernel_rfl) (all_cons (by kernel_rfl) (all_cons (by kernel_rfl) (List.forall_mem_nil _)))))⟩

theorem obeys_partLines_7_lines (n : Str) : ∀ i ∈ [41, 46], Command.FirstLine (F20_Partition.cls F18_PartData.cls) n [c!"/x", c!"--size=1"] obeys_partLines_7_object (partLines.lines.getD i noLine) :=
  (all_cons (by intro b b' hb hb' x hx line l; rcases hb with rfl | rfl <;> rcases hb' with rfl | rfl <;> kernel_rfl)
    (all_cons (by intro b b' hb hb' x hx line l; (cases x with | nil => exact absurd rfl hx | cons a x => rcases hb with rfl | rfl <;> rcases hb' with rfl | rfl <;> kernel_rfl))
    (List.forall_mem_nil _)))

theorem obeys_partLines_7 : ∀ v, [Version.F20, Version.F21, Version.F22].contains v = true → Command.Obeys (F20_Partition.cls F18_PartData.cls) partLines v :=
  obeys_of obeys_partLines_7_object [0] [41, 46] (obeys_partLines_7_base _) (all_cons obeys_partLines_7_start (List.forall_mem_nil _)) (obeys_partLines_7_lines _) (by decide +kernel)

def obeys_partLines_8_object (l : Nat) : Ns := [(c!"lineno", .int l), (c!"active", .bool false), (c!"primOnly", .bool false), (c!"fstype", .str c!""), (c!"grow", .bool false), (c!"maxSizeMB", .int 0), (c!"format", .bool true), (c!"onbiosdisk", .str c!""), (c!"disk", .str c!""), (c!"onPart", .str c!""), (c!"recommended", .bool false), (c!"size", .int 1), (c!"mountpoint", .str c!"/x"), (c!"fsopts", .str c!""), (c!"label", .str c!""), (c!"fsprofile", .str c!""), (c!"encrypted", .bool false), (c!"passphrase", .str c!""), (c!"escrowcert", .str c!""), (c!"backuppassphrase", .bool false), (c!"resize", .bool false), (c!"hibernation", .bool false), (c!"cipher", .str c!""), (c!"mkfsopts", .str c!""), (c!"mntpoint", .list [c!"/x"])]

theorem obeys_partLines_8_base (n : Str) : Command.FirstBase (F23_Partition.cls F23_PartData.cls) n [c!"/x", c!"--size=1"] obeys_partLines_8_object := by
  intro b b' hb hb' line l; rcases hb with rfl | rfl <;> rcases hb' with rfl | rfl <;> kernel_rfl

theorem obeys_partLines_8_start : Command.FirstStart (F23_Partition.cls F23_PartData.cls) obeys_partLines_8_object (partLines.start.getD 0 ([], [])).2 := fun _ => .inl ⟨fun _ => rfl, (all_cons (by kernel_rfl) (all_cons (by kernel_rfl) (all_cons (by kernel_rfl) (all_cons (by kernel_rfl) (List.forall_mem_nil _)))))⟩

theorem obeys_partLines_8_lines (n : Str) : ∀ i ∈ [41, 47, 48, 50, 52, 54, 56], Command.FirstLine (F23_Partition.cls F23_PartData.cls) n [c!"/x", c!"--size=1"] obeys_partLines_8_object (partLines.lines.getD i noLine) :=
  (all_cons (by intro b b' hb hb' x hx line l; rcases hb with rfl | rfl <;> rcases hb' with rfl | rfl <;> kernel_rfl)
    (all_cons (by intro b b' hb hb' x hx line l; (cases x with | nil => exact absurd rfl hx | cons a x => rcases hb with rfl | rfl <;> rcases hb' with rfl | rfl <;> kernel_rfl))
    (all_cons (by intro b b' hb hb' x hx line l; (cases x with | nil => exact absurd rfl hx | cons a x => rcases hb with rfl | rfl <;> rcases hb' with rfl | rfl <;> kernel_rfl))
    (all_cons (by intro b b' hb hb' x hx line l; (cases x with | nil => exact absurd rfl hx | cons a x => rcases hb with rfl | rfl <;> rcases hb' with rfl | rfl <;> kernel_rfl))
    (all_cons (by intro b b' hb hb' x hx line l; rcases hb with rfl | rfl <;> rcases hb' with rfl | rfl <;> kernel_rfl)
    (all_cons (by intro b b' hb hb' x hx line l; rcases hb with rfl | rfl <;> rcases hb' with rfl | rfl <;> kernel_rfl)
    (all_cons (by intro b b' hb hb' x hx line l; rcases hb with rfl | rfl <;> rcases hb' with rfl | rfl <;> kernel_rfl)
    (List.forall_mem_nil _))))))))

theorem obeys_partLines_8 : ∀ v, [Version.F23, Version.F24, Version.F25, Version.F26, Version.F27, Version.F28].contains v = true → Command.Obeys (F23_Partition.cls F23_PartData.cls) partLines v :=
  obeys_of obeys_partLines_8_object [0] [41, 47, 48, 50, 52, 54, 56] (obeys_partLines_8_base _) (all_cons obeys_partLines_8_start (List.forall_mem_nil _)) (obeys_partLines_8_lines _) (by decide +kernel)

def obeys_partLines_9_object (l : Nat) : Ns := [(c!"lineno", .int l), (c!"active", .bool false), (c!"primOnly", .bool false), (c!"fstype", .str c!""), (c!"grow", .bool false), (c!"maxSizeMB", .int 0), (c!"format", .bool true), (c!"onbiosdisk", .str c!""), (c!"disk", .str c!""), (c!"onPart", .str c!""), (c!"recommended", .bool false), (c!"size", .int 1), (c!"mountpoint", .str c!"/x"), (c!"fsopts", .str c!""), (c!"label", .str c!""), (c!"fsprofile", .str c!""), (c!"encrypted", .bool false), (c!"passphrase", .str c!""), (c!"escrowcert", .str c!""), (c!"backuppassphrase", .bool false), (c!"resize", .bool false), (c!"hibernation", .bool false), (c!"cipher", .str c!""), (c!"mkfsopts", .str c!""), (c!"luks_version", .str c!""), (c!"pbkdf", .str c!""), (c!"pbkdf_memory", .int 0), (c!"pbkdf_time", .int 0), (c!"pbkdf_iterations", .int 0), (c!"mntpoint", .list [c!"/x"])]

theorem obeys_partLines_9_base (n : Str) : Command.FirstBase (F29_Partition.cls F29_PartData.cls) n [c!"/x", c!"--size=1"] obeys_partLines_9_object := by
  intro b b' hb hb' line l; rcases hb with rfl | rfl <;> rcases hb' with rfl | rfl <;> kernel_rfl

theorem obeys_partLines_9_start : Command.FirstStart (F29_Partition.cls F29_PartData.cls) obeys_partLines_9_object (partLines.start.getD 0 ([], [])).2 := fun _ => .inl ⟨fun _ => rfl, (all_cons (by kernel_rfl) (all_cons (by kernel_rfl) (all_cons (by kernel_rfl) (all_cons (by kernel_rfl) (List.forall_mem_nil _)))))⟩

theorem obeys_partLines_9_lines (n : Str) : ∀ i ∈ [41], Command.FirstLine (F29_Partition.cls F29_PartData.cls) n [c!"/x", c!"--size=1"] obeys_partLines_9_object (partLines.lines.getD i noLine) :=
  (all_cons (by intro b b' hb hb' x hx line l; rcases hb with rfl | rfl <;> rcases hb' with rfl | rfl <;> kernel_rfl)
    (List.forall_mem_nil _))

theorem obeys_partLines_9 : ∀ v, [Version.F29, Version.F30, Version.F31, Version.F32, Version.F33].contains v = true → Command.Obeys (F29_Partition.cls F29_PartData.cls) partLines v :=
  obeys_of obeys_partLines_9_object [0] [41] (obeys_partLines_9_base _) (all_cons obeys_partLines_9_start (List.forall_mem_nil _)) (obeys_partLines_9_lines _) (by decide +kernel)

def obeys_partLines_10_object (l : Nat) : Ns := [(c!"lineno", .int l), (c!"active", .bool false), (c!"primOnly", .bool false), (c!"fstype", .str c!""), (c!"grow", .bool false), (c!"maxSizeMB", .int 0), (c!"format", .bool true), (c!"onbiosdisk", .str c!""), (c!"disk", .str c!""), (c!"onPart", .str c!""), (c!"recommended", .bool false), (c!"size", .int 1), (c!"mountpoint", .str c!"/x"), (c!"fsopts", .str c!""), (c!"label", .str c!""), (c!"fsprofile", .str c!""), (c!"encrypted", .bool false), (c!"passphrase", .str c!""), (c!"escrowcert", .str c!""), (c!"backuppassphrase", .bool false), (c!"resize", .bool false), (c!"hibernation", .bool false), (c!"cipher", .str c!""), (c!"mkfsopts", .str c!""), (c!"luks_version", .str c!""), (c!"pbkdf", .str c!""), (c!"pbkdf_memory", .int 0), (c!"pbkdf_time", .int 0), (c!"pbkdf_iterations", .int 0), (c!"mntpoint", .list [c!"/x"])]

theorem obeys_partLines_10_base (n : Str) : Command.FirstBase (F34_Partition.cls F29_PartData.cls) n [c!"/x", c!"--size=1"] obeys_partLines_10_object := by
  intro b b' hb hb' line l; rcases hb with rfl | rfl <;> rcases hb' with rfl | rfl <;> kernel_rfl

theorem obeys_partLines_10_start : Command.FirstStart (F34_Partition.cls F29_PartData.cls) obeys_partLines_10_object (partLines.start.getD 0 ([], [])).2 := fun _ => .inl ⟨fun _ => rfl, (all_cons (by kernel_rfl) (all_cons (by kernel_rfl) (all_cons (by kernel_rfl) (all_cons (by kernel_rfl) (List.forall_mem_nil _)))))⟩

theorem obeys_partLines_10_lines (n : Str) : ∀ i ∈ [0, 2, 9, 10, 11, 12, 13, 14, 15, 16, 17, 18, 19, 20, 21, 23, 27, 29, 31, 38, 40, 41, 43, 45, 47, 49, 51, 53, 55, 57], Command.FirstLine (F34_Partition.cls F29_PartData.cls) n [c!"/x", c!"--size=1"] obeys_partLines_10_object (partLines.lines.getD i noLine) :=
  (all_cons (by intro b b' hb hb' x hx line l; rcases hb with rfl | rfl <;> rcases hb' with rfl | rfl <;> kernel_rfl)
    (all_cons (by intro b b' hb hb' x hx line l; rcases hb with rfl | rfl <;> rcases hb' with rfl | rfl <;> kernel_rfl)
    (all_cons (by intro b b' hb hb' x hx line l; rcases hb with rfl | rfl <;> rcases hb' with rfl | rfl <;> kernel_rfl)
    (all_cons (by intro b b' hb hb' x hx line l; rcases hb with rfl | rfl <;> rcases hb' with rfl | rfl <;> kernel_rfl)
    (all_cons (by intro b b' hb hb' x hx line l; rcases hb with rfl | rfl <;> rcases hb' with rfl | rfl <;> kernel_rfl)
    (all_cons (by intro b b' hb hb' x hx line l; rcases hb with rfl | rfl <;> rcases hb' with rfl | rfl <;> kernel_rfl)
    (all_cons (by intro b b' hb hb' x hx line l; rcases hb with rfl | rfl <;> rcases hb' with rfl | rfl <;> kernel_rfl)
    (all_cons (by intro b b' hb hb' x hx line l; (cases x with | nil => exact absurd rfl hx | cons a x => rcases hb with rfl | rfl <;> rcases hb' with rfl | rfl <;> kernel_rfl))
    (all_cons (by intro b b' hb hb' x hx line l; (cases x with | nil => exact absurd rfl hx | cons a x => rcases hb with rfl | rfl <;> rcases hb' with rfl | rfl <;> kernel_rfl))
    (all_cons (by intro b b' hb hb' x hx line l; (cases x with | nil => exact absurd rfl hx | cons a x => rcases hb with rfl | rfl <;> rcases hb' with rfl | rfl <;> kernel_rfl))
    (all_cons (by intro b b' hb hb' x hx line l; rcases hb with rfl | rfl <;> rcases hb' with rfl | rfl <;> kernel_rfl)
    (all_cons (by intro b b' hb hb' x hx line l; rcases hb with rfl | rfl <;> rcases hb' with rfl | rfl <;> kernel_rfl)
    (all_cons (by intro b b' hb hb' x hx line l; rcases hb with rfl | rfl <;> rcases hb' with rfl | rfl <;> kernel_rfl)
    (all_cons (by intro b b' hb hb' x hx line l; rcases hb with rfl | rfl <;> rcases hb' with rfl | rfl <;> kernel_rfl)
    (all_cons (by intro b b' hb hb' x hx line l; (cases x with | nil => exact absurd rfl hx | cons a x => rcases hb with rfl | rfl <;> rcases hb' with rfl | rfl <;> kernel_rfl))
    (all_cons (by intro b b' hb hb' x hx line l; (cases x with | nil => exact absurd rfl hx | cons a x => rcases hb with rfl | rfl <;> rcases hb' with rfl | rfl <;> kernel_rfl))
    (all_cons (by intro b b' hb hb' x hx line l; (cases x with | nil => exact absurd rfl hx | cons a x => rcases hb with rfl | rfl <;> rcases hb' with rfl | rfl <;> kernel_rfl))
    (all_cons (by intro b b' hb hb' x hx line l; rcases hb with rfl | rfl <;> rcases hb' with rfl | rfl <;> kernel_rfl)
    (all_cons (by intro b b' hb hb' x hx line l; (cases x with | nil => exact absurd rfl hx | cons a x => rcases hb with rfl | rfl <;> rcases hb' with rfl | rfl <;> kernel_rfl))
    (all_cons (by intro b b' hb hb' x hx line l; (cases x with | nil => exact absurd rfl hx | cons a x => rcases hb with rfl | rfl <;> rcases hb' with rfl | rfl <;> kernel_rfl))
    (all_cons (by intro b b' hb hb' x hx line l; rcases hb with rfl | rfl <;> rcases hb' with rfl | rfl <;> kernel_rfl)
    (all_cons (by intro b b' hb hb' x hx line l; rcases hb with rfl | rfl <;> rcases hb' with rfl | rfl <;> kernel_rfl)
    (all_cons (by intro b b' hb hb' x hx line l; rcases hb with rfl | rfl <;> rcases hb' with rfl | rfl <;> kernel_rfl)
    (all_cons (by intro b b' hb hb' x hx line l; (cases x with | nil => exact absurd rfl hx | cons a x => rcases hb with rfl | rfl <;> rcases hb' with rfl | rfl <;> kernel_rfl))
    (all_cons (by intro b b' hb hb' x hx line l; (cases x with | nil => exact absurd rfl hx | cons a x => rcases hb with rfl | rfl <;> rcases hb' with rfl | rfl <;> kernel_rfl))
    (all_cons (by intro b b' hb hb' x hx line l; (cases x with | nil => exact absurd rfl hx | cons a x => rcases hb with rfl | rfl <;> rcases hb' with rfl | rfl <;> kernel_rfl))
    (all_cons (by intro b b' hb hb' x hx line l; (cases x with | nil => exact absurd rfl hx | cons a x => rcases hb with rfl | rfl <;> rcases hb' with rfl | rfl <;> kernel_rfl))
    (all_cons (by intro b b' hb hb' x hx line l; rcases hb with rfl | rfl <;> rcases hb' with rfl | rfl <;> kernel_rfl)
    (all_cons (by intro b b' hb hb' x hx line l; rcases hb with rfl | rfl <;> rcases hb' with rfl | rfl <;> kernel_rfl)
    (all_cons (by intro b b' hb hb' x hx line l; rcases hb with rfl | rfl <;> rcases hb' with rfl | rfl <;> kernel_rfl)
    (List.forall_mem_nil _)))))))))))))))))))))))))))))))

theorem obeys_partLines_10 : ∀ v, [Version.F34].contains v = true → Command.Obeys (F34_Partition.cls F29_PartData.cls) partLines v :=
  obeys_of obeys_partLines_10_object [0] [0, 2, 9, 10, 11, 12, 13, 14, 15, 16, 17, 18, 19, 20, 21, 23, 27, 29, 31, 38, 40, 41, 43, 45, 47, 49, 51, 53, 55, 57] (obeys_partLines_10_base _) (all_cons obeys_partLines_10_start (List.forall_mem_nil _)) (obeys_partLines_10_lines _) (by decide +kernel)

def obeys_partLines_11_object (l : Nat) : Ns := [(c!"lineno", .int l), (c!"active", .bool false), (c!"primOnly", .bool false), (c!"end", .int 0), (c!"fstype", .str c!""), (c!"grow", .bool false), (c!"maxSizeMB", .int 0), (c!"format", .bool true), (c!"onbiosdisk", .str c!""), (c!"disk", .str c!""), (c!"onPart", .str c!""), (c!"recommended", .bool false), (c!"size", .int 1), (c!"start", .int 0), (c!"mountpoint", .str c!"/x"), (c!"bytesPerInode", .int 4096), (c!"fsopts", .str c!""), (c!"label", .str c!""), (c!"mntpoint", .list [c!"/x"])]

theorem obeys_partLines_11_base (n : Str) : Command.FirstBase (FC4_Partition.cls FC4_PartData.cls) n [c!"/x", c!"--size=1"] obeys_partLines_11_object := by
  intro b b' hb hb' line l; kernel_rfl

theorem obeys_partLines_11_start : Command.FirstStart (FC4_Partition.cls FC4_PartData.cls) obeys_partLines_11_object (partLines.start.getD 1 ([], [])).2 := fun _ => .inl ⟨fun _ => rfl, (all_cons (by kernel_rfl) (all_cons (by kernel_rfl) (all_cons (by kernel_rfl) (all_cons (by kernel_rfl) (all_cons (by kernel_rfl) (List.forall_mem_nil _))))))⟩

theorem obeys_partLines_11_lines (n : Str) : ∀ i ∈ [21, 23, 26, 28, 30, 32, 41, 60], Command.FirstLine (FC4_Partition.cls FC4_PartData.cls) n [c!"/x", c!"--size=1"] obeys_partLines_11_object (partLines.lines.getD i noLine) :=
  (all_cons (by intro b b' hb hb' x hx line l; (cases x with | nil => exact absurd rfl hx | cons a x => kernel_rfl))
    (all_cons (by intro b b' hb hb' x hx line l; (cases x with | nil => exact absurd rfl hx | cons a x => kernel_rfl))
    (all_cons (by intro b b' hb hb' x hx line l; (cases x with | nil => exact absurd rfl hx | cons a x => kernel_rfl))
    (all_cons (by intro b b' hb hb' x hx line l; (cases x with | nil => exact absurd rfl hx | cons a x => kernel_rfl))
    (all_cons (by intro b b' hb hb' x hx line l; kernel_rfl)
    (all_cons (by intro b b' hb hb' x hx line l; (cases x with | nil => exact absurd rfl hx | cons a x => kernel_rfl))
    (all_cons (by intro b b' hb hb' x hx line l; kernel_rfl)
    (all_cons (by intro b b' hb hb' x hx line l; kernel_rfl)
    (List.forall_mem_nil _)))))))))

theorem obeys_partLines_11 : ∀ v, [Version.FC4, Version.FC5, Version.FC6, Version.F7, Version.F8].contains v = true → Command.Obeys (FC4_Partition.cls FC4_PartData.cls) partLines v :=
  obeys_of obeys_partLines_11_object [1] [21, 23, 26, 28, 30, 32, 41, 60] (obeys_partLines_11_base _) (all_cons obeys_partLines_11_start (List.forall_mem_nil _)) (obeys_partLines_11_lines _) (by decide +kernel)

def obeys_partLines_12_object (l : Nat) : Ns := [(c!"lineno", .int l), (c!"active", .bool false), (c!"primOnly", .bool false), (c!"end", .int 0), (c!"fstype", .str c!""), (c!"grow", .bool false), (c!"maxSizeMB", .int 0), (c!"format", .bool true), (c!"onbiosdisk", .str c!""), (c!"disk", .str c!""), (c!"onPart", .str c!""), (c!"recommended", .bool false), (c!"size", .int 1), (c!"start", .int 0), (c!"mountpoint", .str c!"/x"), (c!"mntpoint", .list [c!"/x"])]

theorem obeys_partLines_12_base (n : Str) : Command.FirstBase (FC3_Partition.cls FC3_PartData.cls) n [c!"/x", c!"--size=1"] obeys_partLines_12_object := by
  intro b b' hb hb' line l; kernel_rfl

theorem obeys_partLines_12_start : Command.FirstStart (FC3_Partition.cls FC3_PartData.cls) obeys_partLines_12_object (partLines.start.getD 0 ([], [])).2 := fun _ => .inl ⟨fun _ => rfl, (all_cons (by kernel_rfl) (all_cons (by kernel_rfl) (all_cons (by kernel_rfl) (all_cons (by kernel_rfl) (List.forall_mem_nil _)))))⟩

theorem obeys_partLines_12_lines (n : Str) : ∀ i ∈ [1, 2, 5, 8, 9, 10, 11, 12, 13, 14, 15, 16, 17, 18, 19, 20, 22, 24, 41, 59], Command.FirstLine (FC3_Partition.cls FC3_PartData.cls) n [c!"/x", c!"--size=1"] obeys_partLines_12_object (partLines.lines.getD i noLine) :=
  (all_cons (by intro b b' hb hb' x hx line l; kernel_rfl)
    (all_cons (by intro b b' hb hb' x hx line l; kernel_rfl)
    (all_cons (by intro b b' hb hb' x hx line l; kernel_rfl)
    (all_cons (by intro b b' hb hb' x hx line l; kernel_rfl)
    (all_cons (by intro b b' hb hb' x hx line l; kernel_rfl)
    (all_cons (by intro b b' hb hb' x hx line l; kernel_rfl)
    (all_cons (by intro b b' hb hb' x hx line l; kernel_rfl)
    (all_cons (by intro b b' hb hb' x hx line l; kernel_rfl)
    (all_cons (by intro b b' hb hb' x hx line l; kernel_rfl)
    (all_cons (by intro b b' hb hb' x hx line l; (cases x with | nil => exact absurd rfl hx | cons a x => kernel_rfl))
    (all_cons (by intro b b' hb hb' x hx line l; (cases x with | nil => exact absurd rfl hx | cons a x => kernel_rfl))
    (all_cons (by intro b b' hb hb' x hx line l; (cases x with | nil => exact absurd rfl hx | cons a x => kernel_rfl))
    (all_cons (by intro b b' hb hb' x hx line l; kernel_rfl)
    (all_cons (by intro b b' hb hb' x hx line l; kernel_rfl)
    (all_cons (by intro b b' hb hb' x hx line l; kernel_rfl)
    (all_cons (by intro b b' hb hb' x hx line l; kernel_rfl)
    (all_cons (by intro b b' hb hb' x hx line l; (cases x with | nil => exact absurd rfl hx | cons a x => kernel_rfl))
    (all_cons (by intro b b' hb hb' x hx line l; (cases x with | nil => exact absurd rfl hx | cons a x => kernel_rfl))
    (all_cons (by intro b b' hb hb' x hx line l; kernel_rfl)
    (all_cons (by intro b b' hb hb' x hx line l; kernel_rfl)
    (List.forall_mem_nil _)))))))))))))))))))))

theorem obeys_partLines_12 : ∀ v, [Version.RHEL3, Version.FC3, Version.RHEL4].contains v = true → Command.Obeys (FC3_Partition.cls FC3_PartData.cls) partLines v :=
  obeys_of obeys_partLines_12_object [0] [1, 2, 5, 8, 9, 10, 11, 12, 13, 14, 15, 16, 17, 18, 19, 20, 22, 24, 41, 59] (obeys_partLines_12_base _) (all_cons obeys_partLines_12_start (List.forall_mem_nil _)) (obeys_partLines_12_lines _) (by decide +kernel)

def obeys_partLines_13_object (l : Nat) : Ns := [(c!"lineno", .int l), (c!"active", .bool false), (c!"primOnly", .bool false), (c!"end", .int 0), (c!"fstype", .str c!""), (c!"grow", .bool false), (c!"maxSizeMB", .int 0), (c!"format", .bool true), (c!"onbiosdisk", .str c!""), (c!"disk", .str c!""), (c!"onPart", .str c!""), (c!"recommended", .bool false), (c!"size", .int 1), (c!"start", .int 0), (c!"mountpoint", .str c!"/x"), (c!"bytesPerInode", .int 4096), (c!"fsopts", .str c!""), (c!"label", .str c!""), (c!"encrypted", .bool false), (c!"passphrase", .str c!""), (c!"mntpoint", .list [c!"/x"])]

theorem obeys_partLines_13_base (n : Str) : Command.FirstBase (RHEL5_Partition.cls RHEL5_PartData.cls) n [c!"/x", c!"--size=1"] obeys_partLines_13_object := by
  intro b b' hb hb' line l; kernel_rfl

theorem obeys_partLines_13_start : Command.FirstStart (RHEL5_Partition.cls RHEL5_PartData.cls) obeys_partLines_13_object (partLines.start.getD 1 ([], [])).2 := fun _ => .inl ⟨fun _ => rfl, (all_cons (by kernel_rfl) (all_cons (by kernel_rfl) (all_cons (by kernel_rfl) (all_cons (by kernel_rfl) (all_cons (by kernel_rfl) (List.forall_mem_nil _))))))⟩

theorem obeys_partLines_13_lines (n : Str) : ∀ i ∈ [29, 31, 41], Command.FirstLine (RHEL5_Partition.cls RHEL5_PartData.cls) n [c!"/x", c!"--size=1"] obeys_partLines_13_object (partLines.lines.getD i noLine) :=
  (all_cons (by intro b b' hb hb' x hx line l; kernel_rfl)
    (all_cons (by intro b b' hb hb' x hx line l; (cases x with | nil => exact absurd rfl hx | cons a x => kernel_rfl))
    (all_cons (by intro b b' hb hb' x hx line l; kernel_rfl)
    (List.forall_mem_nil _))))

theorem obeys_partLines_13 : ∀ v, [Version.RHEL5].contains v = true → Command.Obeys (RHEL5_Partition.cls RHEL5_PartData.cls) partLines v :=
  obeys_of obeys_partLines_13_object [1] [29, 31, 41] (obeys_partLines_13_base _) (all_cons obeys_partLines_13_start (List.forall_mem_nil _)) (obeys_partLines_13_lines _) (by decide +kernel)

def obeys_partLines_14_object (l : Nat) : Ns := [(c!"lineno", .int l), (c!"active", .bool false), (c!"primOnly", .bool false), (c!"fstype", .str c!""), (c!"grow", .bool false), (c!"maxSizeMB", .int 0), (c!"format", .bool true), (c!"onbiosdisk", .str c!""), (c!"disk", .str c!""), (c!"onPart", .str c!""), (c!"recommended", .bool false), (c!"size", .int 1), (c!"mountpoint", .str c!"/x"), (c!"fsopts", .str c!""), (c!"label", .str c!""), (c!"fsprofile", .str c!""), (c!"encrypted", .bool false), (c!"passphrase", .str c!""), (c!"escrowcert", .str c!""), (c!"backuppassphrase", .bool false), (c!"cipher", .str c!""), (c!"hibernation", .bool false), (c!"mntpoint", .list [c!"/x"])]

theorem obeys_partLines_14_base (n : Str) : Command.FirstBase (RHEL6_Partition.cls RHEL6_PartData.cls) n [c!"/x", c!"--size=1"] obeys_partLines_14_object := by
  intro b b' hb hb' line l; kernel_rfl

theorem obeys_partLines_14_start : Command.FirstStart (RHEL6_Partition.cls RHEL6_PartData.cls) obeys_partLines_14_object (partLines.start.getD 0 ([], [])).2 := fun _ => .inl ⟨fun _ => rfl, (all_cons (by kernel_rfl) (all_cons (by kernel_rfl) (all_cons (by kernel_rfl) (all_cons (by kernel_rfl) (List.forall_mem_nil _)))))⟩

theorem obeys_partLines_14_lines (n : Str) : ∀ i ∈ [41, 43, 45], Command.FirstLine (RHEL6_Partition.cls RHEL6_PartData.cls) n [c!"/x", c!"--size=1"] obeys_partLines_14_object (partLines.lines.getD i noLine) :=
  (all_cons (by intro b b' hb hb' x hx line l; kernel_rfl)
    (all_cons (by intro b b' hb hb' x hx line l; kernel_rfl)
    (all_cons (by intro b b' hb hb' x hx line l; (cases x with | nil => exact absurd rfl hx | cons a x => kernel_rfl))
    (List.forall_mem_nil _))))

theorem obeys_partLines_14 : ∀ v, [Version.RHEL6].contains v = true → Command.Obeys (RHEL6_Partition.cls RHEL6_PartData.cls) partLines v :=
  obeys_of obeys_partLines_14_object [0] [41, 43, 45] (obeys_partLines_14_base _) (all_cons obeys_partLines_14_start (List.forall_mem_nil _)) (obeys_partLines_14_lines _) (by decide +kernel)

def obeys_partLines_15_object (l : Nat) : Ns := [(c!"lineno", .int l), (c!"active", .bool false), (c!"primOnly", .bool false), (c!"fstype", .str c!""), (c!"grow", .bool false), (c!"maxSizeMB", .int 0), (c!"format", .bool true), (c!"onbiosdisk", .str c!""), (c!"disk", .str c!""), (c!"onPart", .str c!""), (c!"recommended", .bool false), (c!"size", .int 1), (c!"mountpoint", .str c!"/x"), (c!"fsopts", .str c!""), (c!"label", .str c!""), (c!"fsprofile", .str c!""), (c!"encrypted", .bool false), (c!"passphrase", .str c!""), (c!"escrowcert", .str c!""), (c!"backuppassphrase", .bool false), (c!"resize", .bool false), (c!"hibernation", .bool false), (c!"cipher", .str c!""), (c!"mkfsopts", .str c!""), (c!"mntpoint", .list [c!"/x"])]

theorem obeys_partLines_15_base (n : Str) : Command.FirstBase (RHEL7_Partition.cls RHEL7_PartData.cls) n [c!"/x", c!"--size=1"] obeys_partLines_15_object := by
  intro b b' hb hb' line l; rcases hb with rfl | rfl <;> rcases hb' with rfl | rfl <;> kernel_rfl

theorem obeys_partLines_15_start : Command.FirstStart (RHEL7_Partition.cls RHEL7_PartData.cls) obeys_partLines_15_object (partLines.start.getD 0 ([], [])).2 := fun _ => .inl ⟨fun _ => rfl, (all_cons (by kernel_rfl) (all_cons (by kernel_rfl) (all_cons (by kernel_rfl) (all_cons (by kernel_rfl) (List.forall_mem_nil _)))))⟩

theorem obeys_partLines_15_lines (n : Str) : ∀ i ∈ [41, 47], Command.FirstLine (RHEL7_Partition.cls RHEL7_PartData.cls) n [c!"/x", c!"--size=1"] obeys_partLines_15_object (partLines.lines.getD i noLine) :=
  (all_cons (by intro b b' hb hb' x hx line l; rcases hb with rfl | rfl <;> rcases hb' with rfl | rfl <;> kernel_rfl)
    (all_cons (by intro b b' hb hb' x hx line l; (cases x with | nil => exact absurd rfl hx | cons a x => rcases hb with rfl | rfl <;> rcases hb' with rfl | rfl <;> kernel_rfl))
    (List.forall_mem_nil _)))

theorem obeys_partLines_15 : ∀ v, [Version.RHEL7].contains v = true → Command.Obeys (RHEL7_Partition.cls RHEL7_PartData.cls) partLines v :=
  obeys_of obeys_partLines_15_object [0] [41, 47] (obeys_partLines_15_base _) (all_cons obeys_partLines_15_start (List.forall_mem_nil _)) (obeys_partLines_15_lines _) (by decide +kernel)

def obeys_partLines_16_object (l : Nat) : Ns := [(c!"lineno", .int l), (c!"active", .bool false), (c!"primOnly", .bool false), (c!"fstype", .str c!""), (c!"grow", .bool false), (c!"maxSizeMB", .int 0), (c!"format", .bool true), (c!"onbiosdisk", .str c!""), (c!"disk", .str c!""), (c!"onPart", .str c!""), (c!"recommended", .bool false), (c!"size", .int 1), (c!"mountpoint", .str c!"/x"), (c!"fsopts", .str c!""), (c!"label", .str c!""), (c!"fsprofile", .str c!""), (c!"encrypted", .bool false), (c!"passphrase", .str c!""), (c!"escrowcert", .str c!""), (c!"backuppassphrase", .bool false), (c!"resize", .bool false), (c!"hibernation", .bool false), (c!"cipher", .str c!""), (c!"mkfsopts", .str c!""), (c!"luks_version", .str c!""), (c!"pbkdf", .str c!""), (c!"pbkdf_memory", .int 0), (c!"pbkdf_time", .int 0), (c!"pbkdf_iterations", .int 0), (c!"mntpoint", .list [c!"/x"])]

theorem obeys_partLines_16_base (n : Str) : Command.FirstBase (RHEL8_Partition.cls RHEL8_PartData.cls) n [c!"/x", c!"--size=1"] obeys_partLines_16_object := by
  intro b b' hb hb' line l; rcases hb with rfl | rfl <;> rcases hb' with rfl | rfl <;> kernel_rfl

theorem obeys_partLines_16_start : Command.FirstStart (RHEL8_Partition.cls RHEL8_PartData.cls) obeys_partLines_16_object (partLines.start.getD 0 ([], [])).2 := fun _ => .inl ⟨fun _ => rfl, (all_cons (by kernel_rfl) (all_cons (by kernel_rfl) (all_cons (by kernel_rfl) (all_cons (by kernel_rfl) (List.forall_mem_nil _)))))⟩

theorem obeys_partLines_16_lines (n : Str) : ∀ i ∈ [41, 49, 51, 53, 55, 57], Command.FirstLine (RHEL8_Partition.cls RHEL8_PartData.cls) n [c!"/x", c!"--size=1"] obeys_partLines_16_object (partLines.lines.getD i noLine) :=
  (all_cons (by intro b b' hb hb' x hx line l; rcases hb with rfl | rfl <;> rcases hb' with rfl | rfl <;> kernel_rfl)
    (all_cons (by intro b b' hb hb' x hx line l; (cases x with | nil => exact absurd rfl hx | cons a x => rcases hb with rfl | rfl <;> rcases hb' with rfl | rfl <;> kernel_rfl))
    (all_cons (by intro b b' hb hb' x hx line l; (cases x with | nil => exact absurd rfl hx | cons a x => rcases hb with rfl | rfl <;> rcases hb' with rfl | rfl <;> kernel_rfl))
    (all_cons (by intro b b' hb hb' x hx line l; rcases hb with rfl | rfl <;> rcases hb' with rfl | rfl <;> kernel_rfl)
    (all_cons (by intro b b' hb hb' x hx line l; rcases hb with rfl | rfl <;> rcases hb' with rfl | rfl <;> kernel_rfl)
    (all_cons (by intro b b' hb hb' x hx line l; rcases hb with rfl | rfl <;> rcases hb' with rfl | rfl <;> kernel_rfl)
    (List.forall_mem_nil _)))))))

theorem obeys_partLines_16 : ∀ v, [Version.RHEL8].contains v = true → Command.Obeys (RHEL8_Partition.cls RHEL8_PartData.cls) partLines v :=
  obeys_of obeys_partLines_16_object [0] [41, 49, 51, 53, 55, 57] (obeys_partLines_16_base _) (all_cons obeys_partLines_16_start (List.forall_mem_nil _)) (obeys_partLines_16_lines _) (by decide +kernel)

theorem obeys_partLines : partLines.Obeyed := by
  unfold CommandLines.Obeyed commandMaps
  exact (all_cons (fun _ c h => by cases h; exact obeys_partLines_0 _ rfl)
    (all_cons (fun _ c h => by cases h; exact obeys_partLines_1 _ rfl)
    (all_cons (fun _ c h => by cases h; exact obeys_partLines_2 _ rfl)
    (all_cons (fun _ c h => by cases h; exact obeys_partLines_2 _ rfl)
    (all_cons (fun _ c h => by cases h; exact obeys_partLines_3 _ rfl)
    (all_cons (fun _ c h => by cases h; exact obeys_partLines_3 _ rfl)
    (all_cons (fun _ c h => by cases h; exact obeys_partLines_4 _ rfl)
    (all_cons (fun _ c h => by cases h; exact obeys_partLines_5 _ rfl)
    (all_cons (fun _ c h => by cases h; exact obeys_partLines_6 _ rfl)
    (all_cons (fun _ c h => by cases h; exact obeys_partLines_6 _ rfl)
    (all_cons (fun _ c h => by cases h; exact obeys_partLines_7 _ rfl)
    (all_cons (fun _ c h => by cases h; exact obeys_partLines_7 _ rfl)
    (all_cons (fun _ c h => by cases h; exact obeys_partLines_7 _ rfl)
    (all_cons (fun _ c h => by cases h; exact obeys_partLines_8 _ rfl)
    (all_cons (fun _ c h => by cases h; exact obeys_partLines_8 _ rfl)
    (all_cons (fun _ c h => by cases h; exact obeys_partLines_8 _ rfl)
    (all_cons (fun _ c h => by cases h; exact obeys_partLines_8 _ rfl)
    (all_cons (fun _ c h => by cases h; exact obeys_partLines_8 _ rfl)
    (all_cons (fun _ c h => by cases h; exact obeys_partLines_8 _ rfl)
    (all_cons (fun _ c h => by cases h; exact obeys_partLines_9 _ rfl)
    (all_cons (fun _ c h => by cases h; exact obeys_partLines_9 _ rfl)
    (all_cons (fun _ c h => by cases h; exact obeys_partLines_9 _ rfl)
    (all_cons (fun _ c h => by cases h; exact obeys_partLines_9 _ rfl)
    (all_cons (fun _ c h => by cases h; exact obeys_partLines_9 _ rfl)
    (all_cons (fun _ c h => by cases h; exact obeys_partLines_10 _ rfl)
    (all_cons (fun _ c h => by cases h; exact obeys_partLines_11 _ rfl)
    (all_cons (fun _ c h => by cases h; exact obeys_partLines_11 _ rfl)
    (all_cons (fun _ c h => by cases h; exact obeys_partLines_0 _ rfl)
    (all_cons (fun _ c h => by cases h; exact obeys_partLines_12 _ rfl)
    (all_cons (fun _ c h => by cases h; exact obeys_partLines_11 _ rfl)
    (all_cons (fun _ c h => by cases h; exact obeys_partLines_11 _ rfl)
    (all_cons (fun _ c h => by cases h; exact obeys_partLines_11 _ rfl)
    (all_cons (fun _ c h => by cases h; exact obeys_partLines_12 _ rfl)
    (all_cons (fun _ c h => by cases h; exact obeys_partLines_12 _ rfl)
    (all_cons (fun _ c h => by cases h; exact obeys_partLines_13 _ rfl)
    (all_cons (fun _ c h => by cases h; exact obeys_partLines_14 _ rfl)
    (all_cons (fun _ c h => by cases h; exact obeys_partLines_15 _ rfl)
    (all_cons (fun _ c h => by cases h; exact obeys_partLines_16 _ rfl) (List.forall_mem_nil _)))))))))))))))))))))))))))))))))))))))

def obeys_partLines2_0_object (l : Nat) : Ns := [(c!"lineno", .int l), (c!"active", .bool false), (c!"primOnly", .bool false), (c!"end", .int 0), (c!"fstype", .str c!""), (c!"grow", .bool false), (c!"maxSizeMB", .int 0), (c!"format", .bool true), (c!"onbiosdisk", .str c!""), (c!"disk", .str c!""), (c!"onPart", .str c!"sda1"), (c!"recommended", .bool false), (c!"size", .int 1), (c!"start", .int 0), (c!"mountpoint", .str c!"/x"), (c!"fsopts", .str c!""), (c!"label", .str c!""), (c!"fsprofile", .str c!""), (c!"encrypted", .bool false), (c!"passphrase", .str c!""), (c!"mntpoint", .list [c!"/x"])]

theorem obeys_partLines2_0_base (n : Str) : Command.FirstBase (F9_Partition.cls F9_PartData.cls) n [c!"/x", c!"--onpart=sda1", c!"--size=1"] obeys_partLines2_0_object := by
  intro b b' hb hb' line l; kernel_rfl

theorem obeys_partLines2_0_start : Command.FirstStart (F9_Partition.cls F9_PartData.cls) obeys_partLines2_0_object (partLines2.start.getD 0 ([], [])).2 := fun _ => .inl ⟨fun _ => rfl, (all_cons (by kernel_rfl) (all_cons (by kernel_rfl) (all_cons (by kernel_rfl) (all_cons (by kernel_rfl) (all_cons (by kernel_rfl) (List.forall_mem_nil _))))))⟩

theorem obeys_partLines2_0_lines (n : Str) : ∀ i ∈ [], Command.FirstLine (F9_Partition.cls F9_PartData.cls) n [c!"/x", c!"--onpart=sda1", c!"--size=1"] obeys_partLines2_0_object (partLines2.lines.getD i noLine) :=
  (List.forall_mem_nil _)

theorem obeys_partLines2_0 : ∀ v, [Version.F9, Version.F10].contains v = true → Command.Obeys (F9_Partition.cls F9_PartData.cls) partLines2 v :=
  obeys_of obeys_partLines2_0_object [0] [] (obeys_partLines2_0_base _) (all_cons obeys_partLines2_0_start (List.forall_mem_nil _)) (obeys_partLines2_0_lines _) (by decide +kernel)

def obeys_partLines2_1_object (l : Nat) : Ns := [(c!"lineno", .int l), (c!"active", .bool false), (c!"primOnly", .bool false), (c!"fstype", .str c!""), (c!"grow", .bool false), (c!"maxSizeMB", .int 0), (c!"format", .bool true), (c!"onbiosdisk", .str c!""), (c!"disk", .str c!""), (c!"onPart", .str c!"sda1"), (c!"recommended", .bool false), (c!"size", .int 1), (c!"mountpoint", .str c!"/x"), (c!"fsopts", .str c!""), (c!"label", .str c!""), (c!"fsprofile", .str c!""), (c!"encrypted", .bool false), (c!"passphrase", .str c!""), (c!"mntpoint", .list [c!"/x"])]

theorem obeys_partLines2_1_base (n : Str) : Command.FirstBase (F11_Partition.cls F11_PartData.cls) n [c!"/x", c!"--onpart=sda1", c!"--size=1"] obeys_partLines2_1_object := by
  intro b b' hb hb' line l; kernel_rfl

theorem obeys_partLines2_1_start : Command.FirstStart (F11_Partition.cls F11_PartData.cls) obeys_partLines2_1_object (partLines2.start.getD 0 ([], [])).2 := fun _ => .inl ⟨fun _ => rfl, (all_cons (by kernel_rfl) (all_cons (by kernel_rfl) (all_cons (by kernel_rfl) (all_cons (by kernel_rfl) (all_cons (by kernel_rfl) (List.forall_mem_nil _))))))⟩

theorem obeys_partLines2_1_lines (n : Str) : ∀ i ∈ [], Command.FirstLine (F11_Partition.cls F11_PartData.cls) n [c!"/x", c!"--onpart=sda1", c!"--size=1"] obeys_partLines2_1_object (partLines2.lines.getD i noLine) :=
  (List.forall_mem_nil _)

theorem obeys_partLines2_1 : ∀ v, [Version.F11].contains v = true → Command.Obeys (F11_Partition.cls F11_PartData.cls) partLines2 v :=
  obeys_of obeys_partLines2_1_object [0] [] (obeys_partLines2_1_base _) (all_cons obeys_partLines2_1_start (List.forall_mem_nil _)) (obeys_partLines2_1_lines _) (by decide +kernel)

def obeys_partLines2_2_object (l : Nat) : Ns := [(c!"lineno", .int l), (c!"active", .bool false), (c!"primOnly", .bool false), (c!"fstype", .str c!""), (c!"grow", .bool false), (c!"maxSizeMB", .int 0), (c!"format", .bool true), (c!"onbiosdisk", .str c!""), (c!"disk", .str c!""), (c!"onPart", .str c!"sda1"), (c!"recommended", .bool false), (c!"size", .int 1), (c!"mountpoint", .str c!"/x"), (c!"fsopts", .str c!""), (c!"label", .str c!""), (c!"fsprofile", .str c!""), (c!"encrypted", .bool false), (c!"passphrase", .str c!""), (c!"escrowcert", .str c!""), (c!"backuppassphrase", .bool false), (c!"mntpoint", .list [c!"/x"])]

theorem obeys_partLines2_2_base (n : Str) : Command.FirstBase (F12_Partition.cls F12_PartData.cls) n [c!"/x", c!"--onpart=sda1", c!"--size=1"] obeys_partLines2_2_object := by
  intro b b' hb hb' line l; kernel_rfl

theorem obeys_partLines2_2_start : Command.FirstStart (F12_Partition.cls F12_PartData.cls) obeys_partLines2_2_object (partLines2.start.getD 0 ([], [])).2 := fun _ => .inl ⟨fun _ => rfl, (all_cons (by kernel_rfl) (all_cons (by kernel_rfl) (all_cons (by kernel_rfl) (all_cons (by kernel_rfl) (all_cons (by kernel_rfl) (List.forall_mem_nil _))))))⟩

theorem obeys_partLines2_2_lines (n : Str) : ∀ i ∈ [], Command.FirstLine (F12_Partition.cls F12_PartData.cls) n [c!"/x", c!"--onpart=sda1", c!"--size=1"] obeys_partLines2_2_object (partLines2.lines.getD i noLine) :=
  (List.forall_mem_nil _)

theorem obeys_partLines2_2 : ∀ v, [Version.F12, Version.F13].contains v = true → Command.Obeys (F12_Partition.cls F12_PartData.cls) partLines2 v :=
  obeys_of obeys_partLines2_2_object [0] [] (obeys_partLines2_2_base _) (all_cons obeys_partLines2_2_start (List.forall_mem_nil _)) (obeys_partLines2_2_lines _) (by decide +kernel)

def obeys_partLines2_3_object (l : Nat) : Ns := [(c!"lineno", .int l), (c!"active", .bool false), (c!"primOnly", .bool false), (c!"fstype", .str c!""), (c!"grow", .bool false), (c!"maxSizeMB", .int 0), (c!"format", .bool true), (c!"onbiosdisk", .str c!""), (c!"disk", .str c!""), (c!"onPart", .str c!"sda1"), (c!"recommended", .bool false), (c!"size", .int 1), (c!"mountpoint", .str c!"/x"), (c!"fsopts", .str c!""), (c!"label", .str c!""), (c!"fsprofile", .str c!""), (c!"encrypted", .bool false), (c!"passphrase", .str c!""), (c!"escrowcert", .str c!""), (c!"backuppassphrase", .bool false), (c!"mntpoint", .list [c!"/x"])]

theorem obeys_partLines2_3_base (n : Str) : Command.FirstBase (F14_Partition.cls F14_PartData.cls) n [c!"/x", c!"--onpart=sda1", c!"--size=1"] obeys_partLines2_3_object := by
  intro b b' hb hb' line l; kernel_rfl

theorem obeys_partLines2_3_start : Command.FirstStart (F14_Partition.cls F14_PartData.cls) obeys_partLines2_3_object (partLines2.start.getD 0 ([], [])).2 := fun _ => .inl ⟨fun _ => rfl, (all_cons (by kernel_rfl) (all_cons (by kernel_rfl) (all_cons (by kernel_rfl) (all_cons (by kernel_rfl) (all_cons (by kernel_rfl) (List.forall_mem_nil _))))))⟩

theorem obeys_partLines2_3_lines (n : Str) : ∀ i ∈ [], Command.FirstLine (F14_Partition.cls F14_PartData.cls) n [c!"/x", c!"--onpart=sda1", c!"--size=1"] obeys_partLines2_3_object (partLines2.lines.getD i noLine) :=
  (List.forall_mem_nil _)

theorem obeys_partLines2_3 : ∀ v, [Version.F14, Version.F15].contains v = true → Command.Obeys (F14_Partition.cls F14_PartData.cls) partLines2 v :=
  obeys_of obeys_partLines2_3_object [0] [] (obeys_partLines2_3_base _) (all_cons obeys_partLines2_3_start (List.forall_mem_nil _)) (obeys_partLines2_3_lines _) (by decide +kernel)

def obeys_partLines2_4_object (l : Nat) : Ns := [(c!"lineno", .int l), (c!"active", .bool false), (c!"primOnly", .bool false), (c!"fstype", .str c!""), (c!"grow", .bool false), (c!"maxSizeMB", .int 0), (c!"format", .bool true), (c!"onbiosdisk", .str c!""), (c!"disk", .str c!""), (c!"onPart", .str c!"sda1"), (c!"recommended", .bool false), (c!"size", .int 1), (c!"mountpoint", .str c!"/x"), (c!"fsopts", .str c!""), (c!"label", .str c!""), (c!"fsprofile", .str c!""), (c!"encrypted", .bool false), (c!"passphrase", .str c!""), (c!"escrowcert", .str c!""), (c!"backuppassphrase", .bool false), (c!"resize", .bool false), (c!"mntpoint", .list [c!"/x"])]

theorem obeys_partLines2_4_base (n : Str) : Command.FirstBase (F14_Partition.cls F17_PartData.cls) n [c!"/x", c!"--onpart=sda1", c!"--size=1"] obeys_partLines2_4_object := by
  intro b b' hb hb' line l; kernel_rfl

theorem obeys_partLines2_4_start : Command.FirstStart (F14_Partition.cls F17_PartData.cls) obeys_partLines2_4_object (partLines2.start.getD 0 ([], [])).2 := fun _ => .inl ⟨fun _ => rfl, (all_cons (by kernel_rfl) (all_cons (by kernel_rfl) (all_cons (by kernel_rfl) (all_cons (by kernel_rfl) (all_cons (by kernel_rfl) (List.forall_mem_nil _))))))⟩

theorem obeys_partLines2_4_lines (n : Str) : ∀ i ∈ [0], Command.FirstLine (F14_Partition.cls F17_PartData.cls) n [c!"/x", c!"--onpart=sda1", c!"--size=1"] obeys_partLines2_4_object (partLines2.lines.getD i noLine) :=
  (all_cons (by intro b b' hb hb' x hx line l; kernel_rfl)
    (List.forall_mem_nil _))

theorem obeys_partLines2_4 : ∀ v, [Version.F16].contains v = true → Command.Obeys (F14_Partition.cls F17_PartData.cls) partLines2 v :=
  obeys_of obeys_partLines2_4_object [0] [0] (obeys_partLines2_4_base _) (all_cons obeys_partLines2_4_start (List.forall_mem_nil _)) (obeys_partLines2_4_lines _) (by decide +kernel)

def obeys_partLines2_5_object (l : Nat) : Ns := [(c!"lineno", .int l), (c!"active", .bool false), (c!"primOnly", .bool false), (c!"fstype", .str c!""), (c!"grow", .bool false), (c!"maxSizeMB", .int 0), (c!"format", .bool true), (c!"onbiosdisk", .str c!""), (c!"disk", .str c!""), (c!"onPart", .str c!"sda1"), (c!"recommended", .bool false), (c!"size", .int 1), (c!"mountpoint", .str c!"/x"), (c!"fsopts", .str c!""), (c!"label", .str c!""), (c!"fsprofile", .str c!""), (c!"encrypted", .bool false), (c!"passphrase", .str c!""), (c!"escrowcert", .str c!""), (c!"backuppassphrase", .bool false), (c!"resize", .bool false), (c!"mntpoint", .list [c!"/x"])]

theorem obeys_partLines2_5_base (n : Str) : Command.FirstBase (F17_Partition.cls F17_PartData.cls) n [c!"/x", c!"--onpart=sda1", c!"--size=1"] obeys_partLines2_5_object := by
  intro b b' hb hb' line l; kernel_rfl

theorem obeys_partLines2_5_start : Command.FirstStart (F17_Partition.cls F17_PartData.cls) obeys_partLines2_5_object (partLines2.start.getD 0 ([], [])).2 := fun _ => .inl ⟨fun _ => rfl, (all_cons (by kernel_rfl) (all_cons (by kernel_rfl) (all_cons (by kernel_rfl) (all_cons (by kernel_rfl) (all_cons (by kernel_rfl) (List.forall_mem_nil _))))))⟩

theorem obeys_partLines2_5_lines (n : Str) : ∀ i ∈ [1], Command.FirstLine (F17_Partition.cls F17_PartData.cls) n [c!"/x", c!"--onpart=sda1", c!"--size=1"] obeys_partLines2_5_object (partLines2.lines.getD i noLine) :=
  (all_cons (by intro b b' hb hb' x hx line l; kernel_rfl)
    (List.forall_mem_nil _))

theorem obeys_partLines2_5 : ∀ v, [Version.F17].contains v = true → Command.Obeys (F17_Partition.cls F17_PartData.cls) partLines2 v :=
  obeys_of obeys_partLines2_5_object [0] [1] (obeys_partLines2_5_base _) (all_cons obeys_partLines2_5_start (List.forall_mem_nil _)) (obeys_partLines2_5_lines _) (by decide +kernel)

def obeys_partLines2_6_object (l : Nat) : Ns := [(c!"lineno", .int l), (c!"active", .bool false), (c!"primOnly", .bool false), (c!"fstype", .str c!""), (c!"grow", .bool false), (c!"maxSizeMB", .int 0), (c!"format", .bool true), (c!"onbiosdisk", .str c!""), (c!"disk", .str c!""), (c!"onPart", .str c!"sda1"), (c!"recommended", .bool false), (c!"size", .int 1), (c!"mountpoint", .str c!"/x"), (c!"fsopts", .str c!""), (c!"label", .str c!""), (c!"fsprofile", .str c!""), (c!"encrypted", .bool false), (c!"passphrase", .str c!""), (c!"escrowcert", .str c!""), (c!"backuppassphrase", .bool false), (c!"resize", .bool false), (c!"hibernation", .bool false), (c!"cipher", .str c!""), (c!"mntpoint", .list [c!"/x"])]

theorem obeys_partLines2_6_base (n : Str) : Command.FirstBase (F18_Partition.cls F18_PartData.cls) n [c!"/x", c!"--onpart=sda1", c!"--size=1"] obeys_partLines2_6_object := by
  intro b b' hb hb' line l; kernel_rfl

theorem obeys_partLines2_6_start : Command.FirstStart (F18_Partition.cls F18_PartData.cls) obeys_partLines2_6_object (partLines2.start.getD 0 ([], [])).2 := fun _ => .inl ⟨fun _ => rfl, (all_cons (by kernel_rfl) (all_cons (by kernel_rfl) (all_cons (by kernel_rfl) (all_cons (by kernel_rfl) (all_cons (by kernel_rfl) (List.forall_mem_nil _))))))⟩

theorem obeys_partLines2_6_lines (n : Str) : ∀ i ∈ [], Command.FirstLine (F18_Partition.cls F18_PartData.cls) n [c!"/x", c!"--onpart=sda1", c!"--size=1"] obeys_partLines2_6_object (partLines2.lines.getD i noLine) :=
  (List.forall_mem_nil _)

theorem obeys_partLines2_6 : ∀ v, [Version.F18, Version.F19].contains v = true → Command.Obeys (F18_Partition.cls F18_PartData.cls) partLines2 v :=
  obeys_of obeys_partLines2_6_object [0] [] (obeys_partLines2_6_base _) (all_cons obeys_partLines2_6_start (List.forall_mem_nil _)) (obeys_partLines2_6_lines _) (by decide +kernel)

def obeys_partLines2_7_object (l : Nat) : Ns := [(c!"lineno", .int l), (c!"active", .bool false), (c!"primOnly", .bool false), (c!"fstype", .str c!""), (c!"grow", .bool false), (c!"maxSizeMB", .int 0), (c!"format", .bool true), (c!"onbiosdisk", .str c!""), (c!"disk", .str c!""), (c!"onPart", .str c!"sda1"), (c!"recommended", .bool false), (c!"size", .int 1), (c!"mountpoint", .str c!"/x"), (c!"fsopts", .str c!""), (c!"label", .str c!""), (c!"fsprofile", .str c!""), (c!"encrypted", .bool false), (c!"passphrase", .str c!""), (c!"escrowcert", .str c!""), (c!"backuppassphrase", .bool false), (c!"resize", .bool false), (c!"hibernation", .bool false), (c!"cipher", .str c!""), (c!"mntpoint", .list [c!"/x"])]

theorem obeys_partLines2_7_base (n : Str) : Command.FirstBase (F20_Partition.cls F18_PartData.cls) n [c!"/x", c!"--onpart=sda1", c!"--size=1"] obeys_partLines2_7_object := by
  intro b b' hb hb' line l; rcases hb with rfl | rfl <;> rcases hb' with rfl | rfl <;> kernel_rfl

theorem obeys_partLines2_7_start : Command.FirstStart (F20_Partition.cls F18_PartData.cls) obeys_partLines2_7_object (partLines2.start.getD 0 ([], [])).2 := fun _ => .inl ⟨fun _ => rfl, (all_cons (by kernel_rfl) (all_cons (by kernel_rfl) (all_cons (by kernel_rfl) (all_cons (by kernel_rfl) (all_cons (by kernel_rfl) (List.forall_mem_nil _))))))⟩

theorem obeys_partLines2_7_lines (n : Str) : ∀ i ∈ [], Command.FirstLine (F20_Partition.cls F18_PartData.cls) n [c!"/x", c!"--onpart=sda1", c!"--size=1"] obeys_partLines2_7_object (partLines2.lines.getD i noLine) :=
  (List.forall_mem_nil _)

theorem obeys_partLines2_7 : ∀ v, [Version.F20, Version.F21, Version.F22].contains v = true → Command.Obeys (F20_Partition.cls F18_PartData.cls) partLines2 v :=
  obeys_of obeys_partLines2_7_object [0] [] (obeys_partLines2_7_base _) (all_cons obeys_partLines2_7_start (List.forall_mem_nil _)) (obeys_partLines2_7_lines _) (by decide +kernel)

def obeys_partLines2_8_object (l : Nat) : Ns := [(c!"lineno", .int l), (c!"active", .bool false), (c!"primOnly", .bool false), (c!"fstype", .str c!""), (c!"grow", .bool false), (c!"maxSizeMB", .int 0), (c!"format", .bool true), (c!"onbiosdisk", .str c!""), (c!"disk", .str c!""), (c!"onPart", .str c!"sda1"), (c!"recommended", .bool false), (c!"size", .int 1), (c!"mountpoint", .str c!"/x"), (c!"fsopts", .str c!""), (c!"label", .str c!""), (c!"fsprofile", .str c!""), (c!"encrypted", .bool false), (c!"passphrase", .str c!""), (c!"escrowcert", .str c!""), (c!"backuppassphrase", .bool false), (c!"resize", .bool false), (c!"hibernation", .bool false), (c!"cipher", .str c!""), (c!"mkfsopts", .str c!""), (c!"mntpoint", .list [c!"/x"])]

theorem obeys_partLines2_8_base (n : Str) : Command.FirstBase (F23_Partition.cls F23_PartData.cls) n [c!"/x", c!"--onpart=sda1", c!"--size=1"] obeys_partLines2_8_object := by
  intro b b' hb hb' line l; rcases hb with rfl | rfl <;> rcases hb' with rfl | rfl <;> kernel_rfl

theorem obeys_partLines2_8_start : Command.FirstStart (F23_Partition.cls F23_PartData.cls) obeys_partLines2_8_object (partLines2.start.getD 0 ([], [])).2 := fun _ => .inl ⟨fun _ => rfl, (all_cons (by kernel_rfl) (all_cons (by kernel_rfl) (all_cons (by kernel_rfl) (all_cons (by kernel_rfl) (all_cons (by kernel_rfl) (List.forall_mem_nil _))))))⟩

theorem obeys_partLines2_8_lines (n : Str) : ∀ i ∈ [], Command.FirstLine (F23_Partition.cls F23_PartData.cls) n [c!"/x", c!"--onpart=sda1", c!"--size=1"] obeys_partLines2_8_object (partLines2.lines.getD i noLine) :=
  (List.forall_mem_nil _)

theorem obeys_partLines2_8 : ∀ v, [Version.F23, Version.F24, Version.F25, Version.F26, Version.F27, Version.F28].contains v = true → Command.Obeys (F23_Partition.cls F23_PartData.cls) partLines2 v :=
  obeys_of obeys_partLines2_8_object [0] [] (obeys_partLines2_8_base _) (all_cons obeys_partLines2_8_start (List.forall_mem_nil _)) (obeys_partLines2_8_lines _) (by decide +kernel)

def obeys_partLines2_9_object (l : Nat) : Ns := [(c!"lineno", .int l), (c!"active", .bool false), (c!"primOnly", .bool false), (c!"fstype", .str c!""), (c!"grow", .bool false), (c!"maxSizeMB", .int 0), (c!"format", .bool true), (c!"onbiosdisk", .str c!""), (c!"disk", .str c!""), (c!"onPart", .str c!"sda1"), (c!"recommended", .bool false), (c!"size", .int 1), (c!"mountpoint", .str c!"/x"), (c!"fsopts", .str c!""), (c!"label", .str c!""), (c!"fsprofile", .str c!""), (c!"encrypted", .bool false), (c!"passphrase", .str c!""), (c!"escrowcert", .str c!""), (c!"backuppassphrase", .bool false), (c!"resize", .bool false), (c!"hibernation", .bool false), (c!"cipher", .str c!""), (c!"mkfsopts", .str c!""), (c!"luks_version", .str c!""), (c!"pbkdf", .str c!""), (c!"pbkdf_memory", .int 0), (c!"pbkdf_time", .int 0), (c!"pbkdf_iterations", .int 0), (c!"mntpoint", .list [c!"/x"])]

theorem obeys_partLines2_9_base (n : Str) : Command.FirstBase (F29_Partition.cls F29_PartData.cls) n [c!"/x", c!"--onpart=sda1", c!"--size=1"] obeys_partLines2_9_object := by
  intro b b' hb hb' line l; rcases hb with rfl | rfl <;> rcases hb' with rfl | rfl <;> kernel_rfl

theorem obeys_partLines2_9_start : Command.FirstStart (F29_Partition.cls F29_PartData.cls) obeys_partLines2_9_object (partLines2.start.getD 0 ([], [])).2 := fun _ => .inl ⟨fun _ => rfl, (all_cons (by kernel_rfl) (all_cons (by kernel_rfl) (all_cons (by kernel_rfl) (all_cons (by kernel_rfl) (all_cons (by kernel_rfl) (List.forall_mem_nil _))))))⟩

theorem obeys_partLines2_9_lines (n : Str) : ∀ i ∈ [], Command.FirstLine (F29_Partition.cls F29_PartData.cls) n [c!"/x", c!"--onpart=sda1", c!"--size=1"] obeys_partLines2_9_object (partLines2.lines.getD i noLine) :=
  (List.forall_mem_nil _)

theorem obeys_partLines2_9 : ∀ v, [Version.F29, Version.F30, Version.F31, Version.F32, Version.F33].contains v = true → Command.Obeys (F29_Partition.cls F29_PartData.cls) partLines2 v :=
  obeys_of obeys_partLines2_9_object [0] [] (obeys_partLines2_9_base _) (all_cons obeys_partLines2_9_start (List.forall_mem_nil _)) (obeys_partLines2_9_lines _) (by decide +kernel)

def obeys_partLines2_10_object (l : Nat) : Ns := [(c!"lineno", .int l), (c!"active", .bool false), (c!"primOnly", .bool false), (c!"fstype", .str c!""), (c!"grow", .bool false), (c!"maxSizeMB", .int 0), (c!"format", .bool true), (c!"onbiosdisk", .str c!""), (c!"disk", .str c!""), (c!"onPart", .str c!"sda1"), (c!"recommended", .bool false), (c!"size", .int 1), (c!"mountpoint", .str c!"/x"), (c!"fsopts", .str c!""), (c!"label", .str c!""), (c!"fsprofile", .str c!""), (c!"encrypted", .bool false), (c!"passphrase", .str c!""), (c!"escrowcert", .str c!""), (c!"backuppassphrase", .bool false), (c!"resize", .bool false), (c!"hibernation", .bool false), (c!"cipher", .str c!""), (c!"mkfsopts", .str c!""), (c!"luks_version", .str c!""), (c!"pbkdf", .str c!""), (c!"pbkdf_memory", .int 0), (c!"pbkdf_time", .int 0), (c!"pbkdf_iterations", .int 0), (c!"mntpoint", .list [c!"/x"])]

theorem obeys_partLines2_10_base (n : Str) : Command.FirstBase (F34_Partition.cls F29_PartData.cls) n [c!"/x", c!"--onpart=sda1", c!"--size=1"] obeys_partLines2_10_object := by
  intro b b' hb hb' line l; rcases hb with rfl | rfl <;> rcases hb' with rfl | rfl <;> kernel_rfl

theorem obeys_partLines2_10_start : Command.FirstStart (F34_Partition.cls F29_PartData.cls) obeys_partLines2_10_object (partLines2.start.getD 0 ([], [])).2 := fun _ => .inl ⟨fun _ => rfl, (all_cons (by kernel_rfl) (all_cons (by kernel_rfl) (all_cons (by kernel_rfl) (all_cons (by kernel_rfl) (all_cons (by kernel_rfl) (List.forall_mem_nil _))))))⟩

theorem obeys_partLines2_10_lines (n : Str) : ∀ i ∈ [1, 2], Command.FirstLine (F34_Partition.cls F29_PartData.cls) n [c!"/x", c!"--onpart=sda1", c!"--size=1"] obeys_partLines2_10_object (partLines2.lines.getD i noLine) :=
  (all_cons (by intro b b' hb hb' x hx line l; rcases hb with rfl | rfl <;> rcases hb' with rfl | rfl <;> kernel_rfl)
    (all_cons (by intro b b' hb hb' x hx line l; rcases hb with rfl | rfl <;> rcases hb' with rfl | rfl <;> kernel_rfl)
    (List.forall_mem_nil _)))

theorem obeys_partLines2_10 : ∀ v, [Version.F34].contains v = true → Command.Obeys (F34_Partition.cls F29_PartData.cls) partLines2 v :=
  obeys_of obeys_partLines2_10_object [0] [1, 2] (obeys_partLines2_10_base _) (all_cons obeys_partLines2_10_start (List.forall_mem_nil _)) (obeys_partLines2_10_lines _) (by decide +kernel)

def obeys_partLines2_11_object (l : Nat) : Ns := [(c!"lineno", .int l), (c!"active", .bool false), (c!"primOnly", .bool false), (c!"end", .int 0), (c!"fstype", .str c!""), (c!"grow", .bool false), (c!"maxSizeMB", .int 0), (c!"format", .bool true), (c!"onbiosdisk", .str c!""), (c!"disk", .str c!""), (c!"onPart", .str c!"sda1"), (c!"recommended", .bool false), (c!"size", .int 1), (c!"start", .int 0), (c!"mountpoint", .str c!"/x"), (c!"bytesPerInode", .int 4096), (c!"fsopts", .str c!""), (c!"label", .str c!""), (c!"mntpoint", .list [c!"/x"])]

theorem obeys_partLines2_11_base (n : Str) : Command.FirstBase (FC4_Partition.cls FC4_PartData.cls) n [c!"/x", c!"--onpart=sda1", c!"--size=1"] obeys_partLines2_11_object := by
  intro b b' hb hb' line l; kernel_rfl

theorem obeys_partLines2_11_start : Command.FirstStart (FC4_Partition.cls FC4_PartData.cls) obeys_partLines2_11_object (partLines2.start.getD 1 ([], [])).2 := fun _ => .inl ⟨fun _ => rfl, (all_cons (by kernel_rfl) (all_cons (by kernel_rfl) (all_cons (by kernel_rfl) (all_cons (by kernel_rfl) (all_cons (by kernel_rfl) (all_cons (by kernel_rfl) (List.forall_mem_nil _)))))))⟩

theorem obeys_partLines2_11_lines (n : Str) : ∀ i ∈ [], Command.FirstLine (FC4_Partition.cls FC4_PartData.cls) n [c!"/x", c!"--onpart=sda1", c!"--size=1"] obeys_partLines2_11_object (partLines2.lines.getD i noLine) :=
  (List.forall_mem_nil _)

theorem obeys_partLines2_11 : ∀ v, [Version.FC4, Version.FC5, Version.FC6, Version.F7, Version.F8].contains v = true → Command.Obeys (FC4_Partition.cls FC4_PartData.cls) partLines2 v :=
  obeys_of obeys_partLines2_11_object [1] [] (obeys_partLines2_11_base _) (all_cons obeys_partLines2_11_start (List.forall_mem_nil _)) (obeys_partLines2_11_lines _) (by decide +kernel)

def obeys_partLines2_12_object (l : Nat) : Ns := [(c!"lineno", .int l), (c!"active", .bool false), (c!"primOnly", .bool false), (c!"end", .int 0), (c!"fstype", .str c!""), (c!"grow", .bool false), (c!"maxSizeMB", .int 0), (c!"format", .bool true), (c!"onbiosdisk", .str c!""), (c!"disk", .str c!""), (c!"onPart", .str c!"sda1"), (c!"recommended", .bool false), (c!"size", .int 1), (c!"start", .int 0), (c!"mountpoint", .str c!"/x"), (c!"mntpoint", .list [c!"/x"])]

theorem obeys_partLines2_12_base (n : Str) : Command.FirstBase (FC3_Partition.cls FC3_PartData.cls) n [c!"/x", c!"--onpart=sda1", c!"--size=1"] obeys_partLines2_12_object := by
  intro b b' hb hb' line l; kernel_rfl

theorem obeys_partLines2_12_start : Command.FirstStart (FC3_Partition.cls FC3_PartData.cls) obeys_partLines2_12_object (partLines2.start.getD 0 ([], [])).2 := fun _ => .inl ⟨fun _ => rfl, (all_cons (by kernel_rfl) (all_cons (by kernel_rfl) (all_cons (by kernel_rfl) (all_cons (by kernel_rfl) (all_cons (by kernel_rfl) (List.forall_mem_nil _))))))⟩

theorem obeys_partLines2_12_lines (n : Str) : ∀ i ∈ [2], Command.FirstLine (FC3_Partition.cls FC3_PartData.cls) n [c!"/x", c!"--onpart=sda1", c!"--size=1"] obeys_partLines2_12_object (partLines2.lines.getD i noLine) :=
  (all_cons (by intro b b' hb hb' x hx line l; kernel_rfl)
    (List.forall_mem_nil _))

theorem obeys_partLines2_12 : ∀ v, [Version.RHEL3, Version.FC3, Version.RHEL4].contains v = true → Command.Obeys (FC3_Partition.cls FC3_PartData.cls) partLines2 v :=
  obeys_of obeys_partLines2_12_object [0] [2] (obeys_partLines2_12_base _) (all_cons obeys_partLines2_12_start (List.forall_mem_nil _)) (obeys_partLines2_12_lines _) (by decide +kernel)

def obeys_partLines2_13_object (l : Nat) : Ns := [(c!"lineno", .int l), (c!"active", .bool false), (c!"primOnly", .bool false), (c!"end", .int 0), (c!"fstype", .str c!""), (c!"grow", .bool false), (c!"maxSizeMB", .int 0), (c!"format", .bool true), (c!"onbiosdisk", .str c!""), (c!"disk", .str c!""), (c!"onPart", .str c!"sda1"), (c!"recommended", .bool false), (c!"size", .int 1), (c!"start", .int 0), (c!"mountpoint", .str c!"/x"), (c!"bytesPerInode", .int 4096), (c!"fsopts", .str c!""), (c!"label", .str c!""), (c!"encrypted", .bool false), (c!"passphrase", .str c!""), (c!"mntpoint", .list [c!"/x"])]

theorem obeys_partLines2_13_base (n : Str) : Command.FirstBase (RHEL5_Partition.cls RHEL5_PartData.cls) n [c!"/x", c!"--onpart=sda1", c!"--size=1"] obeys_partLines2_13_object := by
  intro b b' hb hb' line l; kernel_rfl

theorem obeys_partLines2_13_start : Command.FirstStart (RHEL5_Partition.cls RHEL5_PartData.cls) obeys_partLines2_13_object (partLines2.start.getD 1 ([], [])).2 := fun _ => .inl ⟨fun _ => rfl, (all_cons (by kernel_rfl) (all_cons (by kernel_rfl) (all_cons (by kernel_rfl) (all_cons (by kernel_rfl) (all_cons (by kernel_rfl) (all_cons (by kernel_rfl) (List.forall_mem_nil _)))))))⟩

theorem obeys_partLines2_13_lines (n : Str) : ∀ i ∈ [], Command.FirstLine (RHEL5_Partition.cls RHEL5_PartData.cls) n [c!"/x", c!"--onpart=sda1", c!"--size=1"] obeys_partLines2_13_object (partLines2.lines.getD i noLine) :=
  (List.forall_mem_nil _)

theorem obeys_partLines2_13 : ∀ v, [Version.RHEL5].contains v = true → Command.Obeys (RHEL5_Partition.cls RHEL5_PartData.cls) partLines2 v :=
  obeys_of obeys_partLines2_13_object [1] [] (obeys_partLines2_13_base _) (all_cons obeys_partLines2_13_start (List.forall_mem_nil _)) (obeys_partLines2_13_lines _) (by decide +kernel)

def obeys_partLines2_14_object (l : Nat) : Ns := [(c!"lineno", .int l), (c!"active", .bool false), (c!"primOnly", .bool false), (c!"fstype", .str c!""), (c!"grow", .bool false), (c!"maxSizeMB", .int 0), (c!"format", .bool true), (c!"onbiosdisk", .str c!""), (c!"disk", .str c!""), (c!"onPart", .str c!"sda1"), (c!"recommended", .bool false), (c!"size", .int 1), (c!"mountpoint", .str c!"/x"), (c!"fsopts", .str c!""), (c!"label", .str c!""), (c!"fsprofile", .str c!""), (c!"encrypted", .bool false), (c!"passphrase", .str c!""), (c!"escrowcert", .str c!""), (c!"backuppassphrase", .bool false), (c!"cipher", .str c!""), (c!"hibernation", .bool false), (c!"mntpoint", .list [c!"/x"])]

theorem obeys_partLines2_14_base (n : Str) : Command.FirstBase (RHEL6_Partition.cls RHEL6_PartData.cls) n [c!"/x", c!"--onpart=sda1", c!"--size=1"] obeys_partLines2_14_object := by
  intro b b' hb hb' line l; kernel_rfl

theorem obeys_partLines2_14_start : Command.FirstStart (RHEL6_Partition.cls RHEL6_PartData.cls) obeys_partLines2_14_object (partLines2.start.getD 0 ([], [])).2 := fun _ => .inl ⟨fun _ => rfl, (all_cons (by kernel_rfl) (all_cons (by kernel_rfl) (all_cons (by kernel_rfl) (all_cons (by kernel_rfl) (all_cons (by kernel_rfl) (List.forall_mem_nil _))))))⟩

theorem obeys_partLines2_14_lines (n : Str) : ∀ i ∈ [], Command.FirstLine (RHEL6_Partition.cls RHEL6_PartData.cls) n [c!"/x", c!"--onpart=sda1", c!"--size=1"] obeys_partLines2_14_object (partLines2.lines.getD i noLine) :=
  (List.forall_mem_nil _)

theorem obeys_partLines2_14 : ∀ v, [Version.RHEL6].contains v = true → Command.Obeys (RHEL6_Partition.cls RHEL6_PartData.cls) partLines2 v :=
  obeys_of obeys_partLines2_14_object [0] [] (obeys_partLines2_14_base _) (all_cons obeys_partLines2_14_start (List.forall_mem_nil _)) (obeys_partLines2_14_lines _) (by decide +kernel)

def obeys_partLines2_15_object (l : Nat) : Ns := [(c!"lineno", .int l), (c!"active", .bool false), (c!"primOnly", .bool false), (c!"fstype", .str c!""), (c!"grow", .bool false), (c!"maxSizeMB", .int 0), (c!"format", .bool true), (c!"onbiosdisk", .str c!""), (c!"disk", .str c!""), (c!"onPart", .str c!"sda1"), (c!"recommended", .bool false), (c!"size", .int 1), (c!"mountpoint", .str c!"/x"), (c!"fsopts", .str c!""), (c!"label", .str c!""), (c!"fsprofile", .str c!""), (c!"encrypted", .bool false), (c!"passphrase", .str c!""), (c!"escrowcert", .str c!""), (c!"backuppassphrase", .bool false), (c!"resize", .bool false), (c!"hibernation", .bool false), (c!"cipher", .str c!""), (c!"mkfsopts", .str c!""), (c!"mntpoint", .list [c!"/x"])]

theorem obeys_partLines2_15_base (n : Str) : Command.FirstBase (RHEL7_Partition.cls RHEL7_PartData.cls) n [c!"/x", c!"--onpart=sda1", c!"--size=1"] obeys_partLines2_15_object := by
  intro b b' hb hb' line l; rcases hb with rfl | rfl <;> rcases hb' with rfl | rfl <;> kernel_rfl

theorem obeys_partLines2_15_start : Command.FirstStart (RHEL7_Partition.cls RHEL7_PartData.cls) obeys_partLines2_15_object (partLines2.start.getD 0 ([], [])).2 := fun _ => .inl ⟨fun _ => rfl, (all_cons (by kernel_rfl) (all_cons (by kernel_rfl) (all_cons (by kernel_rfl) (all_cons (by kernel_rfl) (all_cons (by kernel_rfl) (List.forall_mem_nil _))))))⟩

theorem obeys_partLines2_15_lines (n : Str) : ∀ i ∈ [], Command.FirstLine (RHEL7_Partition.cls RHEL7_PartData.cls) n [c!"/x", c!"--onpart=sda1", c!"--size=1"] obeys_partLines2_15_object (partLines2.lines.getD i noLine) :=
  (List.forall_mem_nil _)

theorem obeys_partLines2_15 : ∀ v, [Version.RHEL7].contains v = true → Command.Obeys (RHEL7_Partition.cls RHEL7_PartData.cls) partLines2 v :=
  obeys_of obeys_partLines2_15_object [0] [] (obeys_partLines2_15_base _) (all_cons obeys_partLines2_15_start (List.forall_mem_nil _)) (obeys_partLines2_15_lines _) (by decide +kernel)

def obeys_partLines2_16_object (l : Nat) : Ns := [(c!"lineno", .int l), (c!"active", .bool false), (c!"primOnly", .bool false), (c!"fstype", .str c!""), (c!"grow", .bool false), (c!"maxSizeMB", .int 0), (c!"format", .bool true), (c!"onbiosdisk", .str c!""), (c!"disk", .str c!""), (c!"onPart", .str c!"sda1"), (c!"recommended", .bool false), (c!"size", .int 1), (c!"mountpoint", .str c!"/x"), (c!"fsopts", .str c!""), (c!"label", .str c!""), (c!"fsprofile", .str c!""), (c!"encrypted", .bool false), (c!"passphrase", .str c!""), (c!"escrowcert", .str c!""), (c!"backuppassphrase", .bool false), (c!"resize", .bool false), (c!"hibernation", .bool false), (c!"cipher", .str c!""), (c!"mkfsopts", .str c!""), (c!"luks_version", .str c!""), (c!"pbkdf", .str c!""), (c!"pbkdf_memory", .int 0), (c!"pbkdf_time", .int 0), (c!"pbkdf_iterations", .int 0), (c!"mntpoint", .list [c!"/x"])]

theorem obeys_partLines2_16_base (n : Str) : Command.FirstBase (RHEL8_Partition.cls RHEL8_PartData.cls) n [c!"/x", c!"--onpart=sda1", c!"--size=1"] obeys_partLines2_16_object := by
  intro b b' hb hb' line l; rcases hb with rfl | rfl <;> rcases hb' with rfl | rfl <;> kernel_rfl

theorem obeys_partLines2_16_start : Command.FirstStart (RHEL8_Partition.cls RHEL8_PartData.cls) obeys_partLines2_16_object (partLines2.start.getD 0 ([], [])).2 := fun _ => .inl ⟨fun _ => rfl, (all_cons (by kernel_rfl) (all_cons (by kernel_rfl) (all_cons (by kernel_rfl) (all_cons (by kernel_rfl) (all_cons (by kernel_rfl) (List.forall_mem_nil _))))))⟩

theorem obeys_partLines2_16_lines (n : Str) : ∀ i ∈ [], Command.FirstLine (RHEL8_Partition.cls RHEL8_PartData.cls) n [c!"/x", c!"--onpart=sda1", c!"--size=1"] obeys_partLines2_16_object (partLines2.lines.getD i noLine) :=
  (List.forall_mem_nil _)

theorem obeys_partLines2_16 : ∀ v, [Version.RHEL8].contains v = true → Command.Obeys (RHEL8_Partition.cls RHEL8_PartData.cls) partLines2 v :=
  obeys_of obeys_partLines2_16_object [0] [] (obeys_partLines2_16_base _) (all_cons obeys_partLines2_16_start (List.forall_mem_nil _)) (obeys_partLines2_16_lines _) (by decide +kernel)

theorem obeys_partLines2 : partLines2.Obeyed := by
  unfold CommandLines.Obeyed commandMaps
  exact (all_cons (fun _ c h => by cases h; exact obeys_partLines2_0 _ rfl)
    (all_cons (fun _ c h => by cases h; exact obeys_partLines2_1 _ rfl)
    (all_cons (fun _ c h => by cases h; exact obeys_partLines2_2 _ rfl)
    (all_cons (fun _ c h => by cases h; exact obeys_partLines2_2 _ rfl)
    (all_cons (fun _ c h => by cases h; exact obeys_partLines2_3 _ rfl)
    (all_cons (fun _ c h => by cases h; exact obeys_partLines2_3 _ rfl)
    (all_cons (fun _ c h => by cases h; exact obeys_partLines2_4 _ rfl)
    (all_cons (fun _ c h => by cases h; exact obeys_partLines2_5 _ rfl)
    (all_cons (fun _ c h => by cases h; exact obeys_partLines2_6 _ rfl)
    (all_cons (fun _ c h => by cases h; exact obeys_partLines2_6 _ rfl)
    (all_cons (fun _ c h => by cases h; exact obeys_partLines2_7 _ rfl)
    (all_cons (fun _ c h => by cases h; exact obeys_partLines2_7 _ rfl)
    (all_cons (fun _ c h => by cases h; exact obeys_partLines2_7 _ rfl)
    (all_cons (fun _ c h => by cases h; exact obeys_partLines2_8 _ rfl)
    (all_cons (fun _ c h => by cases h; exact obeys_partLines2_8 _ rfl)
    (all_cons (fun _ c h => by cases h; exact obeys_partLines2_8 _ rfl)
    (all_cons (fun _ c h => by cases h; exact obeys_partLines2_8 _ rfl)
    (all_cons (fun _ c h => by cases h; exact obeys_partLines2_8 _ rfl)
    (all_cons (fun _ c h => by cases h; exact obeys_partLines2_8 _ rfl)
    (all_cons (fun _ c h => by cases h; exact obeys_partLines2_9 _ rfl)
    (all_cons (fun _ c h => by cases h; exact obeys_partLines2_9 _ rfl)
    (all_cons (fun _ c h => by cases h; exact obeys_partLines2_9 _ rfl)
    (all_cons (fun _ c h => by cases h; exact obeys_partLines2_9 _ rfl)
    (all_cons (fun _ c h => by cases h; exact obeys_partLines2_9 _ rfl)
    (all_cons (fun _ c h => by cases h; exact obeys_partLines2_10 _ rfl)
    (all_cons (fun _ c h => by cases h; exact obeys_partLines2_11 _ rfl)
    (all_cons (fun _ c h => by cases h; exact obeys_partLines2_11 _ rfl)
    (all_cons (fun _ c h => by cases h; exact obeys_partLines2_0 _ rfl)
    (all_cons (fun _ c h => by cases h; exact obeys_partLines2_12 _ rfl)
    (all_cons (fun _ c h => by cases h; exact obeys_partLines2_11 _ rfl)
    (all_cons (fun _ c h => by cases h; exact obeys_partLines2_11 _ rfl)
    (all_cons (fun _ c h => by cases h; exact obeys_partLines2_11 _ rfl)
    (all_cons (fun _ c h => by cases h; exact obeys_partLines2_12 _ rfl)
    (all_cons (fun _ c h => by cases h; exact obeys_partLines2_12 _ rfl)
    (all_cons (fun _ c h => by cases h; exact obeys_partLines2_13 _ rfl)
    (all_cons (fun _ c h => by cases h; exact obeys_partLines2_14 _ rfl)
    (all_cons (fun _ c h => by cases h; exact obeys_partLines2_15 _ rfl)
    (all_cons (fun _ c h => by cases h; exact obeys_partLines2_16 _ rfl) (List.forall_mem_nil _)))))))))))))))))))))))))))))))))))))))

theorem obeys_partitionLines_0 : ∀ v, [Version.F9, Version.F10].contains v = true → Command.Obeys (F9_Partition.cls F9_PartData.cls) partitionLines v :=
  obeys_of obeys_partLines_0_object [0] [25, 27, 29, 31, 33, 35, 41, 58] (obeys_partLines_0_base _) (all_cons obeys_partLines_0_start (List.forall_mem_nil _)) (obeys_partLines_0_lines _) (by decide +kernel)

theorem obeys_partitionLines_1 : ∀ v, [Version.F11].contains v = true → Command.Obeys (F11_Partition.cls F11_PartData.cls) partitionLines v :=
  obeys_of obeys_partLines_1_object [0] [3, 6, 34, 36, 37, 39, 41] (obeys_partLines_1_base _) (all_cons obeys_partLines_1_start (List.forall_mem_nil _)) (obeys_partLines_1_lines _) (by decide +kernel)

theorem obeys_partitionLines_2 : ∀ v, [Version.F12, Version.F13].contains v = true → Command.Obeys (F12_Partition.cls F12_PartData.cls) partitionLines v :=
  obeys_of obeys_partLines_2_object [0] [38, 40, 41, 42, 44] (obeys_partLines_2_base _) (all_cons obeys_partLines_2_start (List.forall_mem_nil _)) (obeys_partLines_2_lines _) (by decide +kernel)

theorem obeys_partitionLines_3 : ∀ v, [Version.F14, Version.F15].contains v = true → Command.Obeys (F14_Partition.cls F14_PartData.cls) partitionLines v :=
  obeys_of obeys_partLines_3_object [0] [4, 7, 26, 33, 35, 41, 42, 44, 59] (obeys_partLines_3_base _) (all_cons obeys_partLines_3_start (List.forall_mem_nil _)) (obeys_partLines_3_lines _) (by decide +kernel)

theorem obeys_partitionLines_4 : ∀ v, [Version.F16].contains v = true → Command.Obeys (F14_Partition.cls F17_PartData.cls) partitionLines v :=
  obeys_of obeys_partLines_4_object [0] [41] (obeys_partLines_4_base _) (all_cons obeys_partLines_4_start (List.forall_mem_nil _)) (obeys_partLines_4_lines _) (by decide +kernel)

theorem obeys_partitionLines_5 : ∀ v, [Version.F17].contains v = true → Command.Obeys (F17_Partition.cls F17_PartData.cls) partitionLines v :=
  obeys_of obeys_partLines_5_object [0] [41, 42, 44] (obeys_partLines_5_base _) (all_cons obeys_partLines_5_start (List.forall_mem_nil _)) (obeys_partLines_5_lines _) (by decide +kernel)

theorem obeys_partitionLines_6 : ∀ v, [Version.F18, Version.F19].contains v = true → Command.Obeys (F18_Partition.cls F18_PartData.cls) partitionLines v :=
  obeys_of obeys_partLines_6_object [0] [41, 43, 45] (obeys_partLines_6_base _) (all_cons obeys_partLines_6_start (List.forall_mem_nil _)) (obeys_partLines_6_lines _) (by decide +kernel)

theorem obeys_partitionLines_7 : ∀ v, [Version.F20, Version.F21, Version.F22].contains v = true → Command.Obeys (F20_Partition.cls F18_PartData.cls) partitionLines v :=
  obeys_of obeys_partLines_7_object [0] [41, 46] (obeys_partLines_7_base _) (all_cons obeys_partLines_7_start (List.forall_mem_nil _)) (obeys_partLines_7_lines _) (by decide +kernel)

theorem obeys_partitionLines_8 : ∀ v, [Version.F23, Version.F24, Version.F25, Version.F26, Version.F27, Version.F28].contains v = true → Command.Obeys (F23_Partition.cls F23_PartData.cls) partitionLines v :=
  obeys_of obeys_partLines_8_object [0] [41, 47, 48, 50, 52, 54, 56] (obeys_partLines_8_base _) (all_cons obeys_partLines_8_start (List.forall_mem_nil _)) (obeys_partLines_8_lines _) (by decide +kernel)

theorem obeys_partitionLines_9 : ∀ v, [Version.F29, Version.F30, Version.F31, Version.F32, Version.F33].contains v = true → Command.Obeys (F29_Partition.cls F29_PartData.cls) partitionLines v :=
  obeys_of obeys_partLines_9_object [0] [41] (obeys_partLines_9_base _) (all_cons obeys_partLines_9_start (List.forall_mem_nil _)) (obeys_partLines_9_lines _) (by decide +kernel)

theorem obeys_partitionLines_10 : ∀ v, [Version.F34].contains v = true → Command.Obeys (F34_Partition.cls F29_PartData.cls) partitionLines v :=
  obeys_of obeys_partLines_10_object [0] [0, 2, 9, 10, 11, 12, 13, 14, 15, 16, 17, 18, 19, 20, 21, 23, 27, 29, 31, 38, 40, 41, 43, 45, 47, 49, 51, 53, 55, 57] (obeys_partLines_10_base _) (all_cons obeys_partLines_10_start (List.forall_mem_nil _)) (obeys_partLines_10_lines _) (by decide +kernel)

theorem obeys_partitionLines_11 : ∀ v, [Version.FC4, Version.FC5, Version.FC6, Version.F7, Version.F8].contains v = true → Command.Obeys (FC4_Partition.cls FC4_PartData.cls) partitionLines v :=
  obeys_of obeys_partLines_11_object [1] [21, 23, 26, 28, 30, 32, 41, 60] (obeys_partLines_11_base _) (all_cons obeys_partLines_11_start (List.forall_mem_nil _)) (obeys_partLines_11_lines _) (by decide +kernel)

theorem obeys_partitionLines_12 : ∀ v, [Version.RHEL3, Version.FC3, Version.RHEL4].contains v = true → Command.Obeys (FC3_Partition.cls FC3_PartData.cls) partitionLines v :=
  obeys_of obeys_partLines_12_object [0] [1, 2, 5, 8, 9, 10, 11, 12, 13, 14, 15, 16, 17, 18, 19, 20, 22, 24, 41, 59] (obeys_partLines_12_base _) (all_cons obeys_partLines_12_start (List.forall_mem_nil _)) (obeys_partLines_12_lines _) (by decide +kernel)

theorem obeys_partitionLines_13 : ∀ v, [Version.RHEL5].contains v = true → Command.Obeys (RHEL5_Partition.cls RHEL5_PartData.cls) partitionLines v :=
  obeys_of obeys_partLines_13_object [1] [29, 31, 41] (obeys_partLines_13_base _) (all_cons obeys_partLines_13_start (List.forall_mem_nil _)) (obeys_partLines_13_lines _) (by decide +kernel)

theorem obeys_partitionLines_14 : ∀ v, [Version.RHEL6].contains v = true → Command.Obeys (RHEL6_Partition.cls RHEL6_PartData.cls) partitionLines v :=
  obeys_of obeys_partLines_14_object [0] [41, 43, 45] (obeys_partLines_14_base _) (all_cons obeys_partLines_14_start (List.forall_mem_nil _)) (obeys_partLines_14_lines _) (by decide +kernel)

theorem obeys_partitionLines_15 : ∀ v, [Version.RHEL7].contains v = true → Command.Obeys (RHEL7_Partition.cls RHEL7_PartData.cls) partitionLines v :=
  obeys_of obeys_partLines_15_object [0] [41, 47] (obeys_partLines_15_base _) (all_cons obeys_partLines_15_start (List.forall_mem_nil _)) (obeys_partLines_15_lines _) (by decide +kernel)

theorem obeys_partitionLines_16 : ∀ v, [Version.RHEL8].contains v = true → Command.Obeys (RHEL8_Partition.cls RHEL8_PartData.cls) partitionLines v :=
  obeys_of obeys_partLines_16_object [0] [41, 49, 51, 53, 55, 57] (obeys_partLines_16_base _) (all_cons obeys_partLines_16_start (List.forall_mem_nil _)) (obeys_partLines_16_lines _) (by decide +kernel)

theorem obeys_partitionLines : partitionLines.Obeyed := by
  unfold CommandLines.Obeyed commandMaps
  exact (all_cons (fun _ c h => by cases h; exact obeys_partitionLines_0 _ rfl)
    (all_cons (fun _ c h => by cases h; exact obeys_partitionLines_1 _ rfl)
    (all_cons (fun _ c h => by cases h; exact obeys_partitionLines_2 _ rfl)
    (all_cons (fun _ c h => by cases h; exact obeys_partitionLines_2 _ rfl)
    (all_cons (fun _ c h => by cases h; exact obeys_partitionLines_3 _ rfl)
    (all_cons (fun _ c h => by cases h; exact obeys_partitionLines_3 _ rfl)
    (all_cons (fun _ c h => by cases h; exact obeys_partitionLines_4 _ rfl)
    (all_cons (fun _ c h => by cases h; exact obeys_partitionLines_5 _ rfl)
    (all_cons (fun _ c h => by cases h; exact obeys_partitionLines_6 _ rfl)
    (all_cons (fun _ c h => by cases h; exact obeys_partitionLines_6 _ rfl)
    (all_cons (fun _ c h => by cases h; exact obeys_partitionLines_7 _ rfl)
    (all_cons (fun _ c h => by cases h; exact obeys_partitionLines_7 _ rfl)
    (all_cons (fun _ c h => by cases h; exact obeys_partitionLines_7 _ rfl)
    (all_cons (fun _ c h => by cases h; exact obeys_partitionLines_8 _ rfl)
    (all_cons (fun _ c h => by cases h; exact obeys_partitionLines_8 _ rfl)
    (all_cons (fun _ c h => by cases h; exact obeys_partitionLines_8 _ rfl)
    (all_cons (fun _ c h => by cases h; exact obeys_partitionLines_8 _ rfl)
    (all_cons (fun _ c h => by cases h; exact obeys_partitionLines_8 _ rfl)
    (all_cons (fun _ c h => by cases h; exact obeys_partitionLines_8 _ rfl)
    (all_cons (fun _ c h => by cases h; exact obeys_partitionLines_9 _ rfl)
    (all_cons (fun _ c h => by cases h; exact obeys_partitionLines_9 _ rfl)
    (all_cons (fun _ c h => by cases h; exact obeys_partitionLines_9 _ rfl)
    (all_cons (fun _ c h => by cases h; exact obeys_partitionLines_9 _ rfl)
    (all_cons (fun _ c h => by cases h; exact obeys_partitionLines_9 _ rfl)
    (all_cons (fun _ c h => by cases h; exact obeys_partitionLines_10 _ rfl)
    (all_cons (fun _ c h => by cases h; exact obeys_partitionLines_11 _ rfl)
    (all_cons (fun _ c h => by cases h; exact obeys_partitionLines_11 _ rfl)
    (all_cons (fun _ c h => by cases h; exact obeys_partitionLines_0 _ rfl)
    (all_cons (fun _ c h => by cases h; exact obeys_partitionLines_12 _ rfl)
    (all_cons (fun _ c h => by cases h; exact obeys_partitionLines_11 _ rfl)
    (all_cons (fun _ c h => by cases h; exact obeys_partitionLines_11 _ rfl)
    (all_cons (fun _ c h => by cases h; exact obeys_partitionLines_11 _ rfl)
    (all_cons (fun _ c h => by cases h; exact obeys_partitionLines_12 _ rfl)
    (all_cons (fun _ c h => by cases h; exact obeys_partitionLines_12 _ rfl)
    (all_cons (fun _ c h => by cases h; exact obeys_partitionLines_13 _ rfl)
    (all_cons (fun _ c h => by cases h; exact obeys_partitionLines_14 _ rfl)
    (all_cons (fun _ c h => by cases h; exact obeys_partitionLines_15 _ rfl)
    (all_cons (fun _ c h => by cases h; exact obeys_partitionLines_16 _ rfl) (List.forall_mem_nil _)))))))))))))))))))))))))))))))))))))))

theorem obeys_partitionLines2_0 : ∀ v, [Version.F9, Version.F10].contains v = true → Command.Obeys (F9_Partition.cls F9_PartData.cls) partitionLines2 v :=
  obeys_of obeys_partLines2_0_object [0] [] (obeys_partLines2_0_base _) (all_cons obeys_partLines2_0_start (List.forall_mem_nil _)) (obeys_partLines2_0_lines _) (by decide +kernel)

theorem obeys_partitionLines2_1 : ∀ v, [Version.F11].contains v = true → Command.Obeys (F11_Partition.cls F11_PartData.cls) partitionLines2 v :=
  obeys_of obeys_partLines2_1_object [0] [] (obeys_partLines2_1_base _) (all_cons obeys_partLines2_1_start (List.forall_mem_nil _)) (obeys_partLines2_1_lines _) (by decide +kernel)

theorem obeys_partitionLines2_2 : ∀ v, [Version.F12, Version.F13].contains v = true → Command.Obeys (F12_Partition.cls F12_PartData.cls) partitionLines2 v :=
  obeys_of obeys_partLines2_2_object [0] [] (obeys_partLines2_2_base _) (all_cons obeys_partLines2_2_start (List.forall_mem_nil _)) (obeys_partLines2_2_lines _) (by decide +kernel)

theorem obeys_partitionLines2_3 : ∀ v, [Version.F14, Version.F15].contains v = true → Command.Obeys (F14_Partition.cls F14_PartData.cls) partitionLines2 v :=
  obeys_of obeys_partLines2_3_object [0] [] (obeys_partLines2_3_base _) (all_cons obeys_partLines2_3_start (List.forall_mem_nil _)) (obeys_partLines2_3_lines _) (by decide +kernel)

theorem obeys_partitionLines2_4 : ∀ v, [Version.F16].contains v = true → Command.Obeys (F14_Partition.cls F17_PartData.cls) partitionLines2 v :=
  obeys_of obeys_partLines2_4_object [0] [0] (obeys_partLines2_4_base _) (all_cons obeys_partLines2_4_start (List.forall_mem_nil _)) (obeys_partLines2_4_lines _) (by decide +kernel)

theorem obeys_partitionLines2_5 : ∀ v, [Version.F17].contains v = true → Command.Obeys (F17_Partition.cls F17_PartData.cls) partitionLines2 v :=
  obeys_of obeys_partLines2_5_object [0] [1] (obeys_partLines2_5_base _) (all_cons obeys_partLines2_5_start (List.forall_mem_nil _)) (obeys_partLines2_5_lines _) (by decide +kernel)

theorem obeys_partitionLines2_6 : ∀ v, [Version.F18, Version.F19].contains v = true → Command.Obeys (F18_Partition.cls F18_PartData.cls) partitionLines2 v :=
  obeys_of obeys_partLines2_6_object [0] [] (obeys_partLines2_6_base _) (all_cons obeys_partLines2_6_start (List.forall_mem_nil _)) (obeys_partLines2_6_lines _) (by decide +kernel)

theorem obeys_partitionLines2_7 : ∀ v, [Version.F20, Version.F21, Version.F22].contains v = true → Command.Obeys (F20_Partition.cls F18_PartData.cls) partitionLines2 v :=
  obeys_of obeys_partLines2_7_object [0] [] (obeys_partLines2_7_base _) (all_cons obeys_partLines2_7_start (List.forall_mem_nil _)) (obeys_partLines2_7_lines _) (by decide +kernel)

theorem obeys_partitionLines2_8 : ∀ v, [Version.F23, Version.F24, Version.F25, Version.F26, Version.F27, Version.F28].contains v = true → Command.Obeys (F23_Partition.cls F23_PartData.cls) partitionLines2 v :=
  obeys_of obeys_partLines2_8_object [0] [] (obeys_partLines2_8_base _) (all_cons obeys_partLines2_8_start (List.forall_mem_nil _)) (obeys_partLines2_8_lines _) (by decide +kernel)

theorem obeys_partitionLines2_9 : ∀ v, [Version.F29, Version.F30, Version.F31, Version.F32, Version.F33].contains v = true → Command.Obeys (F29_Partition.cls F29_PartData.cls) partitionLines2 v :=
  obeys_of obeys_partLines2_9_object [0] [] (obeys_partLines2_9_base _) (all_cons obeys_partLines2_9_start (List.forall_mem_nil _)) (obeys_partLines2_9_lines _) (by decide +kernel)

theorem obeys_partitionLines2_10 : ∀ v, [Version.F34].contains v = true → Command.Obeys (F34_Partition.cls F29_PartData.cls) partitionLines2 v :=
  obeys_of obeys_partLines2_10_object [0] [1, 2] (obeys_partLines2_10_base _) (all_cons obeys_partLines2_10_start (List.forall_mem_nil _)) (obeys_partLines2_10_lines _) (by decide +kernel)

theorem obeys_partitionLines2_11 : ∀ v, [Version.FC4, Version.FC5, Version.FC6, Version.F7, Version.F8].contains v = true → Command.Obeys (FC4_Partition.cls FC4_PartData.cls) partitionLines2 v :=
  obeys_of obeys_partLines2_11_object [1] [] (obeys_partLines2_11_base _) (all_cons obeys_partLines2_11_start (List.forall_mem_nil _)) (obeys_partLines2_11_lines _) (by decide +kernel)

theorem obeys_partitionLines2_12 : ∀ v, [Version.RHEL3, Version.FC3, Version.RHEL4].contains v = true → Command.Obeys (FC3_Partition.cls FC3_PartData.cls) partitionLines2 v :=
  obeys_of obeys_partLines2_12_object [0] [2] (obeys_partLines2_12_base _) (all_cons obeys_partLines2_12_start (List.forall_mem_nil _)) (obeys_partLines2_12_lines _) (by decide +kernel)

theorem obeys_partitionLines2_13 : ∀ v, [Version.RHEL5].contains v = true → Command.Obeys (RHEL5_Partition.cls RHEL5_PartData.cls) partitionLines2 v :=
  obeys_of obeys_partLines2_13_object [1] [] (obeys_partLines2_13_base _) (all_cons obeys_partLines2_13_start (List.forall_mem_nil _)) (obeys_partLines2_13_lines _) (by decide +kernel)

theorem obeys_partitionLines2_14 : ∀ v, [Version.RHEL6].contains v = true → Command.Obeys (RHEL6_Partition.cls RHEL6_PartData.cls) partitionLines2 v :=
  obeys_of obeys_partLines2_14_object [0] [] (obeys_partLines2_14_base _) (all_cons obeys_partLines2_14_start (List.forall_mem_nil _)) (obeys_partLines2_14_lines _) (by decide +kernel)

theorem obeys_partitionLines2_15 : ∀ v, [Version.RHEL7].contains v = true → Command.Obeys (RHEL7_Partition.cls RHEL7_PartData.cls) partitionLines2 v :=
  obeys_of obeys_partLines2_15_object [0] [] (obeys_partLines2_15_base _) (all_cons obeys_partLines2_15_start (List.forall_mem_nil _)) (obeys_partLines2_15_lines _) (by decide +kernel)

theorem obeys_partitionLines2_16 : ∀ v, [Version.RHEL8].contains v = true → Command.Obeys (RHEL8_Partition.cls RHEL8_PartData.cls) partitionLines2 v :=
  obeys_of obeys_partLines2_16_object [0] [] (obeys_partLines2_16_base _) (all_cons obeys_partLines2_16_start (List.forall_mem_nil _)) (obeys_partLines2_16_lines _) (by decide +kernel)

theorem obeys_partitionLines2 : partitionLines2.Obeyed := by
  unfold CommandLines.Obeyed commandMaps
  exact (all_cons (fun _ c h => by cases h; exact obeys_partitionLines2_0 _ rfl)
    (all_cons (fun _ c h => by cases h; exact obeys_partitionLines2_1 _ rfl)
    (all_cons (fun _ c h => by cases h; exact obeys_partitionLines2_2 _ rfl)
    (all_cons (fun _ c h => by cases h; exact obeys_partitionLines2_2 _ rfl)
    (all_cons (fun _ c h => by cases h; exact obeys_partitionLines2_3 _ rfl)
    (all_cons (fun _ c h => by cases h; exact obeys_partitionLines2_3 _ rfl)
    (all_cons (fun _ c h => by cases h; exact obeys_partitionLines2_4 _ rfl)
    (all_cons (fun _ c h => by cases h; exact obeys_partitionLines2_5 _ rfl)
    (all_cons (fun _ c h => by cases h; exact obeys_partitionLines2_6 _ rfl)
    (all_cons (fun _ c h => by cases h; exact obeys_partitionLines2_6 _ rfl)
    (all_cons (fun _ c h => by cases h; exact obeys_partitionLines2_7 _ rfl)
    (all_cons (fun _ c h => by cases h; exact obeys_partitionLines2_7 _ rfl)
    (all_cons (fun _ c h => by cases h; exact obeys_partitionLines2_7 _ rfl)
    (all_cons (fun _ c h => by cases h; exact obeys_partitionLines2_8 _ rfl)
    (all_cons (fun _ c h => by cases h; exact obeys_partitionLines2_8 _ rfl)
    (all_cons (fun _ c h => by cases h; exact obeys_partitionLines2_8 _ rfl)
    (all_cons (fun _ c h => by cases h; exact obeys_partitionLines2_8 _ rfl)
    (all_cons (fun _ c h => by cases h; exact obeys_partitionLines2_8 _ rfl)
    (all_cons (fun _ c h => by cases h; exact obeys_partitionLines2_8 _ rfl)
    (all_cons (fun _ c h => by cases h; exact obeys_partitionLines2_9 _ rfl)
    (all_cons (fun _ c h => by cases h; exact obeys_partitionLines2_9 _ rfl)
    (all_cons (fun _ c h => by cases h; exact obeys_partitionLines2_9 _ rfl)
    (all_cons (fun _ c h => by cases h; exact obeys_partitionLines2_9 _ rfl)
    (all_cons (fun _ c h => by cases h; exact obeys_partitionLines2_9 _ rfl)
    (all_cons (fun _ c h => by cases h; exact obeys_partitionLines2_10 _ rfl)
    (all_cons (fun _ c h => by cases h; exact obeys_partitionLines2_11 _ rfl)
    (all_cons (fun _ c h => by cases h; exact obeys_partitionLines2_11 _ rfl)
    (all_cons (fun _ c h => by cases h; exact obeys_partitionLines2_0 _ rfl)
    (all_cons (fun _ c h => by cases h; exact obeys_partitionLines2_12 _ rfl)
    (all_cons (fun _ c h => by cases h; exact obeys_partitionLines2_11 _ rfl)
    (all_cons (fun _ c h => by cases h; exact obeys_partitionLines2_11 _ rfl)
    (all_cons (fun _ c h => by cases h; exact obeys_partitionLines2_11 _ rfl)
    (all_cons (fun _ c h => by cases h; exact obeys_partitionLines2_12 _ rfl)
    (all_cons (fun _ c h => by cases h; exact obeys_partitionLines2_12 _ rfl)
    (all_cons (fun _ c h => by cases h; exact obeys_partitionLines2_13 _ rfl)
    (all_cons (fun _ c h => by cases h; exact obeys_partitionLines2_14 _ rfl)
    (all_cons (fun _ c h => by cases h; exact obeys_partitionLines2_15 _ rfl)
    (all_cons (fun _ c h => by cases h; exact obeys_partitionLines2_16 _ rfl) (List.forall_mem_nil _)))))))))))))))))))))))))))))))))))))))

def obeys_selinuxLines_0_object (_ : Nat) : Ns := [(c!"selinux", .none)]

theorem obeys_selinuxLines_0_base (n : Str) : Command.FirstBase (FC3_SELinux.cls) n [] obeys_selinuxLines_0_object := by
  intro b b' hb hb' line l; kernel_rfl

theorem obeys_selinuxLines_0_start : Command.FirstStart (FC3_SELinux.cls) obeys_selinuxLines_0_object (selinuxLines.start.getD 0 ([], [])).2 := fun _ => .inr ⟨fun _ => rfl, by kernel_rfl⟩

theorem obeys_selinuxLines_0_lines (n : Str) : ∀ i ∈ [0, 1, 2], Command.FirstLine (FC3_SELinux.cls) n [] obeys_selinuxLines_0_object (selinuxLines.lines.getD i noLine) :=
  (all_cons (by intro b b' hb hb' x hx line l; kernel_rfl)
    (all_cons (by intro b b' hb hb' x hx line l; kernel_rfl)
    (all_cons (by intro b b' hb hb' x hx line l; kernel_rfl)
    (List.forall_mem_nil _))))

theorem obeys_selinuxLines_0 : ∀ v, [Version.FC3, Version.RHEL4, Version.FC4, Version.FC5, Version.FC6, Version.RHEL5, Version.F7, Version.F8, Version.F9, Version.F10, Version.F11, Version.F12, Version.F13, Version.RHEL6, Version.F14, Version.F15, Version.F16, Version.F17, Version.F18, Version.F19, Version.F20, Version.F21, Version.RHEL7, Version.F22, Version.F23, Version.F24, Version.F25, Version.F26, Version.F27, Version.F28, Version.RHEL8, Version.F29, Version.F30, Version.F31, Version.F32, Version.F33, Version.F34].contains v = true → Command.Obeys (FC3_SELinux.cls) selinuxLines v :=
  obeys_of obeys_selinuxLines_0_object [0] [0, 1, 2] (obeys_selinuxLines_0_base _) (all_cons obeys_selinuxLines_0_start (List.forall_mem_nil _)) (obeys_selinuxLines_0_lines _) (by decide +kernel)

theorem obeys_selinuxLines : selinuxLines.Obeyed := by
  unfold CommandLines.Obeyed commandMaps
  exact (all_cons (fun _ c h => by cases h; exact obeys_selinuxLines_0 _ rfl)
    (all_cons (fun _ c h => by cases h; exact obeys_selinuxLines_0 _ rfl)
    (all_cons (fun _ c h => by cases h; exact obeys_selinuxLines_0 _ rfl)
    (all_cons (fun _ c h => by cases h; exact obeys_selinuxLines_0 _ rfl)
    (all_cons (fun _ c h => by cases h; exact obeys_selinuxLines_0 _ rfl)
    (all_cons (fun _ c h => by cases h; exact obeys_selinuxLines_0 _ rfl)
    (all_cons (fun _ c h => by cases h; exact obeys_selinuxLines_0 _ rfl)
    (all_cons (fun _ c h => by cases h; exact obeys_selinuxLines_0 _ rfl)
    (all_cons (fun _ c h => by cases h; exact obeys_selinuxLines_0 _ rfl)
    (all_cons (fun _ c h => by cases h; exact obeys_selinuxLines_0 _ rfl)
    (all_cons (fun _ c h => by cases h; exact obeys_selinuxLines_0 _ rfl)
    (all_cons (fun _ c h => by cases h; exact obeys_selinuxLines_0 _ rfl)
    (all_cons (fun _ c h => by cases h; exact obeys_selinuxLines_0 _ rfl)
    (all_cons (fun _ c h => by cases h; exact obeys_selinuxLines_0 _ rfl)
    (all_cons (fun _ c h => by cases h; exact obeys_selinuxLines_0 _ rfl)
    (all_cons (fun _ c h => by cases h; exact obeys_selinuxLines_0 _ rfl)
    (all_cons (fun _ c h => by cases h; exact obeys_selinuxLines_0 _ rfl)
    (all_cons (fun _ c h => by cases h; exact obeys_selinuxLines_0 _ rfl)
    (all_cons (fun _ c h => by cases h; exact obeys_selinuxLines_0 _ rfl)
    (all_cons (fun _ c h => by cases h; exact obeys_selinuxLines_0 _ rfl)
    (all_cons (fun _ c h => by cases h; exact obeys_selinuxLines_0 _ rfl)
    (all_cons (fun _ c h => by cases h; exact obeys_selinuxLines_0 _ rfl)
    (all_cons (fun _ c h => by cases h; exact obeys_selinuxLines_0 _ rfl)
    (all_cons (fun _ c h => by cases h; exact obeys_selinuxLines_0 _ rfl)
    (all_cons (fun _ c h => by cases h; exact obeys_selinuxLines_0 _ rfl)
    (all_cons (fun _ c h => by cases h; exact obeys_selinuxLines_0 _ rfl)
    (all_cons (fun _ c h => by cases h; exact obeys_selinuxLines_0 _ rfl)
    (all_cons (fun _ c h => by cases h; exact obeys_selinuxLines_0 _ rfl)
    (all_cons (fun _ c h => by cases h; exact obeys_selinuxLines_0 _ rfl)
    (all_cons (fun _ c h => by cases h; exact obeys_selinuxLines_0 _ rfl)
    (all_cons (fun _ c h => by cases h; exact obeys_selinuxLines_0 _ rfl)
    (all_cons (fun _ c h => by cases h; exact obeys_selinuxLines_0 _ rfl)
    (all_cons (fun hv => absurd hv (by decide))
    (all_cons (fun _ c h => by cases h; exact obeys_selinuxLines_0 _ rfl)
    (all_cons (fun _ c h => by cases h; exact obeys_selinuxLines_0 _ rfl)
    (all_cons (fun _ c h => by cases h; exact obeys_selinuxLines_0 _ rfl)
    (all_cons (fun _ c h => by cases h; exact obeys_selinuxLines_0 _ rfl)
    (all_cons (fun _ c h => by cases h; exact obeys_selinuxLines_0 _ rfl) (List.forall_mem_nil _)))))))))))))))))))))))))))))))))))))))

def obeys_syspurposeLines_0_object (_ : Nat) : Ns := [(c!"role", .none), (c!"sla", .none), (c!"usage", .none), (c!"addons", .none)]

theorem obeys_syspurposeLines_0_base (n : Str) : Command.FirstBase (RHEL8_Syspurpose.cls) n [] obeys_syspurposeLines_0_object := by
  intro b b' hb hb' line l; kernel_rfl

theorem obeys_syspurposeLines_0_start : Command.FirstStart (RHEL8_Syspurpose.cls) obeys_syspurposeLines_0_object (syspurposeLines.start.getD 0 ([], [])).2 := fun _ => .inr ⟨fun _ => rfl, by kernel_rfl⟩

theorem obeys_syspurposeLines_0_lines (n : Str) : ∀ i ∈ [0, 1, 2, 3], Command.FirstLine (RHEL8_Syspurpose.cls) n [] obeys_syspurposeLines_0_object (syspurposeLines.lines.getD i noLine) :=
  (all_cons (by intro b b' hb hb' x hx line l; (cases x with | nil => exact absurd rfl hx | cons a x => kernel_rfl))
    (all_cons (by intro b b' hb hb' x hx line l; (cases x with | nil => exact absurd rfl hx | cons a x => kernel_rfl))
    (all_cons (by intro b b' hb hb' x hx line l; (cases x with | nil => exact absurd rfl hx | cons a x => kernel_rfl))
    (all_cons (by intro b b' hb hb' x hx line l; (cases x with | nil => exact absurd rfl hx | cons a x => kernel_rfl))
    (List.forall_mem_nil _)))))

theorem obeys_syspurposeLines_0 : ∀ v, [Version.RHEL8].contains v = true → Command.Obeys (RHEL8_Syspurpose.cls) syspurposeLines v :=
  obeys_of obeys_syspurposeLines_0_object [0] [0, 1, 2, 3] (obeys_syspurposeLines_0_base _) (all_cons obeys_syspurposeLines_0_start (List.forall_mem_nil _)) (obeys_syspurposeLines_0_lines _) (by decide +kernel)

theorem obeys_syspurposeLines : syspurposeLines.Obeyed := by
  unfold CommandLines.Obeyed commandMaps
  exact (all_cons (fun hv => absurd hv (by decide))
    (all_cons (fun hv => absurd hv (by decide))
    (all_cons (fun hv => absurd hv (by decide))
    (all_cons (fun hv => absurd hv (by decide))
    (all_cons (fun hv => absurd hv (by decide))
    (all_cons (fun hv => absurd hv (by decide))
    (all_cons (fun hv => absurd hv (by decide))
    (all_cons (fun hv => absurd hv (by decide))
    (all_cons (fun hv => absurd hv (by decide))
    (all_cons (fun hv => absurd hv (by decide))
    (all_cons (fun hv => absurd hv (by decide))
    (all_cons (fun hv => absurd hv (by decide))
    (all_cons (fun hv => absurd hv (by decide))
    (all_cons (fun hv => absurd hv (by decide))
    (all_cons (fun hv => absurd hv (by decide))
    (all_cons (fun hv => absurd hv (by decide))
    (all_cons (fun hv => absurd hv (by decide))
    (all_cons (fun hv => absurd hv (by decide))
    (all_cons (fun hv => absurd hv (by decide))
    (all_cons (fun hv => absurd hv (by decide))
    (all_cons (fun hv => absurd hv (by decide))
    (all_cons (fun hv => absurd hv (by decide))
    (all_cons (fun hv => absurd hv (by decide))
    (all_cons (fun hv => absurd hv (by decide))
    (all_cons (fun hv => absurd hv (by decide))
    (all_cons (fun hv => absurd hv (by decide))
    (all_cons (fun hv => absurd hv (by decide))
    (all_cons (fun hv => absurd hv (by decide))
    (all_cons (fun hv => absurd hv (by decide))
    (all_cons (fun hv => absurd hv (by decide))
    (all_cons (fun hv => absurd hv (by decide))
    (all_cons (fun hv => absurd hv (by decide))
    (all_cons (fun hv => absurd hv (by decide))
    (all_cons (fun hv => absurd hv (by decide))
    (all_cons (fun hv => absurd hv (by decide))
    (all_cons (fun hv => absurd hv (by decide))
    (all_cons (fun hv => absurd hv (by decide))
    (all_cons (fun _ c h => by cases h; exact obeys_syspurposeLines_0 _ rfl) (List.forall_mem_nil _)))))))))))))))))))))))))))))))))))))))

def obeys_syspurposeLines2_0_object (_ : Nat) : Ns := [(c!"role", .str c!"a"), (c!"sla", .none), (c!"usage", .none), (c!"addons", .none)]

theorem obeys_syspurposeLines2_0_base (n : Str) : Command.FirstBase (RHEL8_Syspurpose.cls) n [c!"--role=a"] obeys_syspurposeLines2_0_object := by
  intro b b' hb hb' line l; kernel_rfl

theorem obeys_syspurposeLines2_0_start : Command.FirstStart (RHEL8_Syspurpose.cls) obeys_syspurposeLines2_0_object (syspurposeLines2.start.getD 0 ([], [])).2 := fun _ => .inr ⟨fun _ => rfl, by kernel_rfl⟩

theorem obeys_syspurposeLines2_0_lines (n : Str) : ∀ i ∈ [0, 1, 2], Command.FirstLine (RHEL8_Syspurpose.cls) n [c!"--role=a"] obeys_syspurposeLines2_0_object (syspurposeLines2.lines.getD i noLine) :=
  (all_cons (by intro b b' hb hb' x hx line l; (cases x with | nil => exact absurd rfl hx | cons a x => kernel_rfl))
    (all_cons (by intro b b' hb hb' x hx line l; (cases x with | nil => exact absurd rfl hx | cons a x => kernel_rfl))
    (all_cons (by intro b b' hb hb' x hx line l; (cases x with | nil => exact absurd rfl hx | cons a x => kernel_rfl))
    (List.forall_mem_nil _))))

theorem obeys_syspurposeLines2_0 : ∀ v, [Version.RHEL8].contains v = true → Command.Obeys (RHEL8_Syspurpose.cls) syspurposeLines2 v :=
  obeys_of obeys_syspurposeLines2_0_object [0] [0, 1, 2] (obeys_syspurposeLines2_0_base _) (all_cons obeys_syspurposeLines2_0_start (List.forall_mem_nil _)) (obeys_syspurposeLines2_0_lines _) (by decide +kernel)

theorem obeys_syspurposeLines2 : syspurposeLines2.Obeyed := by
  unfold CommandLines.Obeyed commandMaps
  exact (all_cons (fun hv => absurd hv (by decide))
    (all_cons (fun hv => absurd hv (by decide))
    (all_cons (fun hv => absurd hv (by decide))
    (all_cons (fun hv => absurd hv (by decide))
    (all_cons (fun hv => absurd hv (by decide))
    (all_cons (fun hv => absurd hv (by decide))
    (all_cons (fun hv => absurd hv (by decide))
    (all_cons (fun hv => absurd hv (by decide))
    (all_cons (fun hv => absurd hv (by decide))
    (all_cons (fun hv => absurd hv (by decide))
    (all_cons (fun hv => absurd hv (by decide))
    (all_cons (fun hv => absurd hv (by decide))
    (all_cons (fun hv => absurd hv (by decide))
    (all_cons (fun hv => absurd hv (by decide))
    (all_cons (fun hv => absurd hv (by decide))
    (all_cons (fun hv => absurd hv (by decide))
    (all_cons (fun hv => absurd hv (by decide))
    (all_cons (fun hv => absurd hv (by decide))
    (all_cons (fun hv => absurd hv (by decide))
    (all_cons (fun hv => absurd hv (by decide))
    (all_cons (fun hv => absurd hv (by decide))
    (all_cons (fun hv => absurd hv (by decide))
    (all_cons (fun hv => absurd hv (by decide))
    (all_cons (fun hv => absurd hv (by decide))
    (all_cons (fun hv => absurd hv (by decide))
    (all_cons (fun hv => absurd hv (by decide))
    (all_cons (fun hv => absurd hv (by decide))
    (all_cons (fun hv => absurd hv (by decide))
    (all_cons (fun hv => absurd hv (by decide))
    (all_cons (fun hv => absurd hv (by decide))
    (all_cons (fun hv => absurd hv (by decide))
    (all_cons (fun hv => absurd hv (by decide))
    (all_cons (fun hv => absurd hv (by decide))
    (all_cons (fun hv => absurd hv (by decide))
    (all_cons (fun hv => absurd hv (by decide))
    (all_cons (fun hv => absurd hv (by decide))
    (all_cons (fun hv => absurd hv (by decide))
    (all_cons (fun _ c h => by cases h; exact obeys_syspurposeLines2_0 _ rfl) (List.forall_mem_nil _)))))))))))))))))))))))))))))))))))))))

def obeys_zerombrLines_0_object (_ : Nat) : Ns := [(c!"zerombr", .bool true)]

theorem obeys_zerombrLines_0_base (n : Str) : Command.FirstBase (F9_ZeroMbr.cls) n [] obeys_zerombrLines_0_object := by
  intro b b' hb hb' line l; kernel_rfl

theorem obeys_zerombrLines_0_start : Command.FirstStart (F9_ZeroMbr.cls) obeys_zerombrLines_0_object (zerombrLines.start.getD 0 ([], [])).2 := fun _ => .inr ⟨fun _ => rfl, by kernel_rfl⟩

theorem obeys_zerombrLines_0_lines (n : Str) : ∀ i ∈ [0, 2], Command.FirstLine (F9_ZeroMbr.cls) n [] obeys_zerombrLines_0_object (zerombrLines.lines.getD i noLine) :=
  (all_cons (by intro b b' hb hb' x hx line l; kernel_rfl)
    (all_cons (by intro b b' hb hb' x hx line l; kernel_rfl)
    (List.forall_mem_nil _)))

theorem obeys_zerombrLines_0 : ∀ v, [Version.F9, Version.F10, Version.F11, Version.F12, Version.F13, Version.RHEL6, Version.F14, Version.F15, Version.F16, Version.F17, Version.F18, Version.F19, Version.F20, Version.F21, Version.RHEL7, Version.F22, Version.F23, Version.F24, Version.F25, Version.F26, Version.F27, Version.F28, Version.RHEL8, Version.F29, Version.F30, Version.F31, Version.F32, Version.F33, Version.F34].contains v = true → Command.Obeys (F9_ZeroMbr.cls) zerombrLines v :=
  obeys_of obeys_zerombrLines_0_object [0] [0, 2] (obeys_zerombrLines_0_base _) (all_cons obeys_zerombrLines_0_start (List.forall_mem_nil _)) (obeys_zerombrLines_0_lines _) (by decide +kernel)

def obeys_zerombrLines_1_object (_ : Nat) : Ns := [(c!"zerombr", .bool true)]

theorem obeys_zerombrLines_1_base (n : Str) : Command.FirstBase (FC3_ZeroMbr.cls) n [] obeys_zerombrLines_1_object := by
  intro b b' hb hb' line l; kernel_rfl

theorem obeys_zerombrLines_1_start : Command.FirstStart (FC3_ZeroMbr.cls) obeys_zerombrLines_1_object (zerombrLines.start.getD 0 ([], [])).2 := fun _ => .inr ⟨fun _ => rfl, by kernel_rfl⟩

theorem obeys_zerombrLines_1_lines (n : Str) : ∀ i ∈ [1, 3], Command.FirstLine (FC3_ZeroMbr.cls) n [] obeys_zerombrLines_1_object (zerombrLines.lines.getD i noLine) :=
  (all_cons (by intro b b' hb hb' x hx line l; kernel_rfl)
    (all_cons (by intro b b' hb hb' x hx line l; kernel_rfl)
    (List.forall_mem_nil _)))

theorem obeys_zerombrLines_1 : ∀ v, [Version.RHEL3, Version.FC3, Version.RHEL4, Version.FC4, Version.FC5, Version.FC6, Version.RHEL5, Version.F7, Version.F8].contains v = true → Command.Obeys (FC3_ZeroMbr.cls) zerombrLines v :=
  obeys_of obeys_zerombrLines_1_object [0] [1, 3] (obeys_zerombrLines_1_base _) (all_cons obeys_zerombrLines_1_start (List.forall_mem_nil _)) (obeys_zerombrLines_1_lines _) (by decide +kernel)

theorem obeys_zerombrLines : zerombrLines.Obeyed := by
  unfold CommandLines.Obeyed commandMaps
  exact (all_cons (fun _ c h => by cases h; exact obeys_zerombrLines_0 _ rfl)
    (all_cons (fun _ c h => by cases h; exact obeys_zerombrLines_0 _ rfl)
    (all_cons (fun _ c h => by cases h; exact obeys_zerombrLines_0 _ rfl)
    (all_cons (fun _ c h => by cases h; exact obeys_zerombrLines_0 _ rfl)
    (all_cons (fun _ c h => by cases h; exact obeys_zerombrLines_0 _ rfl)
    (all_cons (fun _ c h => by cases h; exact obeys_zerombrLines_0 _ rfl)
    (all_cons (fun _ c h => by cases h; exact obeys_zerombrLines_0 _ rfl)
    (all_cons (fun _ c h => by cases h; exact obeys_zerombrLines_0 _ rfl)
    (all_cons (fun _ c h => by cases h; exact obeys_zerombrLines_0 _ rfl)
    (all_cons (fun _ c h => by cases h; exact obeys_zerombrLines_0 _ rfl)
    (all_cons (fun _ c h => by cases h; exact obeys_zerombrLines_0 _ rfl)
    (all_cons (fun _ c h => by cases h; exact obeys_zerombrLines_0 _ rfl)
    (all_cons (fun _ c h => by cases h; exact obeys_zerombrLines_0 _ rfl)
    (all_cons (fun _ c h => by cases h; exact obeys_zerombrLines_0 _ rfl)
    (all_cons (fun _ c h => by cases h; exact obeys_zerombrLines_0 _ rfl)
    (all_cons (fun _ c h => by cases h; exact obeys_zerombrLines_0 _ rfl)
    (all_cons (fun _ c h => by cases h; exact obeys_zerombrLines_0 _ rfl)
    (all_cons (fun _ c h => by cases h; exact obeys_zerombrLines_0 _ rfl)
    (all_cons (fun _ c h => by cases h; exact obeys_zerombrLines_0 _ rfl)
    (all_cons (fun _ c h => by cases h; exact obeys_zerombrLines_0 _ rfl)
    (all_cons (fun _ c h => by cases h; exact obeys_zerombrLines_0 _ rfl)
    (all_cons (fun _ c h => by cases h; exact obeys_zerombrLines_0 _ rfl)
    (all_cons (fun _ c h => by cases h; exact obeys_zerombrLines_0 _ rfl)
    (all_cons (fun _ c h => by cases h; exact obeys_zerombrLines_0 _ rfl)
    (all_cons (fun _ c h => by cases h; exact obeys_zerombrLines_0 _ rfl)
    (all_cons (fun _ c h => by cases h; exact obeys_zerombrLines_1 _ rfl)
    (all_cons (fun _ c h => by cases h; exact obeys_zerombrLines_1 _ rfl)
    (all_cons (fun _ c h => by cases h; exact obeys_zerombrLines_0 _ rfl)
    (all_cons (fun _ c h => by cases h; exact obeys_zerombrLines_1 _ rfl)
    (all_cons (fun _ c h => by cases h; exact obeys_zerombrLines_1 _ rfl)
    (all_cons (fun _ c h => by cases h; exact obeys_zerombrLines_1 _ rfl)
    (all_cons (fun _ c h => by cases h; exact obeys_zerombrLines_1 _ rfl)
    (all_cons (fun _ c h => by cases h; exact obeys_zerombrLines_1 _ rfl)
    (all_cons (fun _ c h => by cases h; exact obeys_zerombrLines_1 _ rfl)
    (all_cons (fun _ c h => by cases h; exact obeys_zerombrLines_1 _ rfl)
    (all_cons (fun _ c h => by cases h; exact obeys_zerombrLines_0 _ rfl)
    (all_cons (fun _ c h => by cases h; exact obeys_zerombrLines_0 _ rfl)
    (all_cons (fun _ c h => by cases h; exact obeys_zerombrLines_0 _ rfl) (List.forall_mem_nil _)))))))))))))))))))))))))))))))))))))))

def obeys_zfcpLines_0_object (l : Nat) : Ns := [(c!"lineno", .int l), (c!"devnum", .str c!"d"), (c!"wwpn", .str c!"w"), (c!"fcplun", .str c!"f"), (c!"scsiid", .str c!"s"), (c!"scsilun", .str c!"l")]

theorem obeys_zfcpLines_0_base (n : Str) : Command.FirstBase (FC3_ZFCP.cls FC3_ZFCPData.cls) n [c!"--devnum=d", c!"--wwpn=w", c!"--fcplun=f", c!"--scsiid=s", c!"--scsilun=l"] obeys_zfcpLines_0_object := by
  intro b b' hb hb' line l; kernel_rfl

theorem obeys_zfcpLines_0_start : Command.FirstStart (FC3_ZFCP.cls FC3_ZFCPData.cls) obeys_zfcpLines_0_object (zfcpLines.start.getD 0 ([], [])).2 := fun _ => .inl ⟨fun _ => rfl, (all_cons (by kernel_rfl) (all_cons (by kernel_rfl) (all_cons (by kernel_rfl) (all_cons (by kernel_rfl) (all_cons (by kernel_rfl) (List.forall_mem_nil _))))))⟩

theorem obeys_zfcpLines_0_lines (n : Str) : ∀ i ∈ [0, 1, 2, 3, 4], Command.FirstLine (FC3_ZFCP.cls FC3_ZFCPData.cls) n [c!"--devnum=d", c!"--wwpn=w", c!"--fcplun=f", c!"--scsiid=s", c!"--scsilun=l"] obeys_zfcpLines_0_object (zfcpLines.lines.getD i noLine) :=
  (all_cons (by intro b b' hb hb' x hx line l; (cases x with | nil => exact absurd rfl hx | cons a x => kernel_rfl))
    (all_cons (by intro b b' hb hb' x hx line l; (cases x with | nil => exact absurd rfl hx | cons a x => kernel_rfl))
    (all_cons (by intro b b' hb hb' x hx line l; (cases x with | nil => exact absurd rfl hx | cons a x => kernel_rfl))
    (all_cons (by intro b b' hb hb' x hx line l; (cases x with | nil => exact absurd rfl hx | cons a x => kernel_rfl))
    (all_cons (by intro b b' hb hb' x hx line l; (cases x with | nil => exact absurd rfl hx | cons a x => kernel_rfl))
    (List.forall_mem_nil _))))))

theorem obeys_zfcpLines_0 : ∀ v, [Version.FC3, Version.RHEL4, Version.FC4, Version.FC5, Version.FC6, Version.RHEL5, Version.F7, Version.F8, Version.F9, Version.F10, Version.F11].contains v = true → Command.Obeys (FC3_ZFCP.cls FC3_ZFCPData.cls) zfcpLines v :=
  obeys_of obeys_zfcpLines_0_object [0] [0, 1, 2, 3, 4] (obeys_zfcpLines_0_base _) (all_cons obeys_zfcpLines_0_start (List.forall_mem_nil _)) (obeys_zfcpLines_0_lines _) (by decide +kernel)

def obeys_zfcpLines_1_object (l : Nat) : Ns := [(c!"lineno", .int l), (c!"devnum", .str c!"d"), (c!"wwpn", .str c!"w"), (c!"fcplun", .str c!"f"), (c!"scsiid", .str c!"s"), (c!"scsilun", .str c!"l")]

theorem obeys_zfcpLines_1_base (n : Str) : Command.FirstBase (F12_ZFCP.cls F12_ZFCPData.cls) n [c!"--devnum=d", c!"--wwpn=w", c!"--fcplun=f", c!"--scsiid=s", c!"--scsilun=l"] obeys_zfcpLines_1_object := by
  intro b b' hb hb' line l; kernel_rfl

theorem obeys_zfcpLines_1_start : Command.FirstStart (F12_ZFCP.cls F12_ZFCPData.cls) obeys_zfcpLines_1_object (zfcpLines.start.getD 0 ([], [])).2 := fun _ => .inl ⟨fun _ => rfl, (all_cons (by kernel_rfl) (all_cons (by kernel_rfl) (all_cons (by kernel_rfl) (all_cons (by kernel_rfl) (all_cons (by kernel_rfl) (List.forall_mem_nil _))))))⟩

theorem obeys_zfcpLines_1_lines (n : Str) : ∀ i ∈ [0, 1, 2, 3, 4], Command.FirstLine (F12_ZFCP.cls F12_ZFCPData.cls) n [c!"--devnum=d", c!"--wwpn=w", c!"--fcplun=f", c!"--scsiid=s", c!"--scsilun=l"] obeys_zfcpLines_1_object (zfcpLines.lines.getD i noLine) :=
  (all_cons (by intro b b' hb hb' x hx line l; (cases x with | nil => exact absurd rfl hx | cons a x => kernel_rfl))
    (all_cons (by intro b b' hb hb' x hx line l; (cases x with | nil => exact absurd rfl hx | cons a x => kernel_rfl))
    (all_cons (by intro b b' hb hb' x hx line l; (cases x with | nil => exact absurd rfl hx | cons a x => kernel_rfl))
    (all_cons (by intro b b' hb hb' x hx line l; (cases x with | nil => exact absurd rfl hx | cons a x => kernel_rfl))
    (all_cons (by intro b b' hb hb' x hx line l; (cases x with | nil => exact absurd rfl hx | cons a x => kernel_rfl))
    (List.forall_mem_nil _))))))

theorem obeys_zfcpLines_1 : ∀ v, [Version.F12, Version.F13, Version.RHEL6].contains v = true → Command.Obeys (F12_ZFCP.cls F12_ZFCPData.cls) zfcpLines v :=
  obeys_of obeys_zfcpLines_1_object [0] [0, 1, 2, 3, 4] (obeys_zfcpLines_1_base _) (all_cons obeys_zfcpLines_1_start (List.forall_mem_nil _)) (obeys_zfcpLines_1_lines _) (by decide +kernel)

theorem obeys_zfcpLines : zfcpLines.Obeyed := by
  unfold CommandLines.Obeyed commandMaps
  exact (all_cons (fun _ c h => by cases h; exact obeys_zfcpLines_0 _ rfl)
    (all_cons (fun _ c h => by cases h; exact obeys_zfcpLines_0 _ rfl)
    (all_cons (fun _ c h => by cases h; exact obeys_zfcpLines_1 _ rfl)
    (all_cons (fun _ c h => by cases h; exact obeys_zfcpLines_1 _ rfl)
    (all_cons (fun hv => absurd hv (by decide))
    (all_cons (fun hv => absurd hv (by decide))
    (all_cons (fun hv => absurd hv (by decide))
    (all_cons (fun hv => absurd hv (by decide))
    (all_cons (fun hv => absurd hv (by decide))
    (all_cons (fun hv => absurd hv (by decide))
    (all_cons (fun hv => absurd hv (by decide))
    (all_cons (fun hv => absurd hv (by decide))
    (all_cons (fun hv => absurd hv (by decide))
    (all_cons (fun hv => absurd hv (by decide))
    (all_cons (fun hv => absurd hv (by decide))
    (all_cons (fun hv => absurd hv (by decide))
    (all_cons (fun hv => absurd hv (by decide))
    (all_cons (fun hv => absurd hv (by decide))
    (all_cons (fun hv => absurd hv (by decide))
    (all_cons (fun hv => absurd hv (by decide))
    (all_cons (fun hv => absurd hv (by decide))
    (all_cons (fun hv => absurd hv (by decide))
    (all_cons (fun hv => absurd hv (by decide))
    (all_cons (fun hv => absurd hv (by decide))
    (all_cons (fun hv => absurd hv (by decide))
    (all_cons (fun _ c h => by cases h; exact obeys_zfcpLines_0 _ rfl)
    (all_cons (fun _ c h => by cases h; exact obeys_zfcpLines_0 _ rfl)
    (all_cons (fun _ c h => by cases h; exact obeys_zfcpLines_0 _ rfl)
    (all_cons (fun _ c h => by cases h; exact obeys_zfcpLines_0 _ rfl)
    (all_cons (fun _ c h => by cases h; exact obeys_zfcpLines_0 _ rfl)
    (all_cons (fun _ c h => by cases h; exact obeys_zfcpLines_0 _ rfl)
    (all_cons (fun _ c h => by cases h; exact obeys_zfcpLines_0 _ rfl)
    (all_cons (fun hv => absurd hv (by decide))
    (all_cons (fun _ c h => by cases h; exact obeys_zfcpLines_0 _ rfl)
    (all_cons (fun _ c h => by cases h; exact obeys_zfcpLines_0 _ rfl)
    (all_cons (fun _ c h => by cases h; exact obeys_zfcpLines_1 _ rfl)
    (all_cons (fun hv => absurd hv (by decide))
    (all_cons (fun hv => absurd hv (by decide)) (List.forall_mem_nil _)))))))))))))))))))))))))))))))))))))))

def obeys_zfcpLines2_0_object (l : Nat) : Ns := [(c!"lineno", .int l), (c!"devnum", .str c!"d"), (c!"wwpn", .str c!"w"), (c!"fcplun", .str c!"f")]

theorem obeys_zfcpLines2_0_base (n : Str) : Command.FirstBase (F12_ZFCP.cls F12_ZFCPData.cls) n [c!"--devnum=d", c!"--wwpn=w", c!"--fcplun=f"] obeys_zfcpLines2_0_object := by
  intro b b' hb hb' line l; kernel_rfl

theorem obeys_zfcpLines2_0_start : Command.FirstStart (F12_ZFCP.cls F12_ZFCPData.cls) obeys_zfcpLines2_0_object (zfcpLines2.start.getD 0 ([], [])).2 := fun _ => .inl ⟨fun _ => rfl, (all_cons (by kernel_rfl) (all_cons (by kernel_rfl) (all_cons (by kernel_rfl) (List.forall_mem_nil _))))⟩

theorem obeys_zfcpLines2_0_lines (n : Str) : ∀ i ∈ [0, 1, 2], Command.FirstLine (F12_ZFCP.cls F12_ZFCPData.cls) n [c!"--devnum=d", c!"--wwpn=w", c!"--fcplun=f"] obeys_zfcpLines2_0_object (zfcpLines2.lines.getD i noLine) :=
  (all_cons (by intro b b' hb hb' x hx line l; (cases x with | nil => exact absurd rfl hx | cons a x => kernel_rfl))
    (all_cons (by intro b b' hb hb' x hx line l; (cases x with | nil => exact absurd rfl hx | cons a x => kernel_rfl))
    (all_cons (by intro b b' hb hb' x hx line l; (cases x with | nil => exact absurd rfl hx | cons a x => kernel_rfl))
    (List.forall_mem_nil _))))

theorem obeys_zfcpLines2_0 : ∀ v, [Version.F12, Version.F13, Version.RHEL6].contains v = true → Command.Obeys (F12_ZFCP.cls F12_ZFCPData.cls) zfcpLines2 v :=
  obeys_of obeys_zfcpLines2_0_object [0] [0, 1, 2] (obeys_zfcpLines2_0_base _) (all_cons obeys_zfcpLines2_0_start (List.forall_mem_nil _)) (obeys_zfcpLines2_0_lines _) (by decide +kernel)

def obeys_zfcpLines2_1_object (l : Nat) : Ns := [(c!"lineno", .int l), (c!"devnum", .str c!"d"), (c!"wwpn", .str c!"w"), (c!"fcplun", .str c!"f")]

theorem obeys_zfcpLines2_1_base (n : Str) : Command.FirstBase (F14_ZFCP.cls F14_ZFCPData.cls) n [c!"--devnum=d", c!"--wwpn=w", c!"--fcplun=f"] obeys_zfcpLines2_1_object := by
  intro b b' hb hb' line l; kernel_rfl

theorem obeys_zfcpLines2_1_start : Command.FirstStart (F14_ZFCP.cls F14_ZFCPData.cls) obeys_zfcpLines2_1_object (zfcpLines2.start.getD 0 ([], [])).2 := fun _ => .inl ⟨fun _ => rfl, (all_cons (by kernel_rfl) (all_cons (by kernel_rfl) (all_cons (by kernel_rfl) (List.forall_mem_nil _))))⟩

theorem obeys_zfcpLines2_1_lines (n : Str) : ∀ i ∈ [0, 1, 2], Command.FirstLine (F14_ZFCP.cls F14_ZFCPData.cls) n [c!"--devnum=d", c!"--wwpn=w", c!"--fcplun=f"] obeys_zfcpLines2_1_object (zfcpLines2.lines.getD i noLine) :=
  (all_cons (by intro b b' hb hb' x hx line l; (cases x with | nil => exact absurd rfl hx | cons a x => kernel_rfl))
    (all_cons (by intro b b' hb hb' x hx line l; (cases x with | nil => exact absurd rfl hx | cons a x => kernel_rfl))
    (all_cons (by intro b b' hb hb' x hx line l; (cases x with | nil => exact absurd rfl hx | cons a x => kernel_rfl))
    (List.forall_mem_nil _))))

theorem obeys_zfcpLines2_1 : ∀ v, [Version.F14, Version.F15, Version.F16, Version.F17, Version.F18, Version.F19, Version.F20, Version.F21, Version.RHEL7, Version.F22, Version.F23, Version.F24, Version.F25, Version.F26, Version.F27, Version.F28, Version.RHEL8, Version.F29, Version.F30, Version.F31, Version.F32, Version.F33, Version.F34].contains v = true → Command.Obeys (F14_ZFCP.cls F14_ZFCPData.cls) zfcpLines2 v :=
  obeys_of obeys_zfcpLines2_1_object [0] [0, 1, 2] (obeys_zfcpLines2_1_base _) (all_cons obeys_zfcpLines2_1_start (List.forall_mem_nil _)) (obeys_zfcpLines2_1_lines _) (by decide +kernel)

theorem obeys_zfcpLines2 : zfcpLines2.Obeyed := by
  unfold CommandLines.Obeyed commandMaps
  exact (all_cons (fun hv => absurd hv (by decide))
    (all_cons (fun hv => absurd hv (by decide))
    (all_cons (fun _ c h => by cases h; exact obeys_zfcpLines2_0 _ rfl)
    (all_cons (fun _ c h => by cases h; exact obeys_zfcpLines2_0 _ rfl)
    (all_cons (fun _ c h => by cases h; exact obeys_zfcpLines2_1 _ rfl)
    (all_cons (fun _ c h => by cases h; exact obeys_zfcpLines2_1 _ rfl)
    (all_cons (fun _ c h => by cases h; exact obeys_zfcpLines2_1 _ rfl)
    (all_cons (fun _ c h => by cases h; exact obeys_zfcpLines2_1 _ rfl)
    (all_cons (fun _ c h => by cases h; exact obeys_zfcpLines2_1 _ rfl)
    (all_cons (fun _ c h => by cases h; exact obeys_zfcpLines2_1 _ rfl)
    (all_cons (fun _ c h => by cases h; exact obeys_zfcpLines2_1 _ rfl)
    (all_cons (fun _ c h => by cases h; exact obeys_zfcpLines2_1 _ rfl)
    (all_cons (fun _ c h => by cases h; exact obeys_zfcpLines2_1 _ rfl)
    (all_cons (fun _ c h => by cases h; exact obeys_zfcpLines2_1 _ rfl)
    (all_cons (fun _ c h => by cases h; exact obeys_zfcpLines2_1 _ rfl)
    (all_cons (fun _ c h => by cases h; exact obeys_zfcpLines2_1 _ rfl)
    (all_cons (fun _ c h => by cases h; exact obeys_zfcpLines2_1 _ rfl)
    (all_cons (fun _ c h => by cases h; exact obeys_zfcpLines2_1 _ rfl)
    (all_cons (fun _ c h => by cases h; exact obeys_zfcpLines2_1 _ rfl)
    (all_cons (fun _ c h => by cases h; exact obeys_zfcpLines2_1 _ rfl)
    (all_cons (fun _ c h => by cases h; exact obeys_zfcpLines2_1 _ rfl)
    (all_cons (fun _ c h => by cases h; exact obeys_zfcpLines2_1 _ rfl)
    (all_cons (fun _ c h => by cases h; exact obeys_zfcpLines2_1 _ rfl)
    (all_cons (fun _ c h => by cases h; exact obeys_zfcpLines2_1 _ rfl)
    (all_cons (fun _ c h => by cases h; exact obeys_zfcpLines2_1 _ rfl)
    (all_cons (fun hv => absurd hv (by decide))
    (all_cons (fun hv => absurd hv (by decide))
    (all_cons (fun hv => absurd hv (by decide))
    (all_cons (fun hv => absurd hv (by decide))
    (all_cons (fun hv => absurd hv (by decide))
    (all_cons (fun hv => absurd hv (by decide))
    (all_cons (fun hv => absurd hv (by decide))
    (all_cons (fun hv => absurd hv (by decide))
    (all_cons (fun hv => absurd hv (by decide))
    (all_cons (fun hv => absurd hv (by decide))
    (all_cons (fun _ c h => by cases h; exact obeys_zfcpLines2_0 _ rfl)
    (all_cons (fun _ c h => by cases h; exact obeys_zfcpLines2_1 _ rfl)
    (all_cons (fun _ c h => by cases h; exact obeys_zfcpLines2_1 _ rfl) (List.forall_mem_nil _)))))))))))))))))))))))))))))))))))))))

end Ks.Cmd
