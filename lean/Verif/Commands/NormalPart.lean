import Verif.Commands.NormalClasses
import Verif.Commands.NormalSpec
/-!
# The text of an object is read again, class by class

Written by `scripts/gen_normal.py`.
-/
namespace Ks.Cmd

set_option linter.unusedVariables false

theorem normal_F9_Partition_F9_PartData_lost : (F9_Partition.cls F9_PartData.cls).Normal (partSheetOf true) (needs c!"part" Version.F10) (unread c!"part") (setToObj (F9_Partition.info F9_PartData.cls).op.defaults F9_PartData.init) :=
  mount_normal (o := FC3_PartData.strOut F9_PartData.args) (T := [c!"lineno", c!"mountpoint"]) (partSheetOf true) (fun args n => post_weaken (FC3_Partition.parsed _ args n) fun _ h => h.mono (by decide)) (fun args n => FC3_Partition.mountOf _ args n) (fun _ => rfl) (.inr ⟨_, by decide, rfl⟩) (fun a b => FC3_Partition.sim _ a b (by decide +kernel)) (by decide) (by decide +kernel) (by decide +kernel)

theorem same_F9_Partition_F9_PartData_lost : (F9_Partition.cls F9_PartData.cls).SameText := list_same (o := FC3_PartData.strOut F9_PartData.args) (fun _ => rfl) (by decide +kernel)

theorem normal_F11_Partition_F11_PartData_lost : (F11_Partition.cls F11_PartData.cls).Normal (partSheetOf true) (needs c!"part" Version.F11) (unread c!"part") (setToObj (F11_Partition.info F11_PartData.cls).op.defaults F11_PartData.init) :=
  mount_normal (o := FC3_PartData.strOut F9_PartData.args) (T := [c!"lineno", c!"mountpoint"]) (partSheetOf true) (fun args n => post_weaken (FC3_Partition.parsed _ args n) fun _ h => h.mono (by decide)) (fun args n => FC3_Partition.mountOf _ args n) (fun _ => rfl) (.inr ⟨_, by decide, rfl⟩) (fun a b => FC3_Partition.sim _ a b (by decide +kernel)) (by decide) (by decide +kernel) (by decide +kernel)

theorem same_F11_Partition_F11_PartData_lost : (F11_Partition.cls F11_PartData.cls).SameText := list_same (o := FC3_PartData.strOut F9_PartData.args) (fun _ => rfl) (by decide +kernel)

theorem normal_F12_Partition_F12_PartData_lost : (F12_Partition.cls F12_PartData.cls).Normal (partSheetOf true) (needs c!"part" Version.F12) (unread c!"part") (setToObj (F12_Partition.info F12_PartData.cls).op.defaults F12_PartData.init) :=
  mount_normal (o := FC3_PartData.strOut F12_PartData.args) (T := [c!"lineno", c!"mountpoint"]) (partSheetOf true) (fun args n => post_weaken (FC3_Partition.parsed _ args n) fun _ h => h.mono (by decide)) (fun args n => FC3_Partition.mountOf _ args n) (fun _ => rfl) (.inr ⟨_, by decide, rfl⟩) (fun a b => FC3_Partition.sim _ a b (by decide +kernel)) (by decide) (by decide +kernel) (by decide +kernel)

theorem same_F12_Partition_F12_PartData_lost : (F12_Partition.cls F12_PartData.cls).SameText := list_same (o := FC3_PartData.strOut F12_PartData.args) (fun _ => rfl) (by decide +kernel)

theorem normal_F14_Partition_F14_PartData : (F14_Partition.cls F14_PartData.cls).Normal (partSheetOf false) (needs c!"part" Version.F14) (unread c!"part") (setToObj (F14_Partition.info F14_PartData.cls).op.defaults F14_PartData.init) :=
  mount_normal (o := FC3_PartData.strOut F12_PartData.args) (T := [c!"lineno", c!"mountpoint"]) (partSheetOf false) (fun args n => post_weaken (FC3_Partition.parsed _ args n) fun _ h => h.mono (by decide)) (fun args n => FC3_Partition.mountOf _ args n) (fun _ => rfl) (.inr ⟨_, by decide, rfl⟩) (fun a b => FC3_Partition.sim _ a b (by decide +kernel)) (by decide) (by decide +kernel) (by decide +kernel)

theorem same_F14_Partition_F14_PartData : (F14_Partition.cls F14_PartData.cls).SameText := list_same (o := FC3_PartData.strOut F12_PartData.args) (fun _ => rfl) (by decide +kernel)

theorem normal_F14_Partition_F17_PartData : (F14_Partition.cls F17_PartData.cls).Normal (partSheetOf false) (needs c!"part" Version.F16) (unread c!"part") (setToObj (F14_Partition.info F17_PartData.cls).op.defaults F17_PartData.init) :=
  mount_normal (o := FC3_PartData.strOut F17_PartData.args) (T := [c!"lineno", c!"mountpoint"]) (partSheetOf false) (fun args n => post_weaken (FC3_Partition.parsed _ args n) fun _ h => h.mono (by decide)) (fun args n => FC3_Partition.mountOf _ args n) (fun _ => rfl) (.inr ⟨_, by decide, rfl⟩) (fun a b => FC3_Partition.sim _ a b (by decide +kernel)) (by decide) (by decide +kernel) (by decide +kernel)

theorem same_F14_Partition_F17_PartData : (F14_Partition.cls F17_PartData.cls).SameText := list_same (o := FC3_PartData.strOut F17_PartData.args) (fun _ => rfl) (by decide +kernel)

theorem normal_F17_Partition_F17_PartData : (F17_Partition.cls F17_PartData.cls).Normal (partSheetOf false) (needs c!"part" Version.F17) (unread c!"part") (setToObj (F17_Partition.info F17_PartData.cls).op.defaults F17_PartData.init) :=
  mount_normal (o := FC3_PartData.strOut F17_PartData.args) (T := [c!"lineno", c!"mountpoint"]) (partSheetOf false) (fun args n => post_weaken (F17_Partition.parsed _ args n) fun _ h => h.mono (by decide)) (fun args n => F17_Partition.mountOf _ args n) (fun _ => rfl) (.inr ⟨_, by decide, rfl⟩) (fun a b => F17_Partition.sim _ a b (by decide +kernel)) (by decide) (by decide +kernel) (by decide +kernel)

theorem same_F17_Partition_F17_PartData : (F17_Partition.cls F17_PartData.cls).SameText := list_same (o := FC3_PartData.strOut F17_PartData.args) (fun _ => rfl) (by decide +kernel)

theorem normal_F18_Partition_F18_PartData : (F18_Partition.cls F18_PartData.cls).Normal (partSheetOf false) (needs c!"part" Version.F18) (unread c!"part") (setToObj (F18_Partition.info F18_PartData.cls).op.defaults F18_PartData.init) :=
  mount_normal (o := FC3_PartData.strOut F18_PartData.args) (T := [c!"lineno", c!"mountpoint"]) (partSheetOf false) (fun args n => post_weaken (F17_Partition.parsed _ args n) fun _ h => h.mono (by decide)) (fun args n => F17_Partition.mountOf _ args n) (fun _ => rfl) (.inr ⟨_, by decide, rfl⟩) (fun a b => F17_Partition.sim _ a b (by decide +kernel)) (by decide) (by decide +kernel) (by decide +kernel)

theorem same_F18_Partition_F18_PartData : (F18_Partition.cls F18_PartData.cls).SameText := list_same (o := FC3_PartData.strOut F18_PartData.args) (fun _ => rfl) (by decide +kernel)

theorem normal_F20_Partition_F18_PartData : (F20_Partition.cls F18_PartData.cls).Normal (partSheetOf false) (needs c!"part" Version.F20) (unread c!"part") (setToObj (F20_Partition.info F18_PartData.cls).op.defaults F18_PartData.init) :=
  mount_normal (o := FC3_PartData.strOut F18_PartData.args) (T := [c!"lineno", c!"mountpoint"]) (partSheetOf false) (fun args n => post_weaken (F20_Partition.parsed _ args n) fun _ h => h.mono (by decide)) (fun args n => F20_Partition.mountOf _ args n) (fun _ => rfl) (.inr ⟨_, by decide, rfl⟩) (fun a b => F20_Partition.sim _ a b (by decide +kernel)) (by decide) (by decide +kernel) (by decide +kernel)

theorem same_F20_Partition_F18_PartData : (F20_Partition.cls F18_PartData.cls).SameText := list_same (o := FC3_PartData.strOut F18_PartData.args) (fun _ => rfl) (by decide +kernel)

theorem normal_F23_Partition_F23_PartData : (F23_Partition.cls F23_PartData.cls).Normal (partSheetOf false) (needs c!"part" Version.F23) (unread c!"part") (setToObj (F23_Partition.info F23_PartData.cls).op.defaults F23_PartData.init) :=
  mount_normal (o := FC3_PartData.strOut F23_PartData.args) (T := [c!"lineno", c!"mountpoint"]) (partSheetOf false) (fun args n => post_weaken (F23_Partition.parsed _ args n) fun _ h => h.mono (by decide)) (fun args n => F23_Partition.mountOf _ args n) (fun _ => rfl) (.inr ⟨_, by decide, rfl⟩) (fun a b => F23_Partition.sim _ a b (by decide +kernel)) (by decide) (by decide +kernel) (by decide +kernel)

theorem same_F23_Partition_F23_PartData : (F23_Partition.cls F23_PartData.cls).SameText := list_same (o := FC3_PartData.strOut F23_PartData.args) (fun _ => rfl) (by decide +kernel)

theorem normal_F29_Partition_F29_PartData : (F29_Partition.cls F29_PartData.cls).Normal (partSheetOf false) (needs c!"part" Version.F29) (unread c!"part") (setToObj (F29_Partition.info F29_PartData.cls).op.defaults F29_PartData.init) :=
  mount_normal (o := FC3_PartData.strOut F29_PartData.args) (T := [c!"lineno", c!"mountpoint"]) (partSheetOf false) (fun args n => post_weaken (F29_Partition.parsed _ args n) fun _ h => h.mono (by decide)) (fun args n => F29_Partition.mountOf _ args n) (fun _ => rfl) (.inr ⟨_, by decide, rfl⟩) (fun a b => F29_Partition.sim _ a b (by decide +kernel)) (by decide) (by decide +kernel) (by decide +kernel)

theorem same_F29_Partition_F29_PartData : (F29_Partition.cls F29_PartData.cls).SameText := list_same (o := FC3_PartData.strOut F29_PartData.args) (fun _ => rfl) (by decide +kernel)

theorem normal_F34_Partition_F29_PartData : (F34_Partition.cls F29_PartData.cls).Normal (partSheetOf false) (needs c!"part" Version.F34) (unread c!"part") (setToObj (F34_Partition.info F29_PartData.cls).op.defaults F29_PartData.init) :=
  mount_normal (o := FC3_PartData.strOut F29_PartData.args) (T := [c!"lineno", c!"mountpoint"]) (partSheetOf false) (fun args n => post_weaken (F29_Partition.parsed _ args n) fun _ h => h.mono (by decide)) (fun args n => F29_Partition.mountOf _ args n) (fun _ => rfl) (.inr ⟨_, by decide, rfl⟩) (fun a b => F29_Partition.sim _ a b (by decide +kernel)) (by decide) (by decide +kernel) (by decide +kernel)

theorem same_F34_Partition_F29_PartData : (F34_Partition.cls F29_PartData.cls).SameText := list_same (o := FC3_PartData.strOut F29_PartData.args) (fun _ => rfl) (by decide +kernel)

theorem normal_FC4_Partition_FC4_PartData : (FC4_Partition.cls FC4_PartData.cls).Normal (partSheetOf false) (needs c!"part" Version.F7) (unread c!"part") (setToObj (FC4_Partition.info FC4_PartData.cls).op.defaults FC4_PartData.init) :=
  mount_normal (o := FC3_PartData.strOut FC4_PartData.args) (T := [c!"lineno", c!"mountpoint"]) (partSheetOf false) (fun args n => post_weaken (FC3_Partition.parsed _ args n) fun _ h => h.mono (by decide)) (fun args n => FC3_Partition.mountOf _ args n) (fun _ => rfl) (.inr ⟨_, by decide, rfl⟩) (fun a b => FC3_Partition.sim _ a b (by decide +kernel)) (by decide) (by decide +kernel) (by decide +kernel)

theorem same_FC4_Partition_FC4_PartData : (FC4_Partition.cls FC4_PartData.cls).SameText := list_same (o := FC3_PartData.strOut FC4_PartData.args) (fun _ => rfl) (by decide +kernel)

theorem normal_FC3_Partition_FC3_PartData : (FC3_Partition.cls FC3_PartData.cls).Normal (partSheetOf false) (needs c!"part" Version.FC3) (unread c!"part") (setToObj (FC3_Partition.info FC3_PartData.cls).op.defaults FC3_PartData.init) :=
  mount_normal (o := FC3_PartData.strOut FC3_PartData.args) (T := [c!"lineno", c!"mountpoint"]) (partSheetOf false) (fun args n => post_weaken (FC3_Partition.parsed _ args n) fun _ h => h.mono (by decide)) (fun args n => FC3_Partition.mountOf _ args n) (fun _ => rfl) (.inr ⟨_, by decide, rfl⟩) (fun a b => FC3_Partition.sim _ a b (by decide +kernel)) (by decide) (by decide +kernel) (by decide +kernel)

theorem same_FC3_Partition_FC3_PartData : (FC3_Partition.cls FC3_PartData.cls).SameText := list_same (o := FC3_PartData.strOut FC3_PartData.args) (fun _ => rfl) (by decide +kernel)

theorem normal_RHEL5_Partition_RHEL5_PartData : (RHEL5_Partition.cls RHEL5_PartData.cls).Normal (partSheetOf false) (needs c!"part" Version.RHEL5) (unread c!"part") (setToObj (RHEL5_Partition.info RHEL5_PartData.cls).op.defaults RHEL5_PartData.init) :=
  mount_normal (o := FC3_PartData.strOut RHEL5_PartData.args) (T := [c!"lineno", c!"mountpoint"]) (partSheetOf false) (fun args n => post_weaken (FC3_Partition.parsed _ args n) fun _ h => h.mono (by decide)) (fun args n => FC3_Partition.mountOf _ args n) (fun _ => rfl) (.inr ⟨_, by decide, rfl⟩) (fun a b => FC3_Partition.sim _ a b (by decide +kernel)) (by decide) (by decide +kernel) (by decide +kernel)

theorem same_RHEL5_Partition_RHEL5_PartData : (RHEL5_Partition.cls RHEL5_PartData.cls).SameText := list_same (o := FC3_PartData.strOut RHEL5_PartData.args) (fun _ => rfl) (by decide +kernel)

theorem normal_RHEL6_Partition_RHEL6_PartData_lost : (RHEL6_Partition.cls RHEL6_PartData.cls).Normal (partSheetOf true) (needs c!"part" Version.RHEL6) (unread c!"part") (setToObj (RHEL6_Partition.info RHEL6_PartData.cls).op.defaults RHEL6_PartData.init) :=
  mount_normal (o := FC3_PartData.strOut RHEL6_PartData.args) (T := [c!"lineno", c!"mountpoint"]) (partSheetOf true) (fun args n => post_weaken (RHEL6_Partition.parsed _ args n) fun _ h => h.mono (by decide)) (fun args n => RHEL6_Partition.mountOf _ args n) (fun _ => rfl) (.inr ⟨_, by decide, rfl⟩) (fun a b => RHEL6_Partition.sim _ a b (by decide +kernel)) (by decide) (by decide +kernel) (by decide +kernel)

theorem same_RHEL6_Partition_RHEL6_PartData_lost : (RHEL6_Partition.cls RHEL6_PartData.cls).SameText := list_same (o := FC3_PartData.strOut RHEL6_PartData.args) (fun _ => rfl) (by decide +kernel)

theorem normal_RHEL7_Partition_RHEL7_PartData : (RHEL7_Partition.cls RHEL7_PartData.cls).Normal (partSheetOf false) (needs c!"part" Version.RHEL7) (unread c!"part") (setToObj (RHEL7_Partition.info RHEL7_PartData.cls).op.defaults RHEL7_PartData.init) :=
  mount_normal (o := FC3_PartData.strOut F23_PartData.args) (T := [c!"lineno", c!"mountpoint"]) (partSheetOf false) (fun args n => post_weaken (F23_Partition.parsed _ args n) fun _ h => h.mono (by decide)) (fun args n => F23_Partition.mountOf _ args n) (fun _ => rfl) (.inr ⟨_, by decide, rfl⟩) (fun a b => F23_Partition.sim _ a b (by decide +kernel)) (by decide) (by decide +kernel) (by decide +kernel)

theorem same_RHEL7_Partition_RHEL7_PartData : (RHEL7_Partition.cls RHEL7_PartData.cls).SameText := list_same (o := FC3_PartData.strOut F23_PartData.args) (fun _ => rfl) (by decide +kernel)

theorem normal_RHEL8_Partition_RHEL8_PartData : (RHEL8_Partition.cls RHEL8_PartData.cls).Normal (partSheetOf false) (needs c!"part" Version.RHEL8) (unread c!"part") (setToObj (RHEL8_Partition.info RHEL8_PartData.cls).op.defaults RHEL8_PartData.init) :=
  mount_normal (o := FC3_PartData.strOut F29_PartData.args) (T := [c!"lineno", c!"mountpoint"]) (partSheetOf false) (fun args n => post_weaken (RHEL8_Partition.parsed _ args n) fun _ h => h.mono (by decide)) (fun args n => RHEL8_Partition.mountOf _ args n) (fun _ => rfl) (.inr ⟨_, by decide, rfl⟩) (fun a b => RHEL8_Partition.sim _ a b (by decide +kernel)) (by decide) (by decide +kernel) (by decide +kernel)

theorem same_RHEL8_Partition_RHEL8_PartData : (RHEL8_Partition.cls RHEL8_PartData.cls).SameText := list_same (o := FC3_PartData.strOut F29_PartData.args) (fun _ => rfl) (by decide +kernel)

/-- The values of an object of `part` without options. -/
def partBases : List (Nat × Ns) :=
  [(Version.F10, setToObj (F9_Partition.info F9_PartData.cls).op.defaults F9_PartData.init),
   (Version.F11, setToObj (F11_Partition.info F11_PartData.cls).op.defaults F11_PartData.init),
   (Version.F12, setToObj (F12_Partition.info F12_PartData.cls).op.defaults F12_PartData.init),
   (Version.F13, setToObj (F12_Partition.info F12_PartData.cls).op.defaults F12_PartData.init),
   (Version.F14, setToObj (F14_Partition.info F14_PartData.cls).op.defaults F14_PartData.init),
   (Version.F15, setToObj (F14_Partition.info F14_PartData.cls).op.defaults F14_PartData.init),
   (Version.F16, setToObj (F14_Partition.info F17_PartData.cls).op.defaults F17_PartData.init),
   (Version.F17, setToObj (F17_Partition.info F17_PartData.cls).op.defaults F17_PartData.init),
   (Version.F18, setToObj (F18_Partition.info F18_PartData.cls).op.defaults F18_PartData.init),
   (Version.F19, setToObj (F18_Partition.info F18_PartData.cls).op.defaults F18_PartData.init),
   (Version.F20, setToObj (F20_Partition.info F18_PartData.cls).op.defaults F18_PartData.init),
   (Version.F21, setToObj (F20_Partition.info F18_PartData.cls).op.defaults F18_PartData.init),
   (Version.F22, setToObj (F20_Partition.info F18_PartData.cls).op.defaults F18_PartData.init),
   (Version.F23, setToObj (F23_Partition.info F23_PartData.cls).op.defaults F23_PartData.init),
   (Version.F24, setToObj (F23_Partition.info F23_PartData.cls).op.defaults F23_PartData.init),
   (Version.F25, setToObj (F23_Partition.info F23_PartData.cls).op.defaults F23_PartData.init),
   (Version.F26, setToObj (F23_Partition.info F23_PartData.cls).op.defaults F23_PartData.init),
   (Version.F27, setToObj (F23_Partition.info F23_PartData.cls).op.defaults F23_PartData.init),
   (Version.F28, setToObj (F23_Partition.info F23_PartData.cls).op.defaults F23_PartData.init),
   (Version.F29, setToObj (F29_Partition.info F29_PartData.cls).op.defaults F29_PartData.init),
   (Version.F30, setToObj (F29_Partition.info F29_PartData.cls).op.defaults F29_PartData.init),
   (Version.F31, setToObj (F29_Partition.info F29_PartData.cls).op.defaults F29_PartData.init),
   (Version.F32, setToObj (F29_Partition.info F29_PartData.cls).op.defaults F29_PartData.init),
   (Version.F33, setToObj (F29_Partition.info F29_PartData.cls).op.defaults F29_PartData.init),
   (Version.F34, setToObj (F34_Partition.info F29_PartData.cls).op.defaults F29_PartData.init),
   (Version.F7, setToObj (FC4_Partition.info FC4_PartData.cls).op.defaults FC4_PartData.init),
   (Version.F8, setToObj (FC4_Partition.info FC4_PartData.cls).op.defaults FC4_PartData.init),
   (Version.F9, setToObj (F9_Partition.info F9_PartData.cls).op.defaults F9_PartData.init),
   (Version.FC3, setToObj (FC3_Partition.info FC3_PartData.cls).op.defaults FC3_PartData.init),
   (Version.FC4, setToObj (FC4_Partition.info FC4_PartData.cls).op.defaults FC4_PartData.init),
   (Version.FC5, setToObj (FC4_Partition.info FC4_PartData.cls).op.defaults FC4_PartData.init),
   (Version.FC6, setToObj (FC4_Partition.info FC4_PartData.cls).op.defaults FC4_PartData.init),
   (Version.RHEL3, setToObj (FC3_Partition.info FC3_PartData.cls).op.defaults FC3_PartData.init),
   (Version.RHEL4, setToObj (FC3_Partition.info FC3_PartData.cls).op.defaults FC3_PartData.init),
   (Version.RHEL5, setToObj (RHEL5_Partition.info RHEL5_PartData.cls).op.defaults RHEL5_PartData.init),
   (Version.RHEL6, setToObj (RHEL6_Partition.info RHEL6_PartData.cls).op.defaults RHEL6_PartData.init),
   (Version.RHEL7, setToObj (RHEL7_Partition.info RHEL7_PartData.cls).op.defaults RHEL7_PartData.init),
   (Version.RHEL8, setToObj (RHEL8_Partition.info RHEL8_PartData.cls).op.defaults RHEL8_PartData.init)]

theorem normal_part : ∀ y ∈ commandMaps, ∀ c, y.2.lookup c!"part" = some c → c.hasList { attrs := {} } = true →
    ∃ base, partBases.lookup y.1 = some base ∧ c.Normal (partSheet y.1) (needs c!"part" y.1) (unread c!"part") base ∧ c.SameText := by
  unfold commandMaps
  exact (all_cons (fun c h hl => by cases h; exact ⟨_, rfl, normal_F9_Partition_F9_PartData_lost, same_F9_Partition_F9_PartData_lost⟩)
    (all_cons (fun c h hl => by cases h; exact ⟨_, rfl, normal_F11_Partition_F11_PartData_lost, same_F11_Partition_F11_PartData_lost⟩)
    (all_cons (fun c h hl => by cases h; exact ⟨_, rfl, normal_F12_Partition_F12_PartData_lost, same_F12_Partition_F12_PartData_lost⟩)
    (all_cons (fun c h hl => by cases h; exact ⟨_, rfl, normal_F12_Partition_F12_PartData_lost, same_F12_Partition_F12_PartData_lost⟩)
    (all_cons (fun c h hl => by cases h; exact ⟨_, rfl, normal_F14_Partition_F14_PartData, same_F14_Partition_F14_PartData⟩)
    (all_cons (fun c h hl => by cases h; exact ⟨_, rfl, normal_F14_Partition_F14_PartData, same_F14_Partition_F14_PartData⟩)
    (all_cons (fun c h hl => by cases h; exact ⟨_, rfl, normal_F14_Partition_F17_PartData, same_F14_Partition_F17_PartData⟩)
    (all_cons (fun c h hl => by cases h; exact ⟨_, rfl, normal_F17_Partition_F17_PartData, same_F17_Partition_F17_PartData⟩)
    (all_cons (fun c h hl => by cases h; exact ⟨_, rfl, normal_F18_Partition_F18_PartData, same_F18_Partition_F18_PartData⟩)
    (all_cons (fun c h hl => by cases h; exact ⟨_, rfl, normal_F18_Partition_F18_PartData, same_F18_Partition_F18_PartData⟩)
    (all_cons (fun c h hl => by cases h; exact ⟨_, rfl, normal_F20_Partition_F18_PartData, same_F20_Partition_F18_PartData⟩)
    (all_cons (fun c h hl => by cases h; exact ⟨_, rfl, normal_F20_Partition_F18_PartData, same_F20_Partition_F18_PartData⟩)
    (all_cons (fun c h hl => by cases h; exact ⟨_, rfl, normal_F20_Partition_F18_PartData, same_F20_Partition_F18_PartData⟩)
    (all_cons (fun c h hl => by cases h; exact ⟨_, rfl, normal_F23_Partition_F23_PartData, same_F23_Partition_F23_PartData⟩)
    (all_cons (fun c h hl => by cases h; exact ⟨_, rfl, normal_F23_Partition_F23_PartData, same_F23_Partition_F23_PartData⟩)
    (all_cons (fun c h hl => by cases h; exact ⟨_, rfl, normal_F23_Partition_F23_PartData, same_F23_Partition_F23_PartData⟩)
    (all_cons (fun c h hl => by cases h; exact ⟨_, rfl, normal_F23_Partition_F23_PartData, same_F23_Partition_F23_PartData⟩)
    (all_cons (fun c h hl => by cases h; exact ⟨_, rfl, normal_F23_Partition_F23_PartData, same_F23_Partition_F23_PartData⟩)
    (all_cons (fun c h hl => by cases h; exact ⟨_, rfl, normal_F23_Partition_F23_PartData, same_F23_Partition_F23_PartData⟩)
    (all_cons (fun c h hl => by cases h; exact ⟨_, rfl, normal_F29_Partition_F29_PartData, same_F29_Partition_F29_PartData⟩)
    (all_cons (fun c h hl => by cases h; exact ⟨_, rfl, normal_F29_Partition_F29_PartData, same_F29_Partition_F29_PartData⟩)
    (all_cons (fun c h hl => by cases h; exact ⟨_, rfl, normal_F29_Partition_F29_PartData, same_F29_Partition_F29_PartData⟩)
    (all_cons (fun c h hl => by cases h; exact ⟨_, rfl, normal_F29_Partition_F29_PartData, same_F29_Partition_F29_PartData⟩)
    (all_cons (fun c h hl => by cases h; exact ⟨_, rfl, normal_F29_Partition_F29_PartData, same_F29_Partition_F29_PartData⟩)
    (all_cons (fun c h hl => by cases h; exact ⟨_, rfl, normal_F34_Partition_F29_PartData, same_F34_Partition_F29_PartData⟩)
    (all_cons (fun c h hl => by cases h; exact ⟨_, rfl, normal_FC4_Partition_FC4_PartData, same_FC4_Partition_FC4_PartData⟩)
    (all_cons (fun c h hl => by cases h; exact ⟨_, rfl, normal_FC4_Partition_FC4_PartData, same_FC4_Partition_FC4_PartData⟩)
    (all_cons (fun c h hl => by cases h; exact ⟨_, rfl, normal_F9_Partition_F9_PartData_lost, same_F9_Partition_F9_PartData_lost⟩)
    (all_cons (fun c h hl => by cases h; exact ⟨_, rfl, normal_FC3_Partition_FC3_PartData, same_FC3_Partition_FC3_PartData⟩)
    (all_cons (fun c h hl => by cases h; exact ⟨_, rfl, normal_FC4_Partition_FC4_PartData, same_FC4_Partition_FC4_PartData⟩)
    (all_cons (fun c h hl => by cases h; exact ⟨_, rfl, normal_FC4_Partition_FC4_PartData, same_FC4_Partition_FC4_PartData⟩)
    (all_cons (fun c h hl => by cases h; exact ⟨_, rfl, normal_FC4_Partition_FC4_PartData, same_FC4_Partition_FC4_PartData⟩)
    (all_cons (fun c h hl => by cases h; exact ⟨_, rfl, normal_FC3_Partition_FC3_PartData, same_FC3_Partition_FC3_PartData⟩)
    (all_cons (fun c h hl => by cases h; exact ⟨_, rfl, normal_FC3_Partition_FC3_PartData, same_FC3_Partition_FC3_PartData⟩)
    (all_cons (fun c h hl => by cases h; exact ⟨_, rfl, normal_RHEL5_Partition_RHEL5_PartData, same_RHEL5_Partition_RHEL5_PartData⟩)
    (all_cons (fun c h hl => by cases h; exact ⟨_, rfl, normal_RHEL6_Partition_RHEL6_PartData_lost, same_RHEL6_Partition_RHEL6_PartData_lost⟩)
    (all_cons (fun c h hl => by cases h; exact ⟨_, rfl, normal_RHEL7_Partition_RHEL7_PartData, same_RHEL7_Partition_RHEL7_PartData⟩)
    (all_cons (fun c h hl => by cases h; exact ⟨_, rfl, normal_RHEL8_Partition_RHEL8_PartData, same_RHEL8_Partition_RHEL8_PartData⟩) (List.forall_mem_nil _)))))))))))))))))))))))))))))))))))))))

/-- The values of an object of `partition` without options. -/
def partitionBases : List (Nat × Ns) :=
  [(Version.F10, setToObj (F9_Partition.info F9_PartData.cls).op.defaults F9_PartData.init),
   (Version.F11, setToObj (F11_Partition.info F11_PartData.cls).op.defaults F11_PartData.init),
   (Version.F12, setToObj (F12_Partition.info F12_PartData.cls).op.defaults F12_PartData.init),
   (Version.F13, setToObj (F12_Partition.info F12_PartData.cls).op.defaults F12_PartData.init),
   (Version.F14, setToObj (F14_Partition.info F14_PartData.cls).op.defaults F14_PartData.init),
   (Version.F15, setToObj (F14_Partition.info F14_PartData.cls).op.defaults F14_PartData.init),
   (Version.F16, setToObj (F14_Partition.info F17_PartData.cls).op.defaults F17_PartData.init),
   (Version.F17, setToObj (F17_Partition.info F17_PartData.cls).op.defaults F17_PartData.init),
   (Version.F18, setToObj (F18_Partition.info F18_PartData.cls).op.defaults F18_PartData.init),
   (Version.F19, setToObj (F18_Partition.info F18_PartData.cls).op.defaults F18_PartData.init),
   (Version.F20, setToObj (F20_Partition.info F18_PartData.cls).op.defaults F18_PartData.init),
   (Version.F21, setToObj (F20_Partition.info F18_PartData.cls).op.defaults F18_PartData.init),
   (Version.F22, setToObj (F20_Partition.info F18_PartData.cls).op.defaults F18_PartData.init),
   (Version.F23, setToObj (F23_Partition.info F23_PartData.cls).op.defaults F23_PartData.init),
   (Version.F24, setToObj (F23_Partition.info F23_PartData.cls).op.defaults F23_PartData.init),
   (Version.F25, setToObj (F23_Partition.info F23_PartData.cls).op.defaults F23_PartData.init),
   (Version.F26, setToObj (F23_Partition.info F23_PartData.cls).op.defaults F23_PartData.init),
   (Version.F27, setToObj (F23_Partition.info F23_PartData.cls).op.defaults F23_PartData.init),
   (Version.F28, setToObj (F23_Partition.info F23_PartData.cls).op.defaults F23_PartData.init),
   (Version.F29, setToObj (F29_Partition.info F29_PartData.cls).op.defaults F29_PartData.init),
   (Version.F30, setToObj (F29_Partition.info F29_PartData.cls).op.defaults F29_PartData.init),
   (Version.F31, setToObj (F29_Partition.info F29_PartData.cls).op.defaults F29_PartData.init),
   (Version.F32, setToObj (F29_Partition.info F29_PartData.cls).op.defaults F29_PartData.init),
   (Version.F33, setToObj (F29_Partition.info F29_PartData.cls).op.defaults F29_PartData.init),
   (Version.F34, setToObj (F34_Partition.info F29_PartData.cls).op.defaults F29_PartData.init),
   (Version.F7, setToObj (FC4_Partition.info FC4_PartData.cls).op.defaults FC4_PartData.init),
   (Version.F8, setToObj (FC4_Partition.info FC4_PartData.cls).op.defaults FC4_PartData.init),
   (Version.F9, setToObj (F9_Partition.info F9_PartData.cls).op.defaults F9_PartData.init),
   (Version.FC3, setToObj (FC3_Partition.info FC3_PartData.cls).op.defaults FC3_PartData.init),
   (Version.FC4, setToObj (FC4_Partition.info FC4_PartData.cls).op.defaults FC4_PartData.init),
   (Version.FC5, setToObj (FC4_Partition.info FC4_PartData.cls).op.defaults FC4_PartData.init),
   (Version.FC6, setToObj (FC4_Partition.info FC4_PartData.cls).op.defaults FC4_PartData.init),
   (Version.RHEL3, setToObj (FC3_Partition.info FC3_PartData.cls).op.defaults FC3_PartData.init),
   (Version.RHEL4, setToObj (FC3_Partition.info FC3_PartData.cls).op.defaults FC3_PartData.init),
   (Version.RHEL5, setToObj (RHEL5_Partition.info RHEL5_PartData.cls).op.defaults RHEL5_PartData.init),
   (Version.RHEL6, setToObj (RHEL6_Partition.info RHEL6_PartData.cls).op.defaults RHEL6_PartData.init),
   (Version.RHEL7, setToObj (RHEL7_Partition.info RHEL7_PartData.cls).op.defaults RHEL7_PartData.init),
   (Version.RHEL8, setToObj (RHEL8_Partition.info RHEL8_PartData.cls).op.defaults RHEL8_PartData.init)]

theorem normal_partition : ∀ y ∈ commandMaps, ∀ c, y.2.lookup c!"partition" = some c → c.hasList { attrs := {} } = true →
    ∃ base, partitionBases.lookup y.1 = some base ∧ c.Normal (partSheet y.1) (needs c!"partition" y.1) (unread c!"partition") base ∧ c.SameText := by
  unfold commandMaps
  exact (all_cons (fun c h hl => by cases h; exact ⟨_, rfl, normal_F9_Partition_F9_PartData_lost, same_F9_Partition_F9_PartData_lost⟩)
    (all_cons (fun c h hl => by cases h; exact ⟨_, rfl, normal_F11_Partition_F11_PartData_lost, same_F11_Partition_F11_PartData_lost⟩)
    (all_cons (fun c h hl => by cases h; exact ⟨_, rfl, normal_F12_Partition_F12_PartData_lost, same_F12_Partition_F12_PartData_lost⟩)
    (all_cons (fun c h hl => by cases h; exact ⟨_, rfl, normal_F12_Partition_F12_PartData_lost, same_F12_Partition_F12_PartData_lost⟩)
    (all_cons (fun c h hl => by cases h; exact ⟨_, rfl, normal_F14_Partition_F14_PartData, same_F14_Partition_F14_PartData⟩)
    (all_cons (fun c h hl => by cases h; exact ⟨_, rfl, normal_F14_Partition_F14_PartData, same_F14_Partition_F14_PartData⟩)
    (all_cons (fun c h hl => by cases h; exact ⟨_, rfl, normal_F14_Partition_F17_PartData, same_F14_Partition_F17_PartData⟩)
    (all_cons (fun c h hl => by cases h; exact ⟨_, rfl, normal_F17_Partition_F17_PartData, same_F17_Partition_F17_PartData⟩)
    (all_cons (fun c h hl => by cases h; exact ⟨_, rfl, normal_F18_Partition_F18_PartData, same_F18_Partition_F18_PartData⟩)
    (all_cons (fun c h hl => by cases h; exact ⟨_, rfl, normal_F18_Partition_F18_PartData, same_F18_Partition_F18_PartData⟩)
    (all_cons (fun c h hl => by cases h; exact ⟨_, rfl, normal_F20_Partition_F18_PartData, same_F20_Partition_F18_PartData⟩)
    (all_cons (fun c h hl => by cases h; exact ⟨_, rfl, normal_F20_Partition_F18_PartData, same_F20_Partition_F18_PartData⟩)
    (all_cons (fun c h hl => by cases h; exact ⟨_, rfl, normal_F20_Partition_F18_PartData, same_F20_Partition_F18_PartData⟩)
    (all_cons (fun c h hl => by cases h; exact ⟨_, rfl, normal_F23_Partition_F23_PartData, same_F23_Partition_F23_PartData⟩)
    (all_cons (fun c h hl => by cases h; exact ⟨_, rfl, normal_F23_Partition_F23_PartData, same_F23_Partition_F23_PartData⟩)
    (all_cons (fun c h hl => by cases h; exact ⟨_, rfl, normal_F23_Partition_F23_PartData, same_F23_Partition_F23_PartData⟩)
    (all_cons (fun c h hl => by cases h; exact ⟨_, rfl, normal_F23_Partition_F23_PartData, same_F23_Partition_F23_PartData⟩)
    (all_cons (fun c h hl => by cases h; exact ⟨_, rfl, normal_F23_Partition_F23_PartData, same_F23_Partition_F23_PartData⟩)
    (all_cons (fun c h hl => by cases h; exact ⟨_, rfl, normal_F23_Partition_F23_PartData, same_F23_Partition_F23_PartData⟩)
    (all_cons (fun c h hl => by cases h; exact ⟨_, rfl, normal_F29_Partition_F29_PartData, same_F29_Partition_F29_PartData⟩)
    (all_cons (fun c h hl => by cases h; exact ⟨_, rfl, normal_F29_Partition_F29_PartData, same_F29_Partition_F29_PartData⟩)
    (all_cons (fun c h hl => by cases h; exact ⟨_, rfl, normal_F29_Partition_F29_PartData, same_F29_Partition_F29_PartData⟩)
    (all_cons (fun c h hl => by cases h; exact ⟨_, rfl, normal_F29_Partition_F29_PartData, same_F29_Partition_F29_PartData⟩)
    (all_cons (fun c h hl => by cases h; exact ⟨_, rfl, normal_F29_Partition_F29_PartData, same_F29_Partition_F29_PartData⟩)
    (all_cons (fun c h hl => by cases h; exact ⟨_, rfl, normal_F34_Partition_F29_PartData, same_F34_Partition_F29_PartData⟩)
    (all_cons (fun c h hl => by cases h; exact ⟨_, rfl, normal_FC4_Partition_FC4_PartData, same_FC4_Partition_FC4_PartData⟩)
    (all_cons (fun c h hl => by cases h; exact ⟨_, rfl, normal_FC4_Partition_FC4_PartData, same_FC4_Partition_FC4_PartData⟩)
    (all_cons (fun c h hl => by cases h; exact ⟨_, rfl, normal_F9_Partition_F9_PartData_lost, same_F9_Partition_F9_PartData_lost⟩)
    (all_cons (fun c h hl => by cases h; exact ⟨_, rfl, normal_FC3_Partition_FC3_PartData, same_FC3_Partition_FC3_PartData⟩)
    (all_cons (fun c h hl => by cases h; exact ⟨_, rfl, normal_FC4_Partition_FC4_PartData, same_FC4_Partition_FC4_PartData⟩)
    (all_cons (fun c h hl => by cases h; exact ⟨_, rfl, normal_FC4_Partition_FC4_PartData, same_FC4_Partition_FC4_PartData⟩)
    (all_cons (fun c h hl => by cases h; exact ⟨_, rfl, normal_FC4_Partition_FC4_PartData, same_FC4_Partition_FC4_PartData⟩)
    (all_cons (fun c h hl => by cases h; exact ⟨_, rfl, normal_FC3_Partition_FC3_PartData, same_FC3_Partition_FC3_PartData⟩)
    (all_cons (fun c h hl => by cases h; exact ⟨_, rfl, normal_FC3_Partition_FC3_PartData, same_FC3_Partition_FC3_PartData⟩)
    (all_cons (fun c h hl => by cases h; exact ⟨_, rfl, normal_RHEL5_Partition_RHEL5_PartData, same_RHEL5_Partition_RHEL5_PartData⟩)
    (all_cons (fun c h hl => by cases h; exact ⟨_, rfl, normal_RHEL6_Partition_RHEL6_PartData_lost, same_RHEL6_Partition_RHEL6_PartData_lost⟩)
    (all_cons (fun c h hl => by cases h; exact ⟨_, rfl, normal_RHEL7_Partition_RHEL7_PartData, same_RHEL7_Partition_RHEL7_PartData⟩)
    (all_cons (fun c h hl => by cases h; exact ⟨_, rfl, normal_RHEL8_Partition_RHEL8_PartData, same_RHEL8_Partition_RHEL8_PartData⟩) (List.forall_mem_nil _)))))))))))))))))))))))))))))))))))))))

end Ks.Cmd
