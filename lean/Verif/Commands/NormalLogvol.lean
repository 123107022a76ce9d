import Verif.Commands.NormalClasses
import Verif.Commands.NormalSpec
/-!
# The text of an object is read again, class by class

Written by `scripts/gen_normal.py`.
-/
namespace Ks.Cmd

set_option linter.unusedVariables false

theorem normal_F9_LogVol_F9_LogVolData_lost : (F9_LogVol.cls F9_LogVolData.cls).Normal (logvolSheetOf true) (needs c!"logvol" Version.F10) (unread c!"logvol") (setToObj (F9_LogVol.info F9_LogVolData.cls).op.defaults F9_LogVolData.init) :=
  logvol_normal (o := FC3_LogVolData.strOut F9_LogVolData.args) (T := [c!"lineno", c!"mountpoint", c!"preexist"]) (logvolSheetOf true) (fun args n => post_weaken (FC3_LogVol.parsed _ args n) fun _ h => h.mono (by decide)) (fun args n => FC3_LogVol.mountOf _ args n) (fun args n => FC3_LogVol.exists _ args n) (fun _ => rfl) (.inl rfl) (fun a b => FC3_LogVol.sim _ a b (by decide +kernel)) (by decide) (by decide) (by decide) (by decide +kernel) (by decide +kernel) (by decide +kernel)

theorem same_F9_LogVol_F9_LogVolData_lost : (F9_LogVol.cls F9_LogVolData.cls).SameText := list_same (o := FC3_LogVolData.strOut F9_LogVolData.args) (fun _ => rfl) (by decide +kernel)

theorem normal_F12_LogVol_F12_LogVolData_lost : (F12_LogVol.cls F12_LogVolData.cls).Normal (logvolSheetOf true) (needs c!"logvol" Version.F12) (unread c!"logvol") (setToObj (F12_LogVol.info F12_LogVolData.cls).op.defaults F12_LogVolData.init) :=
  logvol_normal (o := FC3_LogVolData.strOut F12_LogVolData.args) (T := [c!"lineno", c!"mountpoint", c!"preexist"]) (logvolSheetOf true) (fun args n => post_weaken (FC3_LogVol.parsed _ args n) fun _ h => h.mono (by decide)) (fun args n => FC3_LogVol.mountOf _ args n) (fun args n => FC3_LogVol.exists _ args n) (fun _ => rfl) (.inl rfl) (fun a b => FC3_LogVol.sim _ a b (by decide +kernel)) (by decide) (by decide) (by decide) (by decide +kernel) (by decide +kernel) (by decide +kernel)

theorem same_F12_LogVol_F12_LogVolData_lost : (F12_LogVol.cls F12_LogVolData.cls).SameText := list_same (o := FC3_LogVolData.strOut F12_LogVolData.args) (fun _ => rfl) (by decide +kernel)

theorem normal_F14_LogVol_F14_LogVolData : (F14_LogVol.cls F14_LogVolData.cls).Normal (logvolSheetOf false) (needs c!"logvol" Version.F14) (unread c!"logvol") (setToObj (F14_LogVol.info F14_LogVolData.cls).op.defaults F14_LogVolData.init) :=
  logvol_normal (o := FC3_LogVolData.strOut F12_LogVolData.args) (T := [c!"lineno", c!"mountpoint", c!"preexist"]) (logvolSheetOf false) (fun args n => post_weaken (FC3_LogVol.parsed _ args n) fun _ h => h.mono (by decide)) (fun args n => FC3_LogVol.mountOf _ args n) (fun args n => FC3_LogVol.exists _ args n) (fun _ => rfl) (.inl rfl) (fun a b => FC3_LogVol.sim _ a b (by decide +kernel)) (by decide) (by decide) (by decide) (by decide +kernel) (by decide +kernel) (by decide +kernel)

theorem same_F14_LogVol_F14_LogVolData : (F14_LogVol.cls F14_LogVolData.cls).SameText := list_same (o := FC3_LogVolData.strOut F12_LogVolData.args) (fun _ => rfl) (by decide +kernel)

theorem normal_F15_LogVol_F15_LogVolData : (F15_LogVol.cls F15_LogVolData.cls).Normal (logvolSheetOf false) (needs c!"logvol" Version.F15) (unread c!"logvol") (setToObj (F15_LogVol.info F15_LogVolData.cls).op.defaults F15_LogVolData.init) :=
  logvol_normal (o := FC3_LogVolData.strOut F15_LogVolData.args) (T := [c!"lineno", c!"mountpoint", c!"preexist"]) (logvolSheetOf false) (fun args n => post_weaken (FC3_LogVol.parsed _ args n) fun _ h => h.mono (by decide)) (fun args n => FC3_LogVol.mountOf _ args n) (fun args n => FC3_LogVol.exists _ args n) (fun _ => rfl) (.inl rfl) (fun a b => FC3_LogVol.sim _ a b (by decide +kernel)) (by decide) (by decide) (by decide) (by decide +kernel) (by decide +kernel) (by decide +kernel)

theorem same_F15_LogVol_F15_LogVolData : (F15_LogVol.cls F15_LogVolData.cls).SameText := list_same (o := FC3_LogVolData.strOut F15_LogVolData.args) (fun _ => rfl) (by decide +kernel)

theorem normal_F15_LogVol_F17_LogVolData : (F15_LogVol.cls F17_LogVolData.cls).Normal (logvolSheetOf false) (needs c!"logvol" Version.F16) (unread c!"logvol") (setToObj (F15_LogVol.info F17_LogVolData.cls).op.defaults F17_LogVolData.init) :=
  logvol_normal (o := FC3_LogVolData.strOut F17_LogVolData.args) (T := [c!"lineno", c!"mountpoint", c!"preexist"]) (logvolSheetOf false) (fun args n => post_weaken (FC3_LogVol.parsed _ args n) fun _ h => h.mono (by decide)) (fun args n => FC3_LogVol.mountOf _ args n) (fun args n => FC3_LogVol.exists _ args n) (fun _ => rfl) (.inl rfl) (fun a b => FC3_LogVol.sim _ a b (by decide +kernel)) (by decide) (by decide) (by decide) (by decide +kernel) (by decide +kernel) (by decide +kernel)

theorem same_F15_LogVol_F17_LogVolData : (F15_LogVol.cls F17_LogVolData.cls).SameText := list_same (o := FC3_LogVolData.strOut F17_LogVolData.args) (fun _ => rfl) (by decide +kernel)

theorem normal_F17_LogVol_F17_LogVolData : (F17_LogVol.cls F17_LogVolData.cls).Normal (logvolSheetOf false) (needs c!"logvol" Version.F17) (unread c!"logvol") (setToObj (F17_LogVol.info F17_LogVolData.cls).op.defaults F17_LogVolData.init) :=
  logvol_normal (o := FC3_LogVolData.strOut F17_LogVolData.args) (T := [c!"lineno", c!"mountpoint", c!"preexist"]) (logvolSheetOf false) (fun args n => post_weaken (F17_LogVol.parsed _ args n) fun _ h => h.mono (by decide)) (fun args n => F17_LogVol.mountOf _ args n) (fun args n => F17_LogVol.exists _ args n) (fun _ => rfl) (.inl rfl) (fun a b => F17_LogVol.sim _ a b (by decide +kernel)) (by decide) (by decide) (by decide) (by decide +kernel) (by decide +kernel) (by decide +kernel)

theorem same_F17_LogVol_F17_LogVolData : (F17_LogVol.cls F17_LogVolData.cls).SameText := list_same (o := FC3_LogVolData.strOut F17_LogVolData.args) (fun _ => rfl) (by decide +kernel)

theorem normal_F18_LogVol_F18_LogVolData : (F18_LogVol.cls F18_LogVolData.cls).Normal (logvolSheetOf false) (needs c!"logvol" Version.F18) (unread c!"logvol") (setToObj (F18_LogVol.info F18_LogVolData.cls).op.defaults F18_LogVolData.init) :=
  logvol_normal (o := FC3_LogVolData.strOut F18_LogVolData.args) (T := [c!"lineno", c!"mountpoint", c!"preexist"]) (logvolSheetOf false) (fun args n => post_weaken (F17_LogVol.parsed _ args n) fun _ h => h.mono (by decide)) (fun args n => F17_LogVol.mountOf _ args n) (fun args n => F17_LogVol.exists _ args n) (fun _ => rfl) (.inl rfl) (fun a b => F17_LogVol.sim _ a b (by decide +kernel)) (by decide) (by decide) (by decide) (by decide +kernel) (by decide +kernel) (by decide +kernel)

theorem same_F18_LogVol_F18_LogVolData : (F18_LogVol.cls F18_LogVolData.cls).SameText := list_same (o := FC3_LogVolData.strOut F18_LogVolData.args) (fun _ => rfl) (by decide +kernel)

theorem normal_F18_LogVol_F20_LogVolData : (F18_LogVol.cls F20_LogVolData.cls).Normal (logvolSheetOf false) (needs c!"logvol" Version.F19) (unread c!"logvol") (setToObj (F18_LogVol.info F20_LogVolData.cls).op.defaults F20_LogVolData.init) :=
  logvol_normal (o := FC3_LogVolData.strOut F20_LogVolData.args) (T := [c!"lineno", c!"mountpoint", c!"preexist"]) (logvolSheetOf false) (fun args n => post_weaken (F17_LogVol.parsed _ args n) fun _ h => h.mono (by decide)) (fun args n => F17_LogVol.mountOf _ args n) (fun args n => F17_LogVol.exists _ args n) (fun _ => rfl) (.inl rfl) (fun a b => F17_LogVol.sim _ a b (by decide +kernel)) (by decide) (by decide) (by decide) (by decide +kernel) (by decide +kernel) (by decide +kernel)

theorem same_F18_LogVol_F20_LogVolData : (F18_LogVol.cls F20_LogVolData.cls).SameText := list_same (o := FC3_LogVolData.strOut F20_LogVolData.args) (fun _ => rfl) (by decide +kernel)

theorem normal_F20_LogVol_F20_LogVolData : (F20_LogVol.cls F20_LogVolData.cls).Normal (logvolSheetOf false) (needs c!"logvol" Version.F20) (unread c!"logvol") (setToObj (F20_LogVol.info F20_LogVolData.cls).op.defaults F20_LogVolData.init) :=
  logvol_normal (o := FC3_LogVolData.strOut F20_LogVolData.args) (T := [c!"lineno", c!"mountpoint", c!"preexist"]) (logvolSheetOf false) (fun args n => post_weaken (F20_LogVol.parsed _ args n) fun _ h => h.mono (by decide)) (fun args n => F20_LogVol.mountOf _ args n) (fun args n => F20_LogVol.exists _ args n) (fun _ => rfl) (.inl rfl) (fun a b => F20_LogVol.sim _ a b (by decide +kernel)) (by decide) (by decide) (by decide) (by decide +kernel) (by decide +kernel) (by decide +kernel)

theorem same_F20_LogVol_F20_LogVolData : (F20_LogVol.cls F20_LogVolData.cls).SameText := list_same (o := FC3_LogVolData.strOut F20_LogVolData.args) (fun _ => rfl) (by decide +kernel)

theorem normal_F21_LogVol_F21_LogVolData : (F21_LogVol.cls F21_LogVolData.cls).Normal (logvolSheetOf false) (needs c!"logvol" Version.F21) (unread c!"logvol") (setToObj (F21_LogVol.info F21_LogVolData.cls).op.defaults F21_LogVolData.init) :=
  logvol_normal (o := FC3_LogVolData.strOut F21_LogVolData.args) (T := [c!"lineno", c!"mountpoint", c!"preexist"]) (logvolSheetOf false) (fun args n => post_weaken (F21_LogVol.parsed _ args n) fun _ h => h.mono (by decide)) (fun args n => F21_LogVol.mountOf _ args n) (fun args n => F21_LogVol.exists _ args n) (fun _ => rfl) (.inl rfl) (fun a b => F21_LogVol.sim _ a b (by decide +kernel)) (by decide) (by decide) (by decide) (by decide +kernel) (by decide +kernel) (by decide +kernel)

theorem same_F21_LogVol_F21_LogVolData : (F21_LogVol.cls F21_LogVolData.cls).SameText := list_same (o := FC3_LogVolData.strOut F21_LogVolData.args) (fun _ => rfl) (by decide +kernel)

theorem normal_F23_LogVol_F23_LogVolData : (F23_LogVol.cls F23_LogVolData.cls).Normal (logvolSheetOf false) (needs c!"logvol" Version.F23) (unread c!"logvol") (setToObj (F23_LogVol.info F23_LogVolData.cls).op.defaults F23_LogVolData.init) :=
  logvol_normal (o := FC3_LogVolData.strOut F23_LogVolData.args) (T := [c!"lineno", c!"mountpoint", c!"preexist"]) (logvolSheetOf false) (fun args n => post_weaken (F23_LogVol.parsed _ args n) fun _ h => h.mono (by decide)) (fun args n => F23_LogVol.mountOf _ args n) (fun args n => F23_LogVol.exists _ args n) (fun _ => rfl) (.inl rfl) (fun a b => F23_LogVol.sim _ a b (by decide +kernel)) (by decide) (by decide) (by decide) (by decide +kernel) (by decide +kernel) (by decide +kernel)

theorem same_F23_LogVol_F23_LogVolData : (F23_LogVol.cls F23_LogVolData.cls).SameText := list_same (o := FC3_LogVolData.strOut F23_LogVolData.args) (fun _ => rfl) (by decide +kernel)

theorem normal_F29_LogVol_F29_LogVolData : (F29_LogVol.cls F29_LogVolData.cls).Normal (logvolSheetOf false) (needs c!"logvol" Version.F29) (unread c!"logvol") (setToObj (F29_LogVol.info F29_LogVolData.cls).op.defaults F29_LogVolData.init) :=
  logvol_normal (o := FC3_LogVolData.strOut F29_LogVolData.args) (T := [c!"lineno", c!"mountpoint", c!"preexist"]) (logvolSheetOf false) (fun args n => post_weaken (F29_LogVol.parsed _ args n) fun _ h => h.mono (by decide)) (fun args n => F29_LogVol.mountOf _ args n) (fun args n => F29_LogVol.exists _ args n) (fun _ => rfl) (.inl rfl) (fun a b => F29_LogVol.sim _ a b (by decide +kernel)) (by decide) (by decide) (by decide) (by decide +kernel) (by decide +kernel) (by decide +kernel)

theorem same_F29_LogVol_F29_LogVolData : (F29_LogVol.cls F29_LogVolData.cls).SameText := list_same (o := FC3_LogVolData.strOut F29_LogVolData.args) (fun _ => rfl) (by decide +kernel)

theorem normal_FC4_LogVol_FC4_LogVolData : (FC4_LogVol.cls FC4_LogVolData.cls).Normal (logvolSheetOf false) (needs c!"logvol" Version.F7) (unread c!"logvol") (setToObj (FC4_LogVol.info FC4_LogVolData.cls).op.defaults FC4_LogVolData.init) :=
  logvol_normal (o := FC3_LogVolData.strOut FC4_LogVolData.args) (T := [c!"lineno", c!"mountpoint", c!"preexist"]) (logvolSheetOf false) (fun args n => post_weaken (FC3_LogVol.parsed _ args n) fun _ h => h.mono (by decide)) (fun args n => FC3_LogVol.mountOf _ args n) (fun args n => FC3_LogVol.exists _ args n) (fun _ => rfl) (.inl rfl) (fun a b => FC3_LogVol.sim _ a b (by decide +kernel)) (by decide) (by decide) (by decide) (by decide +kernel) (by decide +kernel) (by decide +kernel)

theorem same_FC4_LogVol_FC4_LogVolData : (FC4_LogVol.cls FC4_LogVolData.cls).SameText := list_same (o := FC3_LogVolData.strOut FC4_LogVolData.args) (fun _ => rfl) (by decide +kernel)

theorem normal_FC3_LogVol_FC3_LogVolData : (FC3_LogVol.cls FC3_LogVolData.cls).Normal (logvolSheetOf false) (needs c!"logvol" Version.FC3) (unread c!"logvol") (setToObj (FC3_LogVol.info FC3_LogVolData.cls).op.defaults FC3_LogVolData.init) :=
  logvol_normal (o := FC3_LogVolData.strOut FC3_LogVolData.args) (T := [c!"lineno", c!"mountpoint", c!"preexist"]) (logvolSheetOf false) (fun args n => post_weaken (FC3_LogVol.parsed _ args n) fun _ h => h.mono (by decide)) (fun args n => FC3_LogVol.mountOf _ args n) (fun args n => FC3_LogVol.exists _ args n) (fun _ => rfl) (.inl rfl) (fun a b => FC3_LogVol.sim _ a b (by decide +kernel)) (by decide) (by decide) (by decide) (by decide +kernel) (by decide +kernel) (by decide +kernel)

theorem same_FC3_LogVol_FC3_LogVolData : (FC3_LogVol.cls FC3_LogVolData.cls).SameText := list_same (o := FC3_LogVolData.strOut FC3_LogVolData.args) (fun _ => rfl) (by decide +kernel)

theorem normal_RHEL5_LogVol_RHEL5_LogVolData : (RHEL5_LogVol.cls RHEL5_LogVolData.cls).Normal (logvolSheetOf false) (needs c!"logvol" Version.RHEL5) (unread c!"logvol") (setToObj (RHEL5_LogVol.info RHEL5_LogVolData.cls).op.defaults RHEL5_LogVolData.init) :=
  logvol_normal (o := FC3_LogVolData.strOut RHEL5_LogVolData.args) (T := [c!"lineno", c!"mountpoint", c!"preexist"]) (logvolSheetOf false) (fun args n => post_weaken (FC3_LogVol.parsed _ args n) fun _ h => h.mono (by decide)) (fun args n => FC3_LogVol.mountOf _ args n) (fun args n => FC3_LogVol.exists _ args n) (fun _ => rfl) (.inl rfl) (fun a b => FC3_LogVol.sim _ a b (by decide +kernel)) (by decide) (by decide) (by decide) (by decide +kernel) (by decide +kernel) (by decide +kernel)

theorem same_RHEL5_LogVol_RHEL5_LogVolData : (RHEL5_LogVol.cls RHEL5_LogVolData.cls).SameText := list_same (o := FC3_LogVolData.strOut RHEL5_LogVolData.args) (fun _ => rfl) (by decide +kernel)

theorem normal_RHEL6_LogVol_RHEL6_LogVolData_lost : (RHEL6_LogVol.cls RHEL6_LogVolData.cls).Normal (logvolSheetOf true) (needs c!"logvol" Version.RHEL6) (unread c!"logvol") (setToObj (RHEL6_LogVol.info RHEL6_LogVolData.cls).op.defaults RHEL6_LogVolData.init) :=
  logvol_normal (o := FC3_LogVolData.strOut RHEL6_LogVolData.args) (T := [c!"lineno", c!"mountpoint", c!"preexist"]) (logvolSheetOf true) (fun args n => post_weaken (RHEL6_LogVol.parsed _ args n) fun _ h => h.mono (by decide)) (fun args n => RHEL6_LogVol.mountOf _ args n) (fun args n => RHEL6_LogVol.exists _ args n) (fun _ => rfl) (.inl rfl) (fun a b => RHEL6_LogVol.sim _ a b (by decide +kernel)) (by decide) (by decide) (by decide) (by decide +kernel) (by decide +kernel) (by decide +kernel)

theorem same_RHEL6_LogVol_RHEL6_LogVolData_lost : (RHEL6_LogVol.cls RHEL6_LogVolData.cls).SameText := list_same (o := FC3_LogVolData.strOut RHEL6_LogVolData.args) (fun _ => rfl) (by decide +kernel)

theorem normal_RHEL7_LogVol_RHEL7_LogVolData : (RHEL7_LogVol.cls RHEL7_LogVolData.cls).Normal (logvolSheetOf false) (needs c!"logvol" Version.RHEL7) (unread c!"logvol") (setToObj (RHEL7_LogVol.info RHEL7_LogVolData.cls).op.defaults RHEL7_LogVolData.init) :=
  logvol_normal (o := FC3_LogVolData.strOut RHEL7_LogVolData.args) (T := [c!"lineno", c!"mountpoint", c!"preexist"]) (logvolSheetOf false) (fun args n => post_weaken (RHEL7_LogVol.parsed _ args n) fun _ h => h.mono (by decide)) (fun args n => RHEL7_LogVol.mountOf _ args n) (fun args n => RHEL7_LogVol.exists _ args n) (fun _ => rfl) (.inl rfl) (fun a b => RHEL7_LogVol.sim _ a b (by decide +kernel)) (by decide) (by decide) (by decide) (by decide +kernel) (by decide +kernel) (by decide +kernel)

theorem same_RHEL7_LogVol_RHEL7_LogVolData : (RHEL7_LogVol.cls RHEL7_LogVolData.cls).SameText := list_same (o := FC3_LogVolData.strOut RHEL7_LogVolData.args) (fun _ => rfl) (by decide +kernel)

theorem normal_RHEL8_LogVol_RHEL8_LogVolData : (RHEL8_LogVol.cls RHEL8_LogVolData.cls).Normal (logvolSheetOf false) (needs c!"logvol" Version.RHEL8) (unread c!"logvol") (setToObj (RHEL8_LogVol.info RHEL8_LogVolData.cls).op.defaults RHEL8_LogVolData.init) :=
  logvol_normal (o := FC3_LogVolData.strOut F29_LogVolData.args) (T := [c!"lineno", c!"mountpoint", c!"preexist"]) (logvolSheetOf false) (fun args n => post_weaken (RHEL8_LogVol.parsed _ args n) fun _ h => h.mono (by decide)) (fun args n => RHEL8_LogVol.mountOf _ args n) (fun args n => RHEL8_LogVol.exists _ args n) (fun _ => rfl) (.inl rfl) (fun a b => RHEL8_LogVol.sim _ a b (by decide +kernel)) (by decide) (by decide) (by decide) (by decide +kernel) (by decide +kernel) (by decide +kernel)

theorem same_RHEL8_LogVol_RHEL8_LogVolData : (RHEL8_LogVol.cls RHEL8_LogVolData.cls).SameText := list_same (o := FC3_LogVolData.strOut F29_LogVolData.args) (fun _ => rfl) (by decide +kernel)

/-- The values of an object of `logvol` without options. -/
def logvolBases : List (Nat × Ns) :=
  [(Version.F10, setToObj (F9_LogVol.info F9_LogVolData.cls).op.defaults F9_LogVolData.init),
   (Version.F11, setToObj (F9_LogVol.info F9_LogVolData.cls).op.defaults F9_LogVolData.init),
   (Version.F12, setToObj (F12_LogVol.info F12_LogVolData.cls).op.defaults F12_LogVolData.init),
   (Version.F13, setToObj (F12_LogVol.info F12_LogVolData.cls).op.defaults F12_LogVolData.init),
   (Version.F14, setToObj (F14_LogVol.info F14_LogVolData.cls).op.defaults F14_LogVolData.init),
   (Version.F15, setToObj (F15_LogVol.info F15_LogVolData.cls).op.defaults F15_LogVolData.init),
   (Version.F16, setToObj (F15_LogVol.info F17_LogVolData.cls).op.defaults F17_LogVolData.init),
   (Version.F17, setToObj (F17_LogVol.info F17_LogVolData.cls).op.defaults F17_LogVolData.init),
   (Version.F18, setToObj (F18_LogVol.info F18_LogVolData.cls).op.defaults F18_LogVolData.init),
   (Version.F19, setToObj (F18_LogVol.info F20_LogVolData.cls).op.defaults F20_LogVolData.init),
   (Version.F20, setToObj (F20_LogVol.info F20_LogVolData.cls).op.defaults F20_LogVolData.init),
   (Version.F21, setToObj (F21_LogVol.info F21_LogVolData.cls).op.defaults F21_LogVolData.init),
   (Version.F22, setToObj (F21_LogVol.info F21_LogVolData.cls).op.defaults F21_LogVolData.init),
   (Version.F23, setToObj (F23_LogVol.info F23_LogVolData.cls).op.defaults F23_LogVolData.init),
   (Version.F24, setToObj (F23_LogVol.info F23_LogVolData.cls).op.defaults F23_LogVolData.init),
   (Version.F25, setToObj (F23_LogVol.info F23_LogVolData.cls).op.defaults F23_LogVolData.init),
   (Version.F26, setToObj (F23_LogVol.info F23_LogVolData.cls).op.defaults F23_LogVolData.init),
   (Version.F27, setToObj (F23_LogVol.info F23_LogVolData.cls).op.defaults F23_LogVolData.init),
   (Version.F28, setToObj (F23_LogVol.info F23_LogVolData.cls).op.defaults F23_LogVolData.init),
   (Version.F29, setToObj (F29_LogVol.info F29_LogVolData.cls).op.defaults F29_LogVolData.init),
   (Version.F30, setToObj (F29_LogVol.info F29_LogVolData.cls).op.defaults F29_LogVolData.init),
   (Version.F31, setToObj (F29_LogVol.info F29_LogVolData.cls).op.defaults F29_LogVolData.init),
   (Version.F32, setToObj (F29_LogVol.info F29_LogVolData.cls).op.defaults F29_LogVolData.init),
   (Version.F33, setToObj (F29_LogVol.info F29_LogVolData.cls).op.defaults F29_LogVolData.init),
   (Version.F34, setToObj (F29_LogVol.info F29_LogVolData.cls).op.defaults F29_LogVolData.init),
   (Version.F7, setToObj (FC4_LogVol.info FC4_LogVolData.cls).op.defaults FC4_LogVolData.init),
   (Version.F8, setToObj (FC4_LogVol.info FC4_LogVolData.cls).op.defaults FC4_LogVolData.init),
   (Version.F9, setToObj (F9_LogVol.info F9_LogVolData.cls).op.defaults F9_LogVolData.init),
   (Version.FC3, setToObj (FC3_LogVol.info FC3_LogVolData.cls).op.defaults FC3_LogVolData.init),
   (Version.FC4, setToObj (FC4_LogVol.info FC4_LogVolData.cls).op.defaults FC4_LogVolData.init),
   (Version.FC5, setToObj (FC4_LogVol.info FC4_LogVolData.cls).op.defaults FC4_LogVolData.init),
   (Version.FC6, setToObj (FC4_LogVol.info FC4_LogVolData.cls).op.defaults FC4_LogVolData.init),
   (Version.RHEL3, setToObj (FC3_LogVol.info FC3_LogVolData.cls).op.defaults FC3_LogVolData.init),
   (Version.RHEL4, setToObj (FC3_LogVol.info FC3_LogVolData.cls).op.defaults FC3_LogVolData.init),
   (Version.RHEL5, setToObj (RHEL5_LogVol.info RHEL5_LogVolData.cls).op.defaults RHEL5_LogVolData.init),
   (Version.RHEL6, setToObj (RHEL6_LogVol.info RHEL6_LogVolData.cls).op.defaults RHEL6_LogVolData.init),
   (Version.RHEL7, setToObj (RHEL7_LogVol.info RHEL7_LogVolData.cls).op.defaults RHEL7_LogVolData.init),
   (Version.RHEL8, setToObj (RHEL8_LogVol.info RHEL8_LogVolData.cls).op.defaults RHEL8_LogVolData.init)]

theorem normal_logvol : ∀ y ∈ commandMaps, ∀ c, y.2.lookup c!"logvol" = some c → c.hasList { attrs := {} } = true →
    ∃ base, logvolBases.lookup y.1 = some base ∧ c.Normal (logvolSheet y.1) (needs c!"logvol" y.1) (unread c!"logvol") base ∧ c.SameText := by
  unfold commandMaps
  exact (all_cons (fun c h hl => by cases h; exact ⟨_, rfl, normal_F9_LogVol_F9_LogVolData_lost, same_F9_LogVol_F9_LogVolData_lost⟩)
    (all_cons (fun c h hl => by cases h; exact ⟨_, rfl, normal_F9_LogVol_F9_LogVolData_lost, same_F9_LogVol_F9_LogVolData_lost⟩)
    (all_cons (fun c h hl => by cases h; exact ⟨_, rfl, normal_F12_LogVol_F12_LogVolData_lost, same_F12_LogVol_F12_LogVolData_lost⟩)
    (all_cons (fun c h hl => by cases h; exact ⟨_, rfl, normal_F12_LogVol_F12_LogVolData_lost, same_F12_LogVol_F12_LogVolData_lost⟩)
    (all_cons (fun c h hl => by cases h; exact ⟨_, rfl, normal_F14_LogVol_F14_LogVolData, same_F14_LogVol_F14_LogVolData⟩)
    (all_cons (fun c h hl => by cases h; exact ⟨_, rfl, normal_F15_LogVol_F15_LogVolData, same_F15_LogVol_F15_LogVolData⟩)
    (all_cons (fun c h hl => by cases h; exact ⟨_, rfl, normal_F15_LogVol_F17_LogVolData, same_F15_LogVol_F17_LogVolData⟩)
    (all_cons (fun c h hl => by cases h; exact ⟨_, rfl, normal_F17_LogVol_F17_LogVolData, same_F17_LogVol_F17_LogVolData⟩)
    (all_cons (fun c h hl => by cases h; exact ⟨_, rfl, normal_F18_LogVol_F18_LogVolData, same_F18_LogVol_F18_LogVolData⟩)
    (all_cons (fun c h hl => by cases h; exact ⟨_, rfl, normal_F18_LogVol_F20_LogVolData, same_F18_LogVol_F20_LogVolData⟩)
    (all_cons (fun c h hl => by cases h; exact ⟨_, rfl, normal_F20_LogVol_F20_LogVolData, same_F20_LogVol_F20_LogVolData⟩)
    (all_cons (fun c h hl => by cases h; exact ⟨_, rfl, normal_F21_LogVol_F21_LogVolData, same_F21_LogVol_F21_LogVolData⟩)
    (all_cons (fun c h hl => by cases h; exact ⟨_, rfl, normal_F21_LogVol_F21_LogVolData, same_F21_LogVol_F21_LogVolData⟩)
    (all_cons (fun c h hl => by cases h; exact ⟨_, rfl, normal_F23_LogVol_F23_LogVolData, same_F23_LogVol_F23_LogVolData⟩)
    (all_cons (fun c h hl => by cases h; exact ⟨_, rfl, normal_F23_LogVol_F23_LogVolData, same_F23_LogVol_F23_LogVolData⟩)
    (all_cons (fun c h hl => by cases h; exact ⟨_, rfl, normal_F23_LogVol_F23_LogVolData, same_F23_LogVol_F23_LogVolData⟩)
    (all_cons (fun c h hl => by cases h; exact ⟨_, rfl, normal_F23_LogVol_F23_LogVolData, same_F23_LogVol_F23_LogVolData⟩)
    (all_cons (fun c h hl => by cases h; exact ⟨_, rfl, normal_F23_LogVol_F23_LogVolData, same_F23_LogVol_F23_LogVolData⟩)
    (all_cons (fun c h hl => by cases h; exact ⟨_, rfl, normal_F23_LogVol_F23_LogVolData, same_F23_LogVol_F23_LogVolData⟩)
    (all_cons (fun c h hl => by cases h; exact ⟨_, rfl, normal_F29_LogVol_F29_LogVolData, same_F29_LogVol_F29_LogVolData⟩)
    (all_cons (fun c h hl => by cases h; exact ⟨_, rfl, normal_F29_LogVol_F29_LogVolData, same_F29_LogVol_F29_LogVolData⟩)
    (all_cons (fun c h hl => by cases h; exact ⟨_, rfl, normal_F29_LogVol_F29_LogVolData, same_F29_LogVol_F29_LogVolData⟩)
    (all_cons (fun c h hl => by cases h; exact ⟨_, rfl, normal_F29_LogVol_F29_LogVolData, same_F29_LogVol_F29_LogVolData⟩)
    (all_cons (fun c h hl => by cases h; exact ⟨_, rfl, normal_F29_LogVol_F29_LogVolData, same_F29_LogVol_F29_LogVolData⟩)
    (all_cons (fun c h hl => by cases h; exact ⟨_, rfl, normal_F29_LogVol_F29_LogVolData, same_F29_LogVol_F29_LogVolData⟩)
    (all_cons (fun c h hl => by cases h; exact ⟨_, rfl, normal_FC4_LogVol_FC4_LogVolData, same_FC4_LogVol_FC4_LogVolData⟩)
    (all_cons (fun c h hl => by cases h; exact ⟨_, rfl, normal_FC4_LogVol_FC4_LogVolData, same_FC4_LogVol_FC4_LogVolData⟩)
    (all_cons (fun c h hl => by cases h; exact ⟨_, rfl, normal_F9_LogVol_F9_LogVolData_lost, same_F9_LogVol_F9_LogVolData_lost⟩)
    (all_cons (fun c h hl => by cases h; exact ⟨_, rfl, normal_FC3_LogVol_FC3_LogVolData, same_FC3_LogVol_FC3_LogVolData⟩)
    (all_cons (fun c h hl => by cases h; exact ⟨_, rfl, normal_FC4_LogVol_FC4_LogVolData, same_FC4_LogVol_FC4_LogVolData⟩)
    (all_cons (fun c h hl => by cases h; exact ⟨_, rfl, normal_FC4_LogVol_FC4_LogVolData, same_FC4_LogVol_FC4_LogVolData⟩)
    (all_cons (fun c h hl => by cases h; exact ⟨_, rfl, normal_FC4_LogVol_FC4_LogVolData, same_FC4_LogVol_FC4_LogVolData⟩)
    (all_cons (fun c h hl => by cases h; exact ⟨_, rfl, normal_FC3_LogVol_FC3_LogVolData, same_FC3_LogVol_FC3_LogVolData⟩)
    (all_cons (fun c h hl => by cases h; exact ⟨_, rfl, normal_FC3_LogVol_FC3_LogVolData, same_FC3_LogVol_FC3_LogVolData⟩)
    (all_cons (fun c h hl => by cases h; exact ⟨_, rfl, normal_RHEL5_LogVol_RHEL5_LogVolData, same_RHEL5_LogVol_RHEL5_LogVolData⟩)
    (all_cons (fun c h hl => by cases h; exact ⟨_, rfl, normal_RHEL6_LogVol_RHEL6_LogVolData_lost, same_RHEL6_LogVol_RHEL6_LogVolData_lost⟩)
    (all_cons (fun c h hl => by cases h; exact ⟨_, rfl, normal_RHEL7_LogVol_RHEL7_LogVolData, same_RHEL7_LogVol_RHEL7_LogVolData⟩)
    (all_cons (fun c h hl => by cases h; exact ⟨_, rfl, normal_RHEL8_LogVol_RHEL8_LogVolData, same_RHEL8_LogVol_RHEL8_LogVolData⟩) (List.forall_mem_nil _)))))))))))))))))))))))))))))))))))))))

end Ks.Cmd
