import Verif.Commands.NormalClasses
import Verif.Commands.NormalSpec
/-!
# The text of an object is read again, class by class

Written by `scripts/gen_normal.py`.
-/
namespace Ks.Cmd

set_option linter.unusedVariables false

theorem normal_F9_Network_F8_NetworkData : (F9_Network.cls F8_NetworkData.cls).Normal (networkSheetOf false) (needs c!"network" Version.F10) (unread c!"network") (setToObj (F9_Network.info F8_NetworkData.cls).op.defaults F8_NetworkData.init) :=
  opts_normal (o := FC3_NetworkData.strOut F8_NetworkData.args) (T := [c!"lineno"]) (networkSheetOf false) (fun args n => post_weaken (FC3_Network.parsed _ args n) fun _ h => h.mono (by decide)) (fun _ => rfl) (.inr ⟨_, by decide, rfl⟩) (fun a b => FC3_Network.sim _ a b []) (by decide) (by decide +kernel) (by decide +kernel)

theorem same_F9_Network_F8_NetworkData : (F9_Network.cls F8_NetworkData.cls).SameText := list_same (o := FC3_NetworkData.strOut F8_NetworkData.args) (fun _ => rfl) (by decide +kernel)

theorem normal_F16_Network_F16_NetworkData : (F16_Network.cls F16_NetworkData.cls).Normal (networkSheetOf false) (needs c!"network" Version.F16) (unread c!"network") (setToObj (F16_Network.info F16_NetworkData.cls).op.defaults F16_NetworkData.init) :=
  opts_normal (o := FC3_NetworkData.strOut F16_NetworkData.args) (T := [c!"lineno"]) (networkSheetOf false) (fun args n => post_weaken (FC3_Network.parsed _ args n) fun _ h => h.mono (by decide)) (fun _ => rfl) (.inr ⟨_, by decide, rfl⟩) (fun a b => FC3_Network.sim _ a b []) (by decide) (by decide +kernel) (by decide +kernel)

theorem same_F16_Network_F16_NetworkData : (F16_Network.cls F16_NetworkData.cls).SameText := list_same (o := FC3_NetworkData.strOut F16_NetworkData.args) (fun _ => rfl) (by decide +kernel)

theorem normal_F18_Network_F16_NetworkData : (F18_Network.cls F16_NetworkData.cls).Normal (networkSheetOf false) (needs c!"network" Version.F18) (unread c!"network") (setToObj (F18_Network.info F16_NetworkData.cls).op.defaults F16_NetworkData.init) :=
  opts_normal (o := FC3_NetworkData.strOut F16_NetworkData.args) (T := [c!"lineno"]) (networkSheetOf false) (fun args n => post_weaken (FC3_Network.parsed _ args n) fun _ h => h.mono (by decide)) (fun _ => rfl) (.inr ⟨_, by decide, rfl⟩) (fun a b => FC3_Network.sim _ a b []) (by decide) (by decide +kernel) (by decide +kernel)

theorem same_F18_Network_F16_NetworkData : (F18_Network.cls F16_NetworkData.cls).SameText := list_same (o := FC3_NetworkData.strOut F16_NetworkData.args) (fun _ => rfl) (by decide +kernel)

theorem normal_F19_Network_F19_NetworkData : (F19_Network.cls F19_NetworkData.cls).Normal (networkSheetOf false) (needs c!"network" Version.F19) (unread c!"network") (setToObj (F19_Network.info F19_NetworkData.cls).op.defaults F19_NetworkData.init) :=
  opts_normal (o := FC3_NetworkData.strOut F19_NetworkData.args) (T := [c!"lineno"]) (networkSheetOf false) (fun args n => post_weaken (FC3_Network.parsed _ args n) fun _ h => h.mono (by decide)) (fun _ => rfl) (.inr ⟨_, by decide, rfl⟩) (fun a b => FC3_Network.sim _ a b []) (by decide) (by decide +kernel) (by decide +kernel)

theorem same_F19_Network_F19_NetworkData : (F19_Network.cls F19_NetworkData.cls).SameText := list_same (o := FC3_NetworkData.strOut F19_NetworkData.args) (fun _ => rfl) (by decide +kernel)

theorem normal_F20_Network_F20_NetworkData : (F20_Network.cls F20_NetworkData.cls).Normal (networkSheetOf false) (needs c!"network" Version.F20) (unread c!"network") (setToObj (F20_Network.info F20_NetworkData.cls).op.defaults F20_NetworkData.init) :=
  opts_normal (o := FC3_NetworkData.strOut F20_NetworkData.args) (T := [c!"lineno"]) (networkSheetOf false) (fun args n => post_weaken (FC3_Network.parsed _ args n) fun _ h => h.mono (by decide)) (fun _ => rfl) (.inr ⟨_, by decide, rfl⟩) (fun a b => FC3_Network.sim _ a b []) (by decide) (by decide +kernel) (by decide +kernel)

theorem same_F20_Network_F20_NetworkData : (F20_Network.cls F20_NetworkData.cls).SameText := list_same (o := FC3_NetworkData.strOut F20_NetworkData.args) (fun _ => rfl) (by decide +kernel)

theorem normal_F21_Network_F21_NetworkData : (F21_Network.cls F21_NetworkData.cls).Normal (networkSheetOf false) (needs c!"network" Version.F21) (unread c!"network") (setToObj (F21_Network.info F21_NetworkData.cls).op.defaults F21_NetworkData.init) :=
  opts_normal (o := FC3_NetworkData.strOut F21_NetworkData.args) (T := [c!"lineno"]) (networkSheetOf false) (fun args n => post_weaken (FC3_Network.parsed _ args n) fun _ h => h.mono (by decide)) (fun _ => rfl) (.inr ⟨_, by decide, rfl⟩) (fun a b => FC3_Network.sim _ a b []) (by decide) (by decide +kernel) (by decide +kernel)

theorem same_F21_Network_F21_NetworkData : (F21_Network.cls F21_NetworkData.cls).SameText := list_same (o := FC3_NetworkData.strOut F21_NetworkData.args) (fun _ => rfl) (by decide +kernel)

theorem normal_F22_Network_F22_NetworkData : (F22_Network.cls F22_NetworkData.cls).Normal (networkSheetOf false) (needs c!"network" Version.F22) (unread c!"network") (setToObj (F22_Network.info F22_NetworkData.cls).op.defaults F22_NetworkData.init) :=
  opts_normal (o := FC3_NetworkData.strOut F22_NetworkData.args) (T := [c!"lineno"]) (networkSheetOf false) (fun args n => post_weaken (F22_Network.parsed _ args n) fun _ h => h.mono (by decide)) (fun _ => rfl) (.inr ⟨_, by decide, rfl⟩) (fun a b => F22_Network.sim _ a b [] (by decide)) (by decide) (by decide +kernel) (by decide +kernel)

theorem same_F22_Network_F22_NetworkData : (F22_Network.cls F22_NetworkData.cls).SameText := list_same (o := FC3_NetworkData.strOut F22_NetworkData.args) (fun _ => rfl) (by decide +kernel)

theorem normal_F24_Network_F22_NetworkData_lost : (F24_Network.cls F22_NetworkData.cls).Normal (networkSheetOf true) (needs c!"network" Version.F24) (unread c!"network") (setToObj (F24_Network.info F22_NetworkData.cls).op.defaults F22_NetworkData.init) :=
  proto_normal (o := FC3_NetworkData.strOut F22_NetworkData.args) (T := [c!"lineno", c!"bootProto"]) (networkSheetOf true) (fun args n => post_weaken (F24_Network.parsed _ args n) fun _ h => h.mono (by decide)) (fun args n => F24_Network.noProto _ args n) (fun _ => rfl) (.inr ⟨_, by decide, rfl⟩) (fun a b X hX h => F24_Network.sim _ a b X hX h) (by decide) (by decide) (by decide) (by decide +kernel) (by decide +kernel) (by decide +kernel)

theorem same_F24_Network_F22_NetworkData_lost : (F24_Network.cls F22_NetworkData.cls).SameText := list_same (o := FC3_NetworkData.strOut F22_NetworkData.args) (fun _ => rfl) (by decide +kernel)

theorem normal_F25_Network_F25_NetworkData_lost : (F25_Network.cls F25_NetworkData.cls).Normal (networkSheetOf true) (needs c!"network" Version.F25) (unread c!"network") (setToObj (F25_Network.info F25_NetworkData.cls).op.defaults F25_NetworkData.init) :=
  proto_normal (o := FC3_NetworkData.strOut F25_NetworkData.args) (T := [c!"lineno", c!"bootProto"]) (networkSheetOf true) (fun args n => post_weaken (F24_Network.parsed _ args n) fun _ h => h.mono (by decide)) (fun args n => F24_Network.noProto _ args n) (fun _ => rfl) (.inr ⟨_, by decide, rfl⟩) (fun a b X hX h => F24_Network.sim _ a b X hX h) (by decide) (by decide) (by decide) (by decide +kernel) (by decide +kernel) (by decide +kernel)

theorem same_F25_Network_F25_NetworkData_lost : (F25_Network.cls F25_NetworkData.cls).SameText := list_same (o := FC3_NetworkData.strOut F25_NetworkData.args) (fun _ => rfl) (by decide +kernel)

theorem normal_F27_Network_F27_NetworkData_lost : (F27_Network.cls F27_NetworkData.cls).Normal (networkSheetOf true) (needs c!"network" Version.F27) (unread c!"network") (setToObj (F27_Network.info F27_NetworkData.cls).op.defaults F27_NetworkData.init) :=
  proto_normal (o := FC3_NetworkData.strOut F27_NetworkData.args) (T := [c!"lineno", c!"bootProto"]) (networkSheetOf true) (fun args n => post_weaken (F27_Network.parsed _ args n) fun _ h => h.mono (by decide)) (fun args n => F27_Network.noProto _ args n) (fun _ => rfl) (.inr ⟨_, by decide, rfl⟩) (fun a b X hX h => F27_Network.sim _ a b X hX h) (by decide) (by decide) (by decide) (by decide +kernel) (by decide +kernel) (by decide +kernel)

theorem same_F27_Network_F27_NetworkData_lost : (F27_Network.cls F27_NetworkData.cls).SameText := list_same (o := FC3_NetworkData.strOut F27_NetworkData.args) (fun _ => rfl) (by decide +kernel)

theorem normal_FC6_Network_FC6_NetworkData : (FC6_Network.cls FC6_NetworkData.cls).Normal (networkSheetOf false) (needs c!"network" Version.F7) (unread c!"network") (setToObj (FC6_Network.info FC6_NetworkData.cls).op.defaults FC6_NetworkData.init) :=
  opts_normal (o := FC3_NetworkData.strOut FC6_NetworkData.args) (T := [c!"lineno"]) (networkSheetOf false) (fun args n => post_weaken (FC3_Network.parsed _ args n) fun _ h => h.mono (by decide)) (fun _ => rfl) (.inr ⟨_, by decide, rfl⟩) (fun a b => FC3_Network.sim _ a b []) (by decide) (by decide +kernel) (by decide +kernel)

theorem same_FC6_Network_FC6_NetworkData : (FC6_Network.cls FC6_NetworkData.cls).SameText := list_same (o := FC3_NetworkData.strOut FC6_NetworkData.args) (fun _ => rfl) (by decide +kernel)

theorem normal_F8_Network_F8_NetworkData : (F8_Network.cls F8_NetworkData.cls).Normal (networkSheetOf false) (needs c!"network" Version.F8) (unread c!"network") (setToObj (F8_Network.info F8_NetworkData.cls).op.defaults F8_NetworkData.init) :=
  opts_normal (o := FC3_NetworkData.strOut F8_NetworkData.args) (T := [c!"lineno"]) (networkSheetOf false) (fun args n => post_weaken (FC3_Network.parsed _ args n) fun _ h => h.mono (by decide)) (fun _ => rfl) (.inr ⟨_, by decide, rfl⟩) (fun a b => FC3_Network.sim _ a b []) (by decide) (by decide +kernel) (by decide +kernel)

theorem same_F8_Network_F8_NetworkData : (F8_Network.cls F8_NetworkData.cls).SameText := list_same (o := FC3_NetworkData.strOut F8_NetworkData.args) (fun _ => rfl) (by decide +kernel)

theorem normal_FC3_Network_FC3_NetworkData : (FC3_Network.cls FC3_NetworkData.cls).Normal (networkSheetOf false) (needs c!"network" Version.FC3) (unread c!"network") (setToObj (FC3_Network.info FC3_NetworkData.cls).op.defaults FC3_NetworkData.init) :=
  opts_normal (o := FC3_NetworkData.strOut FC3_NetworkData.args) (T := [c!"lineno"]) (networkSheetOf false) (fun args n => post_weaken (FC3_Network.parsed _ args n) fun _ h => h.mono (by decide)) (fun _ => rfl) (.inr ⟨_, by decide, rfl⟩) (fun a b => FC3_Network.sim _ a b []) (by decide) (by decide +kernel) (by decide +kernel)

theorem same_FC3_Network_FC3_NetworkData : (FC3_Network.cls FC3_NetworkData.cls).SameText := list_same (o := FC3_NetworkData.strOut FC3_NetworkData.args) (fun _ => rfl) (by decide +kernel)

theorem normal_FC4_Network_FC4_NetworkData : (FC4_Network.cls FC4_NetworkData.cls).Normal (networkSheetOf false) (needs c!"network" Version.FC4) (unread c!"network") (setToObj (FC4_Network.info FC4_NetworkData.cls).op.defaults FC4_NetworkData.init) :=
  opts_normal (o := FC3_NetworkData.strOut FC4_NetworkData.args) (T := [c!"lineno"]) (networkSheetOf false) (fun args n => post_weaken (FC3_Network.parsed _ args n) fun _ h => h.mono (by decide)) (fun _ => rfl) (.inr ⟨_, by decide, rfl⟩) (fun a b => FC3_Network.sim _ a b []) (by decide) (by decide +kernel) (by decide +kernel)

theorem same_FC4_Network_FC4_NetworkData : (FC4_Network.cls FC4_NetworkData.cls).SameText := list_same (o := FC3_NetworkData.strOut FC4_NetworkData.args) (fun _ => rfl) (by decide +kernel)

theorem normal_FC3_Network_RHEL4_NetworkData : (FC3_Network.cls RHEL4_NetworkData.cls).Normal (networkSheetOf false) (needs c!"network" Version.RHEL3) (unread c!"network") (setToObj (FC3_Network.info RHEL4_NetworkData.cls).op.defaults RHEL4_NetworkData.init) :=
  opts_normal (o := FC3_NetworkData.strOut RHEL4_NetworkData.args) (T := [c!"lineno"]) (networkSheetOf false) (fun args n => post_weaken (FC3_Network.parsed _ args n) fun _ h => h.mono (by decide)) (fun _ => rfl) (.inr ⟨_, by decide, rfl⟩) (fun a b => FC3_Network.sim _ a b []) (by decide) (by decide +kernel) (by decide +kernel)

theorem same_FC3_Network_RHEL4_NetworkData : (FC3_Network.cls RHEL4_NetworkData.cls).SameText := list_same (o := FC3_NetworkData.strOut RHEL4_NetworkData.args) (fun _ => rfl) (by decide +kernel)

theorem normal_RHEL4_Network_RHEL4_NetworkData : (RHEL4_Network.cls RHEL4_NetworkData.cls).Normal (networkSheetOf false) (needs c!"network" Version.RHEL4) (unread c!"network") (setToObj (RHEL4_Network.info RHEL4_NetworkData.cls).op.defaults RHEL4_NetworkData.init) :=
  opts_normal (o := FC3_NetworkData.strOut RHEL4_NetworkData.args) (T := [c!"lineno"]) (networkSheetOf false) (fun args n => post_weaken (FC3_Network.parsed _ args n) fun _ h => h.mono (by decide)) (fun _ => rfl) (.inr ⟨_, by decide, rfl⟩) (fun a b => FC3_Network.sim _ a b []) (by decide) (by decide +kernel) (by decide +kernel)

theorem same_RHEL4_Network_RHEL4_NetworkData : (RHEL4_Network.cls RHEL4_NetworkData.cls).SameText := list_same (o := FC3_NetworkData.strOut RHEL4_NetworkData.args) (fun _ => rfl) (by decide +kernel)

theorem normal_RHEL5_Network_FC6_NetworkData : (RHEL5_Network.cls FC6_NetworkData.cls).Normal (networkSheetOf false) (needs c!"network" Version.RHEL5) (unread c!"network") (setToObj (RHEL5_Network.info FC6_NetworkData.cls).op.defaults FC6_NetworkData.init) :=
  opts_normal (o := FC3_NetworkData.strOut FC6_NetworkData.args) (T := [c!"lineno"]) (networkSheetOf false) (fun args n => post_weaken (FC3_Network.parsed _ args n) fun _ h => h.mono (by decide)) (fun _ => rfl) (.inr ⟨_, by decide, rfl⟩) (fun a b => FC3_Network.sim _ a b []) (by decide) (by decide +kernel) (by decide +kernel)

theorem same_RHEL5_Network_FC6_NetworkData : (RHEL5_Network.cls FC6_NetworkData.cls).SameText := list_same (o := FC3_NetworkData.strOut FC6_NetworkData.args) (fun _ => rfl) (by decide +kernel)

theorem normal_RHEL6_Network_RHEL6_NetworkData : (RHEL6_Network.cls RHEL6_NetworkData.cls).Normal (networkSheetOf false) (needs c!"network" Version.RHEL6) (unread c!"network") (setToObj (RHEL6_Network.info RHEL6_NetworkData.cls).op.defaults RHEL6_NetworkData.init) :=
  opts_normal (o := FC3_NetworkData.strOut RHEL6_NetworkData.args) (T := [c!"lineno"]) (networkSheetOf false) (fun args n => post_weaken (FC3_Network.parsed _ args n) fun _ h => h.mono (by decide)) (fun _ => rfl) (.inr ⟨_, by decide, rfl⟩) (fun a b => FC3_Network.sim _ a b []) (by decide) (by decide +kernel) (by decide +kernel)

theorem same_RHEL6_Network_RHEL6_NetworkData : (RHEL6_Network.cls RHEL6_NetworkData.cls).SameText := list_same (o := FC3_NetworkData.strOut RHEL6_NetworkData.args) (fun _ => rfl) (by decide +kernel)

theorem normal_RHEL7_Network_RHEL7_NetworkData : (RHEL7_Network.cls RHEL7_NetworkData.cls).Normal (networkSheetOf false) (needs c!"network" Version.RHEL7) (unread c!"network") (setToObj (RHEL7_Network.info RHEL7_NetworkData.cls).op.defaults RHEL7_NetworkData.init) :=
  opts_normal (o := FC3_NetworkData.strOut RHEL7_NetworkData.args) (T := [c!"lineno"]) (networkSheetOf false) (fun args n => post_weaken (RHEL7_Network.parsed _ args n) fun _ h => h.mono (by decide)) (fun _ => rfl) (.inr ⟨_, by decide, rfl⟩) (fun a b => RHEL7_Network.sim _ a b) (by decide) (by decide +kernel) (by decide +kernel)

theorem same_RHEL7_Network_RHEL7_NetworkData : (RHEL7_Network.cls RHEL7_NetworkData.cls).SameText := list_same (o := FC3_NetworkData.strOut RHEL7_NetworkData.args) (fun _ => rfl) (by decide +kernel)

/-- The values of an object of `network` without options. -/
def networkBases : List (Nat × Ns) :=
  [(Version.F10, setToObj (F9_Network.info F8_NetworkData.cls).op.defaults F8_NetworkData.init),
   (Version.F11, setToObj (F9_Network.info F8_NetworkData.cls).op.defaults F8_NetworkData.init),
   (Version.F12, setToObj (F9_Network.info F8_NetworkData.cls).op.defaults F8_NetworkData.init),
   (Version.F13, setToObj (F9_Network.info F8_NetworkData.cls).op.defaults F8_NetworkData.init),
   (Version.F14, setToObj (F9_Network.info F8_NetworkData.cls).op.defaults F8_NetworkData.init),
   (Version.F15, setToObj (F9_Network.info F8_NetworkData.cls).op.defaults F8_NetworkData.init),
   (Version.F16, setToObj (F16_Network.info F16_NetworkData.cls).op.defaults F16_NetworkData.init),
   (Version.F17, setToObj (F16_Network.info F16_NetworkData.cls).op.defaults F16_NetworkData.init),
   (Version.F18, setToObj (F18_Network.info F16_NetworkData.cls).op.defaults F16_NetworkData.init),
   (Version.F19, setToObj (F19_Network.info F19_NetworkData.cls).op.defaults F19_NetworkData.init),
   (Version.F20, setToObj (F20_Network.info F20_NetworkData.cls).op.defaults F20_NetworkData.init),
   (Version.F21, setToObj (F21_Network.info F21_NetworkData.cls).op.defaults F21_NetworkData.init),
   (Version.F22, setToObj (F22_Network.info F22_NetworkData.cls).op.defaults F22_NetworkData.init),
   (Version.F23, setToObj (F22_Network.info F22_NetworkData.cls).op.defaults F22_NetworkData.init),
   (Version.F24, setToObj (F24_Network.info F22_NetworkData.cls).op.defaults F22_NetworkData.init),
   (Version.F25, setToObj (F25_Network.info F25_NetworkData.cls).op.defaults F25_NetworkData.init),
   (Version.F26, setToObj (F25_Network.info F25_NetworkData.cls).op.defaults F25_NetworkData.init),
   (Version.F27, setToObj (F27_Network.info F27_NetworkData.cls).op.defaults F27_NetworkData.init),
   (Version.F28, setToObj (F27_Network.info F27_NetworkData.cls).op.defaults F27_NetworkData.init),
   (Version.F29, setToObj (F27_Network.info F27_NetworkData.cls).op.defaults F27_NetworkData.init),
   (Version.F30, setToObj (F27_Network.info F27_NetworkData.cls).op.defaults F27_NetworkData.init),
   (Version.F31, setToObj (F27_Network.info F27_NetworkData.cls).op.defaults F27_NetworkData.init),
   (Version.F32, setToObj (F27_Network.info F27_NetworkData.cls).op.defaults F27_NetworkData.init),
   (Version.F33, setToObj (F27_Network.info F27_NetworkData.cls).op.defaults F27_NetworkData.init),
   (Version.F34, setToObj (F27_Network.info F27_NetworkData.cls).op.defaults F27_NetworkData.init),
   (Version.F7, setToObj (FC6_Network.info FC6_NetworkData.cls).op.defaults FC6_NetworkData.init),
   (Version.F8, setToObj (F8_Network.info F8_NetworkData.cls).op.defaults F8_NetworkData.init),
   (Version.F9, setToObj (F9_Network.info F8_NetworkData.cls).op.defaults F8_NetworkData.init),
   (Version.FC3, setToObj (FC3_Network.info FC3_NetworkData.cls).op.defaults FC3_NetworkData.init),
   (Version.FC4, setToObj (FC4_Network.info FC4_NetworkData.cls).op.defaults FC4_NetworkData.init),
   (Version.FC5, setToObj (FC4_Network.info FC4_NetworkData.cls).op.defaults FC4_NetworkData.init),
   (Version.FC6, setToObj (FC6_Network.info FC6_NetworkData.cls).op.defaults FC6_NetworkData.init),
   (Version.RHEL3, setToObj (FC3_Network.info RHEL4_NetworkData.cls).op.defaults RHEL4_NetworkData.init),
   (Version.RHEL4, setToObj (RHEL4_Network.info RHEL4_NetworkData.cls).op.defaults RHEL4_NetworkData.init),
   (Version.RHEL5, setToObj (RHEL5_Network.info FC6_NetworkData.cls).op.defaults FC6_NetworkData.init),
   (Version.RHEL6, setToObj (RHEL6_Network.info RHEL6_NetworkData.cls).op.defaults RHEL6_NetworkData.init),
   (Version.RHEL7, setToObj (RHEL7_Network.info RHEL7_NetworkData.cls).op.defaults RHEL7_NetworkData.init),
   (Version.RHEL8, setToObj (F27_Network.info F27_NetworkData.cls).op.defaults F27_NetworkData.init)]

theorem normal_network : ∀ y ∈ commandMaps, ∀ c, y.2.lookup c!"network" = some c → c.hasList { attrs := {} } = true →
    ∃ base, networkBases.lookup y.1 = some base ∧ c.Normal (networkSheet y.1) (needs c!"network" y.1) (unread c!"network") base ∧ c.SameText := by
  unfold commandMaps
  exact (all_cons (fun c h hl => by cases h; exact ⟨_, rfl, normal_F9_Network_F8_NetworkData, same_F9_Network_F8_NetworkData⟩)
    (all_cons (fun c h hl => by cases h; exact ⟨_, rfl, normal_F9_Network_F8_NetworkData, same_F9_Network_F8_NetworkData⟩)
    (all_cons (fun c h hl => by cases h; exact ⟨_, rfl, normal_F9_Network_F8_NetworkData, same_F9_Network_F8_NetworkData⟩)
    (all_cons (fun c h hl => by cases h; exact ⟨_, rfl, normal_F9_Network_F8_NetworkData, same_F9_Network_F8_NetworkData⟩)
    (all_cons (fun c h hl => by cases h; exact ⟨_, rfl, normal_F9_Network_F8_NetworkData, same_F9_Network_F8_NetworkData⟩)
    (all_cons (fun c h hl => by cases h; exact ⟨_, rfl, normal_F9_Network_F8_NetworkData, same_F9_Network_F8_NetworkData⟩)
    (all_cons (fun c h hl => by cases h; exact ⟨_, rfl, normal_F16_Network_F16_NetworkData, same_F16_Network_F16_NetworkData⟩)
    (all_cons (fun c h hl => by cases h; exact ⟨_, rfl, normal_F16_Network_F16_NetworkData, same_F16_Network_F16_NetworkData⟩)
    (all_cons (fun c h hl => by cases h; exact ⟨_, rfl, normal_F18_Network_F16_NetworkData, same_F18_Network_F16_NetworkData⟩)
    (all_cons (fun c h hl => by cases h; exact ⟨_, rfl, normal_F19_Network_F19_NetworkData, same_F19_Network_F19_NetworkData⟩)
    (all_cons (fun c h hl => by cases h; exact ⟨_, rfl, normal_F20_Network_F20_NetworkData, same_F20_Network_F20_NetworkData⟩)
    (all_cons (fun c h hl => by cases h; exact ⟨_, rfl, normal_F21_Network_F21_NetworkData, same_F21_Network_F21_NetworkData⟩)
    (all_cons (fun c h hl => by cases h; exact ⟨_, rfl, normal_F22_Network_F22_NetworkData, same_F22_Network_F22_NetworkData⟩)
    (all_cons (fun c h hl => by cases h; exact ⟨_, rfl, normal_F22_Network_F22_NetworkData, same_F22_Network_F22_NetworkData⟩)
    (all_cons (fun c h hl => by cases h; exact ⟨_, rfl, normal_F24_Network_F22_NetworkData_lost, same_F24_Network_F22_NetworkData_lost⟩)
    (all_cons (fun c h hl => by cases h; exact ⟨_, rfl, normal_F25_Network_F25_NetworkData_lost, same_F25_Network_F25_NetworkData_lost⟩)
    (all_cons (fun c h hl => by cases h; exact ⟨_, rfl, normal_F25_Network_F25_NetworkData_lost, same_F25_Network_F25_NetworkData_lost⟩)
    (all_cons (fun c h hl => by cases h; exact ⟨_, rfl, normal_F27_Network_F27_NetworkData_lost, same_F27_Network_F27_NetworkData_lost⟩)
    (all_cons (fun c h hl => by cases h; exact ⟨_, rfl, normal_F27_Network_F27_NetworkData_lost, same_F27_Network_F27_NetworkData_lost⟩)
    (all_cons (fun c h hl => by cases h; exact ⟨_, rfl, normal_F27_Network_F27_NetworkData_lost, same_F27_Network_F27_NetworkData_lost⟩)
    (all_cons (fun c h hl => by cases h; exact ⟨_, rfl, normal_F27_Network_F27_NetworkData_lost, same_F27_Network_F27_NetworkData_lost⟩)
    (all_cons (fun c h hl => by cases h; exact ⟨_, rfl, normal_F27_Network_F27_NetworkData_lost, same_F27_Network_F27_NetworkData_lost⟩)
    (all_cons (fun c h hl => by cases h; exact ⟨_, rfl, normal_F27_Network_F27_NetworkData_lost, same_F27_Network_F27_NetworkData_lost⟩)
    (all_cons (fun c h hl => by cases h; exact ⟨_, rfl, normal_F27_Network_F27_NetworkData_lost, same_F27_Network_F27_NetworkData_lost⟩)
    (all_cons (fun c h hl => by cases h; exact ⟨_, rfl, normal_F27_Network_F27_NetworkData_lost, same_F27_Network_F27_NetworkData_lost⟩)
    (all_cons (fun c h hl => by cases h; exact ⟨_, rfl, normal_FC6_Network_FC6_NetworkData, same_FC6_Network_FC6_NetworkData⟩)
    (all_cons (fun c h hl => by cases h; exact ⟨_, rfl, normal_F8_Network_F8_NetworkData, same_F8_Network_F8_NetworkData⟩)
    (all_cons (fun c h hl => by cases h; exact ⟨_, rfl, normal_F9_Network_F8_NetworkData, same_F9_Network_F8_NetworkData⟩)
    (all_cons (fun c h hl => by cases h; exact ⟨_, rfl, normal_FC3_Network_FC3_NetworkData, same_FC3_Network_FC3_NetworkData⟩)
    (all_cons (fun c h hl => by cases h; exact ⟨_, rfl, normal_FC4_Network_FC4_NetworkData, same_FC4_Network_FC4_NetworkData⟩)
    (all_cons (fun c h hl => by cases h; exact ⟨_, rfl, normal_FC4_Network_FC4_NetworkData, same_FC4_Network_FC4_NetworkData⟩)
    (all_cons (fun c h hl => by cases h; exact ⟨_, rfl, normal_FC6_Network_FC6_NetworkData, same_FC6_Network_FC6_NetworkData⟩)
    (all_cons (fun c h hl => by cases h; exact ⟨_, rfl, normal_FC3_Network_RHEL4_NetworkData, same_FC3_Network_RHEL4_NetworkData⟩)
    (all_cons (fun c h hl => by cases h; exact ⟨_, rfl, normal_RHEL4_Network_RHEL4_NetworkData, same_RHEL4_Network_RHEL4_NetworkData⟩)
    (all_cons (fun c h hl => by cases h; exact ⟨_, rfl, normal_RHEL5_Network_FC6_NetworkData, same_RHEL5_Network_FC6_NetworkData⟩)
    (all_cons (fun c h hl => by cases h; exact ⟨_, rfl, normal_RHEL6_Network_RHEL6_NetworkData, same_RHEL6_Network_RHEL6_NetworkData⟩)
    (all_cons (fun c h hl => by cases h; exact ⟨_, rfl, normal_RHEL7_Network_RHEL7_NetworkData, same_RHEL7_Network_RHEL7_NetworkData⟩)
    (all_cons (fun c h hl => by cases h; exact ⟨_, rfl, normal_F27_Network_F27_NetworkData_lost, same_F27_Network_F27_NetworkData_lost⟩) (List.forall_mem_nil _)))))))))))))))))))))))))))))))))))))))

end Ks.Cmd
