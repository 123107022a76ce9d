import Verif.Commands.NormalClasses
import Verif.Commands.NormalSpec
/-!
# The text of an object is read again, class by class

Written by `scripts/gen_normal.py`.
-/
namespace Ks.Cmd

set_option linter.unusedVariables false

theorem normal_F8_Repo_F8_RepoData : (F8_Repo.cls F8_RepoData.cls).Normal (repoSheet 0) (needs c!"repo" Version.F10) (unread c!"repo") (setToObj (F8_Repo.info F8_RepoData.cls).op.defaults F8_RepoData.init) :=
  opts_normal (o := FC6_RepoData.strOut F8_RepoData.args) (T := [c!"lineno"]) (repoSheet 0) (fun args n => post_weaken (FC6_Repo.parsed _ args n) fun _ h => h.mono (by decide)) (fun _ => rfl) (.inl rfl) (fun a b => FC6_Repo.sim _ a b (by decide +kernel)) (by decide) (by decide +kernel) (by decide +kernel)

theorem same_F8_Repo_F8_RepoData : (F8_Repo.cls F8_RepoData.cls).SameText := list_same (o := FC6_RepoData.strOut F8_RepoData.args) (fun _ => rfl) (by decide +kernel)

theorem normal_F11_Repo_F11_RepoData : (F11_Repo.cls F11_RepoData.cls).Normal (repoSheet 0) (needs c!"repo" Version.F11) (unread c!"repo") (setToObj (F11_Repo.info F11_RepoData.cls).op.defaults F11_RepoData.init) :=
  opts_normal (o := FC6_RepoData.strOut F11_RepoData.args) (T := [c!"lineno"]) (repoSheet 0) (fun args n => post_weaken (FC6_Repo.parsed _ args n) fun _ h => h.mono (by decide)) (fun _ => rfl) (.inl rfl) (fun a b => FC6_Repo.sim _ a b (by decide +kernel)) (by decide) (by decide +kernel) (by decide +kernel)

theorem same_F11_Repo_F11_RepoData : (F11_Repo.cls F11_RepoData.cls).SameText := list_same (o := FC6_RepoData.strOut F11_RepoData.args) (fun _ => rfl) (by decide +kernel)

theorem normal_F13_Repo_F13_RepoData : (F13_Repo.cls F13_RepoData.cls).Normal (repoSheet 0) (needs c!"repo" Version.F13) (unread c!"repo") (setToObj (F13_Repo.info F13_RepoData.cls).op.defaults F13_RepoData.init) :=
  opts_normal (o := FC6_RepoData.strOut F13_RepoData.args) (T := [c!"lineno"]) (repoSheet 0) (fun args n => post_weaken (FC6_Repo.parsed _ args n) fun _ h => h.mono (by decide)) (fun _ => rfl) (.inl rfl) (fun a b => FC6_Repo.sim _ a b (by decide +kernel)) (by decide) (by decide +kernel) (by decide +kernel)

theorem same_F13_Repo_F13_RepoData : (F13_Repo.cls F13_RepoData.cls).SameText := list_same (o := FC6_RepoData.strOut F13_RepoData.args) (fun _ => rfl) (by decide +kernel)

theorem normal_F14_Repo_F14_RepoData : (F14_Repo.cls F14_RepoData.cls).Normal (repoSheet 0) (needs c!"repo" Version.F14) (unread c!"repo") (setToObj (F14_Repo.info F14_RepoData.cls).op.defaults F14_RepoData.init) :=
  opts_normal (o := FC6_RepoData.strOut F14_RepoData.args) (T := [c!"lineno"]) (repoSheet 0) (fun args n => post_weaken (FC6_Repo.parsed _ args n) fun _ h => h.mono (by decide)) (fun _ => rfl) (.inl rfl) (fun a b => FC6_Repo.sim _ a b (by decide +kernel)) (by decide) (by decide +kernel) (by decide +kernel)

theorem same_F14_Repo_F14_RepoData : (F14_Repo.cls F14_RepoData.cls).SameText := list_same (o := FC6_RepoData.strOut F14_RepoData.args) (fun _ => rfl) (by decide +kernel)

theorem normal_F15_Repo_F15_RepoData : (F15_Repo.cls F15_RepoData.cls).Normal (repoSheet 0) (needs c!"repo" Version.F15) (unread c!"repo") (setToObj (F15_Repo.info F15_RepoData.cls).op.defaults F15_RepoData.init) :=
  opts_normal (o := FC6_RepoData.strOut F14_RepoData.args) (T := [c!"lineno"]) (repoSheet 0) (fun args n => post_weaken (FC6_Repo.parsed _ args n) fun _ h => h.mono (by decide)) (fun _ => rfl) (.inl rfl) (fun a b => FC6_Repo.sim _ a b (by decide +kernel)) (by decide) (by decide +kernel) (by decide +kernel)

theorem same_F15_Repo_F15_RepoData : (F15_Repo.cls F15_RepoData.cls).SameText := list_same (o := FC6_RepoData.strOut F14_RepoData.args) (fun _ => rfl) (by decide +kernel)

theorem normal_F21_Repo_F21_RepoData : (F21_Repo.cls F21_RepoData.cls).Normal (repoSheet 0) (needs c!"repo" Version.F21) (unread c!"repo") (setToObj (F21_Repo.info F21_RepoData.cls).op.defaults F21_RepoData.init) :=
  opts_normal (o := FC6_RepoData.strOut F21_RepoData.args) (T := [c!"lineno"]) (repoSheet 0) (fun args n => post_weaken (FC6_Repo.parsed _ args n) fun _ h => h.mono (by decide)) (fun _ => rfl) (.inl rfl) (fun a b => FC6_Repo.sim _ a b (by decide +kernel)) (by decide) (by decide +kernel) (by decide +kernel)

theorem same_F21_Repo_F21_RepoData : (F21_Repo.cls F21_RepoData.cls).SameText := list_same (o := FC6_RepoData.strOut F21_RepoData.args) (fun _ => rfl) (by decide +kernel)

theorem normal_F27_Repo_F27_RepoData : (F27_Repo.cls F27_RepoData.cls).Normal (repoSheet 0) (needs c!"repo" Version.F27) (unread c!"repo") (setToObj (F27_Repo.info F27_RepoData.cls).op.defaults F27_RepoData.init) :=
  opts_normal (o := FC6_RepoData.strOut F27_RepoData.args) (T := [c!"lineno"]) (repoSheet 0) (fun args n => post_weaken (FC6_Repo.parsed _ args n) fun _ h => h.mono (by decide)) (fun _ => rfl) (.inl rfl) (fun a b => FC6_Repo.sim _ a b (by decide +kernel)) (by decide) (by decide +kernel) (by decide +kernel)

theorem same_F27_Repo_F27_RepoData : (F27_Repo.cls F27_RepoData.cls).SameText := list_same (o := FC6_RepoData.strOut F27_RepoData.args) (fun _ => rfl) (by decide +kernel)

theorem normal_F30_Repo_F30_RepoData : (F30_Repo.cls F30_RepoData.cls).Normal (repoSheet 0) (needs c!"repo" Version.F30) (unread c!"repo") (setToObj (F30_Repo.info F30_RepoData.cls).op.defaults F30_RepoData.init) :=
  opts_normal (o := FC6_RepoData.strOut F30_RepoData.args) (T := [c!"lineno"]) (repoSheet 0) (fun args n => post_weaken (FC6_Repo.parsed _ args n) fun _ h => h.mono (by decide)) (fun _ => rfl) (.inl rfl) (fun a b => FC6_Repo.sim _ a b (by decide +kernel)) (by decide) (by decide +kernel) (by decide +kernel)

theorem same_F30_Repo_F30_RepoData : (F30_Repo.cls F30_RepoData.cls).SameText := list_same (o := FC6_RepoData.strOut F30_RepoData.args) (fun _ => rfl) (by decide +kernel)

theorem normal_F33_Repo_F30_RepoData : (F33_Repo.cls F30_RepoData.cls).Normal (repoSheet 0) (needs c!"repo" Version.F33) (unread c!"repo") (setToObj (F33_Repo.info F30_RepoData.cls).op.defaults F30_RepoData.init) :=
  opts_normal (o := FC6_RepoData.strOut F30_RepoData.args) (T := [c!"lineno"]) (repoSheet 0) (fun args n => post_weaken (FC6_Repo.parsed _ args n) fun _ h => h.mono (by decide)) (fun _ => rfl) (.inl rfl) (fun a b => FC6_Repo.sim _ a b (by decide +kernel)) (by decide) (by decide +kernel) (by decide +kernel)

theorem same_F33_Repo_F30_RepoData : (F33_Repo.cls F30_RepoData.cls).SameText := list_same (o := FC6_RepoData.strOut F30_RepoData.args) (fun _ => rfl) (by decide +kernel)

theorem normal_FC6_Repo_FC6_RepoData : (FC6_Repo.cls FC6_RepoData.cls).Normal (repoSheet 0) (needs c!"repo" Version.F7) (unread c!"repo") (setToObj (FC6_Repo.info FC6_RepoData.cls).op.defaults FC6_RepoData.init) :=
  opts_normal (o := FC6_RepoData.strOut FC6_RepoData.args) (T := [c!"lineno"]) (repoSheet 0) (fun args n => post_weaken (FC6_Repo.parsed _ args n) fun _ h => h.mono (by decide)) (fun _ => rfl) (.inl rfl) (fun a b => FC6_Repo.sim _ a b (by decide +kernel)) (by decide) (by decide +kernel) (by decide +kernel)

theorem same_FC6_Repo_FC6_RepoData : (FC6_Repo.cls FC6_RepoData.cls).SameText := list_same (o := FC6_RepoData.strOut FC6_RepoData.args) (fun _ => rfl) (by decide +kernel)

theorem normal_RHEL6_Repo_RHEL6_RepoData : (RHEL6_Repo.cls RHEL6_RepoData.cls).Normal (repoSheet 0) (needs c!"repo" Version.RHEL6) (unread c!"repo") (setToObj (RHEL6_Repo.info RHEL6_RepoData.cls).op.defaults RHEL6_RepoData.init) :=
  opts_normal (o := FC6_RepoData.strOut F14_RepoData.args) (T := [c!"lineno"]) (repoSheet 0) (fun args n => post_weaken (FC6_Repo.parsed _ args n) fun _ h => h.mono (by decide)) (fun _ => rfl) (.inl rfl) (fun a b => FC6_Repo.sim _ a b (by decide +kernel)) (by decide) (by decide +kernel) (by decide +kernel)

theorem same_RHEL6_Repo_RHEL6_RepoData : (RHEL6_Repo.cls RHEL6_RepoData.cls).SameText := list_same (o := FC6_RepoData.strOut F14_RepoData.args) (fun _ => rfl) (by decide +kernel)

theorem normal_RHEL7_Repo_RHEL7_RepoData : (RHEL7_Repo.cls RHEL7_RepoData.cls).Normal (repoSheet 0) (needs c!"repo" Version.RHEL7) (unread c!"repo") (setToObj (RHEL7_Repo.info RHEL7_RepoData.cls).op.defaults RHEL7_RepoData.init) :=
  opts_normal (o := FC6_RepoData.strOut F21_RepoData.args) (T := [c!"lineno"]) (repoSheet 0) (fun args n => post_weaken (FC6_Repo.parsed _ args n) fun _ h => h.mono (by decide)) (fun _ => rfl) (.inl rfl) (fun a b => FC6_Repo.sim _ a b (by decide +kernel)) (by decide) (by decide +kernel) (by decide +kernel)

theorem same_RHEL7_Repo_RHEL7_RepoData : (RHEL7_Repo.cls RHEL7_RepoData.cls).SameText := list_same (o := FC6_RepoData.strOut F21_RepoData.args) (fun _ => rfl) (by decide +kernel)

theorem normal_RHEL8_Repo_RHEL8_RepoData : (RHEL8_Repo.cls RHEL8_RepoData.cls).Normal (repoSheet 0) (needs c!"repo" Version.RHEL8) (unread c!"repo") (setToObj (RHEL8_Repo.info RHEL8_RepoData.cls).op.defaults RHEL8_RepoData.init) :=
  opts_normal (o := FC6_RepoData.strOut F30_RepoData.args) (T := [c!"lineno"]) (repoSheet 0) (fun args n => post_weaken (FC6_Repo.parsed _ args n) fun _ h => h.mono (by decide)) (fun _ => rfl) (.inl rfl) (fun a b => FC6_Repo.sim _ a b (by decide +kernel)) (by decide) (by decide +kernel) (by decide +kernel)

theorem same_RHEL8_Repo_RHEL8_RepoData : (RHEL8_Repo.cls RHEL8_RepoData.cls).SameText := list_same (o := FC6_RepoData.strOut F30_RepoData.args) (fun _ => rfl) (by decide +kernel)

/-- The values of an object of `repo` without options. -/
def repoBases : List (Nat × Ns) :=
  [(Version.F10, setToObj (F8_Repo.info F8_RepoData.cls).op.defaults F8_RepoData.init),
   (Version.F11, setToObj (F11_Repo.info F11_RepoData.cls).op.defaults F11_RepoData.init),
   (Version.F12, setToObj (F11_Repo.info F11_RepoData.cls).op.defaults F11_RepoData.init),
   (Version.F13, setToObj (F13_Repo.info F13_RepoData.cls).op.defaults F13_RepoData.init),
   (Version.F14, setToObj (F14_Repo.info F14_RepoData.cls).op.defaults F14_RepoData.init),
   (Version.F15, setToObj (F15_Repo.info F15_RepoData.cls).op.defaults F15_RepoData.init),
   (Version.F16, setToObj (F15_Repo.info F15_RepoData.cls).op.defaults F15_RepoData.init),
   (Version.F17, setToObj (F15_Repo.info F15_RepoData.cls).op.defaults F15_RepoData.init),
   (Version.F18, setToObj (F15_Repo.info F15_RepoData.cls).op.defaults F15_RepoData.init),
   (Version.F19, setToObj (F15_Repo.info F15_RepoData.cls).op.defaults F15_RepoData.init),
   (Version.F20, setToObj (F15_Repo.info F15_RepoData.cls).op.defaults F15_RepoData.init),
   (Version.F21, setToObj (F21_Repo.info F21_RepoData.cls).op.defaults F21_RepoData.init),
   (Version.F22, setToObj (F21_Repo.info F21_RepoData.cls).op.defaults F21_RepoData.init),
   (Version.F23, setToObj (F21_Repo.info F21_RepoData.cls).op.defaults F21_RepoData.init),
   (Version.F24, setToObj (F21_Repo.info F21_RepoData.cls).op.defaults F21_RepoData.init),
   (Version.F25, setToObj (F21_Repo.info F21_RepoData.cls).op.defaults F21_RepoData.init),
   (Version.F26, setToObj (F21_Repo.info F21_RepoData.cls).op.defaults F21_RepoData.init),
   (Version.F27, setToObj (F27_Repo.info F27_RepoData.cls).op.defaults F27_RepoData.init),
   (Version.F28, setToObj (F27_Repo.info F27_RepoData.cls).op.defaults F27_RepoData.init),
   (Version.F29, setToObj (F27_Repo.info F27_RepoData.cls).op.defaults F27_RepoData.init),
   (Version.F30, setToObj (F30_Repo.info F30_RepoData.cls).op.defaults F30_RepoData.init),
   (Version.F31, setToObj (F30_Repo.info F30_RepoData.cls).op.defaults F30_RepoData.init),
   (Version.F32, setToObj (F30_Repo.info F30_RepoData.cls).op.defaults F30_RepoData.init),
   (Version.F33, setToObj (F33_Repo.info F30_RepoData.cls).op.defaults F30_RepoData.init),
   (Version.F34, setToObj (F33_Repo.info F30_RepoData.cls).op.defaults F30_RepoData.init),
   (Version.F7, setToObj (FC6_Repo.info FC6_RepoData.cls).op.defaults FC6_RepoData.init),
   (Version.F8, setToObj (F8_Repo.info F8_RepoData.cls).op.defaults F8_RepoData.init),
   (Version.F9, setToObj (F8_Repo.info F8_RepoData.cls).op.defaults F8_RepoData.init),
   (Version.FC6, setToObj (FC6_Repo.info FC6_RepoData.cls).op.defaults FC6_RepoData.init),
   (Version.RHEL5, setToObj (FC6_Repo.info FC6_RepoData.cls).op.defaults FC6_RepoData.init),
   (Version.RHEL6, setToObj (RHEL6_Repo.info RHEL6_RepoData.cls).op.defaults RHEL6_RepoData.init),
   (Version.RHEL7, setToObj (RHEL7_Repo.info RHEL7_RepoData.cls).op.defaults RHEL7_RepoData.init),
   (Version.RHEL8, setToObj (RHEL8_Repo.info RHEL8_RepoData.cls).op.defaults RHEL8_RepoData.init)]

theorem normal_repo : ∀ y ∈ commandMaps, ∀ c, y.2.lookup c!"repo" = some c → c.hasList { attrs := {} } = true →
    ∃ base, repoBases.lookup y.1 = some base ∧ c.Normal (repoSheet y.1) (needs c!"repo" y.1) (unread c!"repo") base ∧ c.SameText := by
  unfold commandMaps
  exact (all_cons (fun c h hl => by cases h; exact ⟨_, rfl, normal_F8_Repo_F8_RepoData, same_F8_Repo_F8_RepoData⟩)
    (all_cons (fun c h hl => by cases h; exact ⟨_, rfl, normal_F11_Repo_F11_RepoData, same_F11_Repo_F11_RepoData⟩)
    (all_cons (fun c h hl => by cases h; exact ⟨_, rfl, normal_F11_Repo_F11_RepoData, same_F11_Repo_F11_RepoData⟩)
    (all_cons (fun c h hl => by cases h; exact ⟨_, rfl, normal_F13_Repo_F13_RepoData, same_F13_Repo_F13_RepoData⟩)
    (all_cons (fun c h hl => by cases h; exact ⟨_, rfl, normal_F14_Repo_F14_RepoData, same_F14_Repo_F14_RepoData⟩)
    (all_cons (fun c h hl => by cases h; exact ⟨_, rfl, normal_F15_Repo_F15_RepoData, same_F15_Repo_F15_RepoData⟩)
    (all_cons (fun c h hl => by cases h; exact ⟨_, rfl, normal_F15_Repo_F15_RepoData, same_F15_Repo_F15_RepoData⟩)
    (all_cons (fun c h hl => by cases h; exact ⟨_, rfl, normal_F15_Repo_F15_RepoData, same_F15_Repo_F15_RepoData⟩)
    (all_cons (fun c h hl => by cases h; exact ⟨_, rfl, normal_F15_Repo_F15_RepoData, same_F15_Repo_F15_RepoData⟩)
    (all_cons (fun c h hl => by cases h; exact ⟨_, rfl, normal_F15_Repo_F15_RepoData, same_F15_Repo_F15_RepoData⟩)
    (all_cons (fun c h hl => by cases h; exact ⟨_, rfl, normal_F15_Repo_F15_RepoData, same_F15_Repo_F15_RepoData⟩)
    (all_cons (fun c h hl => by cases h; exact ⟨_, rfl, normal_F21_Repo_F21_RepoData, same_F21_Repo_F21_RepoData⟩)
    (all_cons (fun c h hl => by cases h; exact ⟨_, rfl, normal_F21_Repo_F21_RepoData, same_F21_Repo_F21_RepoData⟩)
    (all_cons (fun c h hl => by cases h; exact ⟨_, rfl, normal_F21_Repo_F21_RepoData, same_F21_Repo_F21_RepoData⟩)
    (all_cons (fun c h hl => by cases h; exact ⟨_, rfl, normal_F21_Repo_F21_RepoData, same_F21_Repo_F21_RepoData⟩)
    (all_cons (fun c h hl => by cases h; exact ⟨_, rfl, normal_F21_Repo_F21_RepoData, same_F21_Repo_F21_RepoData⟩)
    (all_cons (fun c h hl => by cases h; exact ⟨_, rfl, normal_F21_Repo_F21_RepoData, same_F21_Repo_F21_RepoData⟩)
    (all_cons (fun c h hl => by cases h; exact ⟨_, rfl, normal_F27_Repo_F27_RepoData, same_F27_Repo_F27_RepoData⟩)
    (all_cons (fun c h hl => by cases h; exact ⟨_, rfl, normal_F27_Repo_F27_RepoData, same_F27_Repo_F27_RepoData⟩)
    (all_cons (fun c h hl => by cases h; exact ⟨_, rfl, normal_F27_Repo_F27_RepoData, same_F27_Repo_F27_RepoData⟩)
    (all_cons (fun c h hl => by cases h; exact ⟨_, rfl, normal_F30_Repo_F30_RepoData, same_F30_Repo_F30_RepoData⟩)
    (all_cons (fun c h hl => by cases h; exact ⟨_, rfl, normal_F30_Repo_F30_RepoData, same_F30_Repo_F30_RepoData⟩)
    (all_cons (fun c h hl => by cases h; exact ⟨_, rfl, normal_F30_Repo_F30_RepoData, same_F30_Repo_F30_RepoData⟩)
    (all_cons (fun c h hl => by cases h; exact ⟨_, rfl, normal_F33_Repo_F30_RepoData, same_F33_Repo_F30_RepoData⟩)
    (all_cons (fun c h hl => by cases h; exact ⟨_, rfl, normal_F33_Repo_F30_RepoData, same_F33_Repo_F30_RepoData⟩)
    (all_cons (fun c h hl => by cases h; exact ⟨_, rfl, normal_FC6_Repo_FC6_RepoData, same_FC6_Repo_FC6_RepoData⟩)
    (all_cons (fun c h hl => by cases h; exact ⟨_, rfl, normal_F8_Repo_F8_RepoData, same_F8_Repo_F8_RepoData⟩)
    (all_cons (fun c h hl => by cases h; exact ⟨_, rfl, normal_F8_Repo_F8_RepoData, same_F8_Repo_F8_RepoData⟩)
    (all_cons (fun c h hl => by cases h)
    (all_cons (fun c h hl => by cases h)
    (all_cons (fun c h hl => by cases h)
    (all_cons (fun c h hl => by cases h; exact ⟨_, rfl, normal_FC6_Repo_FC6_RepoData, same_FC6_Repo_FC6_RepoData⟩)
    (all_cons (fun c h hl => by cases h)
    (all_cons (fun c h hl => by cases h)
    (all_cons (fun c h hl => by cases h; exact ⟨_, rfl, normal_FC6_Repo_FC6_RepoData, same_FC6_Repo_FC6_RepoData⟩)
    (all_cons (fun c h hl => by cases h; exact ⟨_, rfl, normal_RHEL6_Repo_RHEL6_RepoData, same_RHEL6_Repo_RHEL6_RepoData⟩)
    (all_cons (fun c h hl => by cases h; exact ⟨_, rfl, normal_RHEL7_Repo_RHEL7_RepoData, same_RHEL7_Repo_RHEL7_RepoData⟩)
    (all_cons (fun c h hl => by cases h; exact ⟨_, rfl, normal_RHEL8_Repo_RHEL8_RepoData, same_RHEL8_Repo_RHEL8_RepoData⟩) (List.forall_mem_nil _)))))))))))))))))))))))))))))))))))))))

theorem normal_F8_Device_F8_DeviceData : (F8_Device.cls F8_DeviceData.cls).Normal (deviceSheet 0) (needs c!"device" Version.F10) (unread c!"device") (setToObj (F8_Device.info F8_DeviceData.cls).op.defaults F8_DeviceData.init) :=
  word_normal (o := F8_DeviceData.strOut) (T := [c!"lineno", c!"moduleName"]) (deviceSheet 0) _ (fun args n => post_weaken (F8_Device.parsed _ args n) fun _ h => h.mono (by decide)) (fun args n => F8_Device.word _ args n) (fun _ => rfl) (.inl rfl) (fun a b => F8_Device.sim _ a b) (by decide) (by decide +kernel) (by decide +kernel)

theorem same_F8_Device_F8_DeviceData : (F8_Device.cls F8_DeviceData.cls).SameText := list_same (o := F8_DeviceData.strOut) (fun _ => rfl) (by decide +kernel)

/-- The values of an object of `device` without options. -/
def deviceBases : List (Nat × Ns) :=
  [(Version.F10, setToObj (F8_Device.info F8_DeviceData.cls).op.defaults F8_DeviceData.init),
   (Version.F11, setToObj (F8_Device.info F8_DeviceData.cls).op.defaults F8_DeviceData.init),
   (Version.F12, setToObj (F8_Device.info F8_DeviceData.cls).op.defaults F8_DeviceData.init),
   (Version.F13, setToObj (F8_Device.info F8_DeviceData.cls).op.defaults F8_DeviceData.init),
   (Version.F14, setToObj (F8_Device.info F8_DeviceData.cls).op.defaults F8_DeviceData.init),
   (Version.F15, setToObj (F8_Device.info F8_DeviceData.cls).op.defaults F8_DeviceData.init),
   (Version.F16, setToObj (F8_Device.info F8_DeviceData.cls).op.defaults F8_DeviceData.init),
   (Version.F17, setToObj (F8_Device.info F8_DeviceData.cls).op.defaults F8_DeviceData.init),
   (Version.F18, setToObj (F8_Device.info F8_DeviceData.cls).op.defaults F8_DeviceData.init),
   (Version.F19, setToObj (F8_Device.info F8_DeviceData.cls).op.defaults F8_DeviceData.init),
   (Version.F20, setToObj (F8_Device.info F8_DeviceData.cls).op.defaults F8_DeviceData.init),
   (Version.F21, setToObj (F8_Device.info F8_DeviceData.cls).op.defaults F8_DeviceData.init),
   (Version.F22, setToObj (F8_Device.info F8_DeviceData.cls).op.defaults F8_DeviceData.init),
   (Version.F23, setToObj (F8_Device.info F8_DeviceData.cls).op.defaults F8_DeviceData.init),
   (Version.F8, setToObj (F8_Device.info F8_DeviceData.cls).op.defaults F8_DeviceData.init),
   (Version.F9, setToObj (F8_Device.info F8_DeviceData.cls).op.defaults F8_DeviceData.init),
   (Version.RHEL6, setToObj (F8_Device.info F8_DeviceData.cls).op.defaults F8_DeviceData.init),
   (Version.RHEL7, setToObj (F8_Device.info F8_DeviceData.cls).op.defaults F8_DeviceData.init)]

theorem normal_device : ∀ y ∈ commandMaps, ∀ c, y.2.lookup c!"device" = some c → c.hasList { attrs := {} } = true →
    ∃ base, deviceBases.lookup y.1 = some base ∧ c.Normal (deviceSheet y.1) (needs c!"device" y.1) (unread c!"device") base ∧ c.SameText := by
  unfold commandMaps
  exact (all_cons (fun c h hl => by cases h; exact ⟨_, rfl, normal_F8_Device_F8_DeviceData, same_F8_Device_F8_DeviceData⟩)
    (all_cons (fun c h hl => by cases h; exact ⟨_, rfl, normal_F8_Device_F8_DeviceData, same_F8_Device_F8_DeviceData⟩)
    (all_cons (fun c h hl => by cases h; exact ⟨_, rfl, normal_F8_Device_F8_DeviceData, same_F8_Device_F8_DeviceData⟩)
    (all_cons (fun c h hl => by cases h; exact ⟨_, rfl, normal_F8_Device_F8_DeviceData, same_F8_Device_F8_DeviceData⟩)
    (all_cons (fun c h hl => by cases h; exact ⟨_, rfl, normal_F8_Device_F8_DeviceData, same_F8_Device_F8_DeviceData⟩)
    (all_cons (fun c h hl => by cases h; exact ⟨_, rfl, normal_F8_Device_F8_DeviceData, same_F8_Device_F8_DeviceData⟩)
    (all_cons (fun c h hl => by cases h; exact ⟨_, rfl, normal_F8_Device_F8_DeviceData, same_F8_Device_F8_DeviceData⟩)
    (all_cons (fun c h hl => by cases h; exact ⟨_, rfl, normal_F8_Device_F8_DeviceData, same_F8_Device_F8_DeviceData⟩)
    (all_cons (fun c h hl => by cases h; exact ⟨_, rfl, normal_F8_Device_F8_DeviceData, same_F8_Device_F8_DeviceData⟩)
    (all_cons (fun c h hl => by cases h; exact ⟨_, rfl, normal_F8_Device_F8_DeviceData, same_F8_Device_F8_DeviceData⟩)
    (all_cons (fun c h hl => by cases h; exact ⟨_, rfl, normal_F8_Device_F8_DeviceData, same_F8_Device_F8_DeviceData⟩)
    (all_cons (fun c h hl => by cases h; exact ⟨_, rfl, normal_F8_Device_F8_DeviceData, same_F8_Device_F8_DeviceData⟩)
    (all_cons (fun c h hl => by cases h; exact ⟨_, rfl, normal_F8_Device_F8_DeviceData, same_F8_Device_F8_DeviceData⟩)
    (all_cons (fun c h hl => by cases h; exact ⟨_, rfl, normal_F8_Device_F8_DeviceData, same_F8_Device_F8_DeviceData⟩)
    (all_cons (fun c h hl => by cases h; exact absurd hl (by decide))
    (all_cons (fun c h hl => by cases h; exact absurd hl (by decide))
    (all_cons (fun c h hl => by cases h; exact absurd hl (by decide))
    (all_cons (fun c h hl => by cases h; exact absurd hl (by decide))
    (all_cons (fun c h hl => by cases h; exact absurd hl (by decide))
    (all_cons (fun c h hl => by cases h; exact absurd hl (by decide))
    (all_cons (fun c h hl => by cases h; exact absurd hl (by decide))
    (all_cons (fun c h hl => by cases h; exact absurd hl (by decide))
    (all_cons (fun c h hl => by cases h; exact absurd hl (by decide))
    (all_cons (fun c h hl => by cases h; exact absurd hl (by decide))
    (all_cons (fun c h hl => by cases h; exact absurd hl (by decide))
    (all_cons (fun c h hl => by cases h; exact absurd hl (by decide))
    (all_cons (fun c h hl => by cases h; exact ⟨_, rfl, normal_F8_Device_F8_DeviceData, same_F8_Device_F8_DeviceData⟩)
    (all_cons (fun c h hl => by cases h; exact ⟨_, rfl, normal_F8_Device_F8_DeviceData, same_F8_Device_F8_DeviceData⟩)
    (all_cons (fun c h hl => by cases h; exact absurd hl (by decide))
    (all_cons (fun c h hl => by cases h; exact absurd hl (by decide))
    (all_cons (fun c h hl => by cases h; exact absurd hl (by decide))
    (all_cons (fun c h hl => by cases h; exact absurd hl (by decide))
    (all_cons (fun c h hl => by cases h; exact absurd hl (by decide))
    (all_cons (fun c h hl => by cases h; exact absurd hl (by decide))
    (all_cons (fun c h hl => by cases h; exact absurd hl (by decide))
    (all_cons (fun c h hl => by cases h; exact ⟨_, rfl, normal_F8_Device_F8_DeviceData, same_F8_Device_F8_DeviceData⟩)
    (all_cons (fun c h hl => by cases h; exact ⟨_, rfl, normal_F8_Device_F8_DeviceData, same_F8_Device_F8_DeviceData⟩)
    (all_cons (fun c h hl => by cases h; exact absurd hl (by decide)) (List.forall_mem_nil _)))))))))))))))))))))))))))))))))))))))

theorem normal_F8_User_F8_UserData : (F8_User.cls F8_UserData.cls).Normal (userSheet 0) (needs c!"user" Version.F10) (unread c!"user") (setToObj (F8_User.info F8_UserData.cls).op.defaults F8_UserData.init) :=
  opts_normal (o := FC6_UserData.strOut F8_UserData.args) (T := [c!"lineno"]) (userSheet 0) (fun args n => post_weaken (FC6_User.parsed _ args n) fun _ h => h.mono (by decide)) (fun _ => rfl) (.inl rfl) (fun a b => FC6_User.sim _ a b) (by decide) (by decide +kernel) (by decide +kernel)

theorem same_F8_User_F8_UserData : (F8_User.cls F8_UserData.cls).SameText := list_same (o := FC6_UserData.strOut F8_UserData.args) (fun _ => rfl) (by decide +kernel)

theorem normal_F12_User_F12_UserData : (F12_User.cls F12_UserData.cls).Normal (userSheet 0) (needs c!"user" Version.F12) (unread c!"user") (setToObj (F12_User.info F12_UserData.cls).op.defaults F12_UserData.init) :=
  opts_normal (o := FC6_UserData.strOut F12_UserData.args) (T := [c!"lineno"]) (userSheet 0) (fun args n => post_weaken (FC6_User.parsed _ args n) fun _ h => h.mono (by decide)) (fun _ => rfl) (.inl rfl) (fun a b => FC6_User.sim _ a b) (by decide) (by decide +kernel) (by decide +kernel)

theorem same_F12_User_F12_UserData : (F12_User.cls F12_UserData.cls).SameText := list_same (o := FC6_UserData.strOut F12_UserData.args) (fun _ => rfl) (by decide +kernel)

theorem normal_F19_User_F19_UserData : (F19_User.cls F19_UserData.cls).Normal (userSheet 0) (needs c!"user" Version.F19) (unread c!"user") (setToObj (F19_User.info F19_UserData.cls).op.defaults F19_UserData.init) :=
  opts_normal (o := FC6_UserData.strOut F19_UserData.args) (T := [c!"lineno"]) (userSheet 0) (fun args n => post_weaken (FC6_User.parsed _ args n) fun _ h => h.mono (by decide)) (fun _ => rfl) (.inl rfl) (fun a b => FC6_User.sim _ a b) (by decide) (by decide +kernel) (by decide +kernel)

theorem same_F19_User_F19_UserData : (F19_User.cls F19_UserData.cls).SameText := list_same (o := FC6_UserData.strOut F19_UserData.args) (fun _ => rfl) (by decide +kernel)

theorem normal_F24_User_F19_UserData : (F24_User.cls F19_UserData.cls).Normal (userSheet 0) (needs c!"user" Version.F24) (unread c!"user") (setToObj (F24_User.info F19_UserData.cls).op.defaults F19_UserData.init) :=
  opts_normal (o := FC6_UserData.strOut F19_UserData.args) (T := [c!"lineno"]) (userSheet 0) (fun args n => post_weaken (FC6_User.parsed _ args n) fun _ h => h.mono (by decide)) (fun _ => rfl) (.inl rfl) (fun a b => FC6_User.sim _ a b) (by decide) (by decide +kernel) (by decide +kernel)

theorem same_F24_User_F19_UserData : (F24_User.cls F19_UserData.cls).SameText := list_same (o := FC6_UserData.strOut F19_UserData.args) (fun _ => rfl) (by decide +kernel)

theorem normal_FC6_User_FC6_UserData : (FC6_User.cls FC6_UserData.cls).Normal (userSheet 0) (needs c!"user" Version.F7) (unread c!"user") (setToObj (FC6_User.info FC6_UserData.cls).op.defaults FC6_UserData.init) :=
  opts_normal (o := FC6_UserData.strOut FC6_UserData.args) (T := [c!"lineno"]) (userSheet 0) (fun args n => post_weaken (FC6_User.parsed _ args n) fun _ h => h.mono (by decide)) (fun _ => rfl) (.inl rfl) (fun a b => FC6_User.sim _ a b) (by decide) (by decide +kernel) (by decide +kernel)

theorem same_FC6_User_FC6_UserData : (FC6_User.cls FC6_UserData.cls).SameText := list_same (o := FC6_UserData.strOut FC6_UserData.args) (fun _ => rfl) (by decide +kernel)

/-- The values of an object of `user` without options. -/
def userBases : List (Nat × Ns) :=
  [(Version.F10, setToObj (F8_User.info F8_UserData.cls).op.defaults F8_UserData.init),
   (Version.F11, setToObj (F8_User.info F8_UserData.cls).op.defaults F8_UserData.init),
   (Version.F12, setToObj (F12_User.info F12_UserData.cls).op.defaults F12_UserData.init),
   (Version.F13, setToObj (F12_User.info F12_UserData.cls).op.defaults F12_UserData.init),
   (Version.F14, setToObj (F12_User.info F12_UserData.cls).op.defaults F12_UserData.init),
   (Version.F15, setToObj (F12_User.info F12_UserData.cls).op.defaults F12_UserData.init),
   (Version.F16, setToObj (F12_User.info F12_UserData.cls).op.defaults F12_UserData.init),
   (Version.F17, setToObj (F12_User.info F12_UserData.cls).op.defaults F12_UserData.init),
   (Version.F18, setToObj (F12_User.info F12_UserData.cls).op.defaults F12_UserData.init),
   (Version.F19, setToObj (F19_User.info F19_UserData.cls).op.defaults F19_UserData.init),
   (Version.F20, setToObj (F19_User.info F19_UserData.cls).op.defaults F19_UserData.init),
   (Version.F21, setToObj (F19_User.info F19_UserData.cls).op.defaults F19_UserData.init),
   (Version.F22, setToObj (F19_User.info F19_UserData.cls).op.defaults F19_UserData.init),
   (Version.F23, setToObj (F19_User.info F19_UserData.cls).op.defaults F19_UserData.init),
   (Version.F24, setToObj (F24_User.info F19_UserData.cls).op.defaults F19_UserData.init),
   (Version.F25, setToObj (F24_User.info F19_UserData.cls).op.defaults F19_UserData.init),
   (Version.F26, setToObj (F24_User.info F19_UserData.cls).op.defaults F19_UserData.init),
   (Version.F27, setToObj (F24_User.info F19_UserData.cls).op.defaults F19_UserData.init),
   (Version.F28, setToObj (F24_User.info F19_UserData.cls).op.defaults F19_UserData.init),
   (Version.F29, setToObj (F24_User.info F19_UserData.cls).op.defaults F19_UserData.init),
   (Version.F30, setToObj (F24_User.info F19_UserData.cls).op.defaults F19_UserData.init),
   (Version.F31, setToObj (F24_User.info F19_UserData.cls).op.defaults F19_UserData.init),
   (Version.F32, setToObj (F24_User.info F19_UserData.cls).op.defaults F19_UserData.init),
   (Version.F33, setToObj (F24_User.info F19_UserData.cls).op.defaults F19_UserData.init),
   (Version.F34, setToObj (F24_User.info F19_UserData.cls).op.defaults F19_UserData.init),
   (Version.F7, setToObj (FC6_User.info FC6_UserData.cls).op.defaults FC6_UserData.init),
   (Version.F8, setToObj (F8_User.info F8_UserData.cls).op.defaults F8_UserData.init),
   (Version.F9, setToObj (F8_User.info F8_UserData.cls).op.defaults F8_UserData.init),
   (Version.FC6, setToObj (FC6_User.info FC6_UserData.cls).op.defaults FC6_UserData.init),
   (Version.RHEL5, setToObj (FC6_User.info FC6_UserData.cls).op.defaults FC6_UserData.init),
   (Version.RHEL6, setToObj (F12_User.info F12_UserData.cls).op.defaults F12_UserData.init),
   (Version.RHEL7, setToObj (F19_User.info F19_UserData.cls).op.defaults F19_UserData.init),
   (Version.RHEL8, setToObj (F24_User.info F19_UserData.cls).op.defaults F19_UserData.init)]

theorem normal_user : ∀ y ∈ commandMaps, ∀ c, y.2.lookup c!"user" = some c → c.hasList { attrs := {} } = true →
    ∃ base, userBases.lookup y.1 = some base ∧ c.Normal (userSheet y.1) (needs c!"user" y.1) (unread c!"user") base ∧ c.SameText := by
  unfold commandMaps
  exact (all_cons (fun c h hl => by cases h; exact ⟨_, rfl, normal_F8_User_F8_UserData, same_F8_User_F8_UserData⟩)
    (all_cons (fun c h hl => by cases h; exact ⟨_, rfl, normal_F8_User_F8_UserData, same_F8_User_F8_UserData⟩)
    (all_cons (fun c h hl => by cases h; exact ⟨_, rfl, normal_F12_User_F12_UserData, same_F12_User_F12_UserData⟩)
    (all_cons (fun c h hl => by cases h; exact ⟨_, rfl, normal_F12_User_F12_UserData, same_F12_User_F12_UserData⟩)
    (all_cons (fun c h hl => by cases h; exact ⟨_, rfl, normal_F12_User_F12_UserData, same_F12_User_F12_UserData⟩)
    (all_cons (fun c h hl => by cases h; exact ⟨_, rfl, normal_F12_User_F12_UserData, same_F12_User_F12_UserData⟩)
    (all_cons (fun c h hl => by cases h; exact ⟨_, rfl, normal_F12_User_F12_UserData, same_F12_User_F12_UserData⟩)
    (all_cons (fun c h hl => by cases h; exact ⟨_, rfl, normal_F12_User_F12_UserData, same_F12_User_F12_UserData⟩)
    (all_cons (fun c h hl => by cases h; exact ⟨_, rfl, normal_F12_User_F12_UserData, same_F12_User_F12_UserData⟩)
    (all_cons (fun c h hl => by cases h; exact ⟨_, rfl, normal_F19_User_F19_UserData, same_F19_User_F19_UserData⟩)
    (all_cons (fun c h hl => by cases h; exact ⟨_, rfl, normal_F19_User_F19_UserData, same_F19_User_F19_UserData⟩)
    (all_cons (fun c h hl => by cases h; exact ⟨_, rfl, normal_F19_User_F19_UserData, same_F19_User_F19_UserData⟩)
    (all_cons (fun c h hl => by cases h; exact ⟨_, rfl, normal_F19_User_F19_UserData, same_F19_User_F19_UserData⟩)
    (all_cons (fun c h hl => by cases h; exact ⟨_, rfl, normal_F19_User_F19_UserData, same_F19_User_F19_UserData⟩)
    (all_cons (fun c h hl => by cases h; exact ⟨_, rfl, normal_F24_User_F19_UserData, same_F24_User_F19_UserData⟩)
    (all_cons (fun c h hl => by cases h; exact ⟨_, rfl, normal_F24_User_F19_UserData, same_F24_User_F19_UserData⟩)
    (all_cons (fun c h hl => by cases h; exact ⟨_, rfl, normal_F24_User_F19_UserData, same_F24_User_F19_UserData⟩)
    (all_cons (fun c h hl => by cases h; exact ⟨_, rfl, normal_F24_User_F19_UserData, same_F24_User_F19_UserData⟩)
    (all_cons (fun c h hl => by cases h; exact ⟨_, rfl, normal_F24_User_F19_UserData, same_F24_User_F19_UserData⟩)
    (all_cons (fun c h hl => by cases h; exact ⟨_, rfl, normal_F24_User_F19_UserData, same_F24_User_F19_UserData⟩)
    (all_cons (fun c h hl => by cases h; exact ⟨_, rfl, normal_F24_User_F19_UserData, same_F24_User_F19_UserData⟩)
    (all_cons (fun c h hl => by cases h; exact ⟨_, rfl, normal_F24_User_F19_UserData, same_F24_User_F19_UserData⟩)
    (all_cons (fun c h hl => by cases h; exact ⟨_, rfl, normal_F24_User_F19_UserData, same_F24_User_F19_UserData⟩)
    (all_cons (fun c h hl => by cases h; exact ⟨_, rfl, normal_F24_User_F19_UserData, same_F24_User_F19_UserData⟩)
    (all_cons (fun c h hl => by cases h; exact ⟨_, rfl, normal_F24_User_F19_UserData, same_F24_User_F19_UserData⟩)
    (all_cons (fun c h hl => by cases h; exact ⟨_, rfl, normal_FC6_User_FC6_UserData, same_FC6_User_FC6_UserData⟩)
    (all_cons (fun c h hl => by cases h; exact ⟨_, rfl, normal_F8_User_F8_UserData, same_F8_User_F8_UserData⟩)
    (all_cons (fun c h hl => by cases h; exact ⟨_, rfl, normal_F8_User_F8_UserData, same_F8_User_F8_UserData⟩)
    (all_cons (fun c h hl => by cases h)
    (all_cons (fun c h hl => by cases h)
    (all_cons (fun c h hl => by cases h)
    (all_cons (fun c h hl => by cases h; exact ⟨_, rfl, normal_FC6_User_FC6_UserData, same_FC6_User_FC6_UserData⟩)
    (all_cons (fun c h hl => by cases h)
    (all_cons (fun c h hl => by cases h)
    (all_cons (fun c h hl => by cases h; exact ⟨_, rfl, normal_FC6_User_FC6_UserData, same_FC6_User_FC6_UserData⟩)
    (all_cons (fun c h hl => by cases h; exact ⟨_, rfl, normal_F12_User_F12_UserData, same_F12_User_F12_UserData⟩)
    (all_cons (fun c h hl => by cases h; exact ⟨_, rfl, normal_F19_User_F19_UserData, same_F19_User_F19_UserData⟩)
    (all_cons (fun c h hl => by cases h; exact ⟨_, rfl, normal_F24_User_F19_UserData, same_F24_User_F19_UserData⟩) (List.forall_mem_nil _)))))))))))))))))))))))))))))))))))))))

theorem normal_F12_Group_F12_GroupData : (F12_Group.cls F12_GroupData.cls).Normal (groupSheet 0) (needs c!"group" Version.F12) (unread c!"group") (setToObj (F12_Group.info F12_GroupData.cls).op.defaults F12_GroupData.init) :=
  opts_normal (o := F12_GroupData.strOut) (T := [c!"lineno"]) (groupSheet 0) (fun args n => post_weaken (F12_Group.parsed _ args n) fun _ h => h.mono (by decide)) (fun _ => rfl) (.inl rfl) (fun a b => F12_Group.sim _ a b) (by decide) (by decide +kernel) (by decide +kernel)

theorem same_F12_Group_F12_GroupData : (F12_Group.cls F12_GroupData.cls).SameText := list_same (o := F12_GroupData.strOut) (fun _ => rfl) (by decide +kernel)

/-- The values of an object of `group` without options. -/
def groupBases : List (Nat × Ns) :=
  [(Version.F12, setToObj (F12_Group.info F12_GroupData.cls).op.defaults F12_GroupData.init),
   (Version.F13, setToObj (F12_Group.info F12_GroupData.cls).op.defaults F12_GroupData.init),
   (Version.F14, setToObj (F12_Group.info F12_GroupData.cls).op.defaults F12_GroupData.init),
   (Version.F15, setToObj (F12_Group.info F12_GroupData.cls).op.defaults F12_GroupData.init),
   (Version.F16, setToObj (F12_Group.info F12_GroupData.cls).op.defaults F12_GroupData.init),
   (Version.F17, setToObj (F12_Group.info F12_GroupData.cls).op.defaults F12_GroupData.init),
   (Version.F18, setToObj (F12_Group.info F12_GroupData.cls).op.defaults F12_GroupData.init),
   (Version.F19, setToObj (F12_Group.info F12_GroupData.cls).op.defaults F12_GroupData.init),
   (Version.F20, setToObj (F12_Group.info F12_GroupData.cls).op.defaults F12_GroupData.init),
   (Version.F21, setToObj (F12_Group.info F12_GroupData.cls).op.defaults F12_GroupData.init),
   (Version.F22, setToObj (F12_Group.info F12_GroupData.cls).op.defaults F12_GroupData.init),
   (Version.F23, setToObj (F12_Group.info F12_GroupData.cls).op.defaults F12_GroupData.init),
   (Version.F24, setToObj (F12_Group.info F12_GroupData.cls).op.defaults F12_GroupData.init),
   (Version.F25, setToObj (F12_Group.info F12_GroupData.cls).op.defaults F12_GroupData.init),
   (Version.F26, setToObj (F12_Group.info F12_GroupData.cls).op.defaults F12_GroupData.init),
   (Version.F27, setToObj (F12_Group.info F12_GroupData.cls).op.defaults F12_GroupData.init),
   (Version.F28, setToObj (F12_Group.info F12_GroupData.cls).op.defaults F12_GroupData.init),
   (Version.F29, setToObj (F12_Group.info F12_GroupData.cls).op.defaults F12_GroupData.init),
   (Version.F30, setToObj (F12_Group.info F12_GroupData.cls).op.defaults F12_GroupData.init),
   (Version.F31, setToObj (F12_Group.info F12_GroupData.cls).op.defaults F12_GroupData.init),
   (Version.F32, setToObj (F12_Group.info F12_GroupData.cls).op.defaults F12_GroupData.init),
   (Version.F33, setToObj (F12_Group.info F12_GroupData.cls).op.defaults F12_GroupData.init),
   (Version.F34, setToObj (F12_Group.info F12_GroupData.cls).op.defaults F12_GroupData.init),
   (Version.RHEL6, setToObj (F12_Group.info F12_GroupData.cls).op.defaults F12_GroupData.init),
   (Version.RHEL7, setToObj (F12_Group.info F12_GroupData.cls).op.defaults F12_GroupData.init),
   (Version.RHEL8, setToObj (F12_Group.info F12_GroupData.cls).op.defaults F12_GroupData.init)]

theorem normal_group : ∀ y ∈ commandMaps, ∀ c, y.2.lookup c!"group" = some c → c.hasList { attrs := {} } = true →
    ∃ base, groupBases.lookup y.1 = some base ∧ c.Normal (groupSheet y.1) (needs c!"group" y.1) (unread c!"group") base ∧ c.SameText := by
  unfold commandMaps
  exact (all_cons (fun c h hl => by cases h)
    (all_cons (fun c h hl => by cases h)
    (all_cons (fun c h hl => by cases h; exact ⟨_, rfl, normal_F12_Group_F12_GroupData, same_F12_Group_F12_GroupData⟩)
    (all_cons (fun c h hl => by cases h; exact ⟨_, rfl, normal_F12_Group_F12_GroupData, same_F12_Group_F12_GroupData⟩)
    (all_cons (fun c h hl => by cases h; exact ⟨_, rfl, normal_F12_Group_F12_GroupData, same_F12_Group_F12_GroupData⟩)
    (all_cons (fun c h hl => by cases h; exact ⟨_, rfl, normal_F12_Group_F12_GroupData, same_F12_Group_F12_GroupData⟩)
    (all_cons (fun c h hl => by cases h; exact ⟨_, rfl, normal_F12_Group_F12_GroupData, same_F12_Group_F12_GroupData⟩)
    (all_cons (fun c h hl => by cases h; exact ⟨_, rfl, normal_F12_Group_F12_GroupData, same_F12_Group_F12_GroupData⟩)
    (all_cons (fun c h hl => by cases h; exact ⟨_, rfl, normal_F12_Group_F12_GroupData, same_F12_Group_F12_GroupData⟩)
    (all_cons (fun c h hl => by cases h; exact ⟨_, rfl, normal_F12_Group_F12_GroupData, same_F12_Group_F12_GroupData⟩)
    (all_cons (fun c h hl => by cases h; exact ⟨_, rfl, normal_F12_Group_F12_GroupData, same_F12_Group_F12_GroupData⟩)
    (all_cons (fun c h hl => by cases h; exact ⟨_, rfl, normal_F12_Group_F12_GroupData, same_F12_Group_F12_GroupData⟩)
    (all_cons (fun c h hl => by cases h; exact ⟨_, rfl, normal_F12_Group_F12_GroupData, same_F12_Group_F12_GroupData⟩)
    (all_cons (fun c h hl => by cases h; exact ⟨_, rfl, normal_F12_Group_F12_GroupData, same_F12_Group_F12_GroupData⟩)
    (all_cons (fun c h hl => by cases h; exact ⟨_, rfl, normal_F12_Group_F12_GroupData, same_F12_Group_F12_GroupData⟩)
    (all_cons (fun c h hl => by cases h; exact ⟨_, rfl, normal_F12_Group_F12_GroupData, same_F12_Group_F12_GroupData⟩)
    (all_cons (fun c h hl => by cases h; exact ⟨_, rfl, normal_F12_Group_F12_GroupData, same_F12_Group_F12_GroupData⟩)
    (all_cons (fun c h hl => by cases h; exact ⟨_, rfl, normal_F12_Group_F12_GroupData, same_F12_Group_F12_GroupData⟩)
    (all_cons (fun c h hl => by cases h; exact ⟨_, rfl, normal_F12_Group_F12_GroupData, same_F12_Group_F12_GroupData⟩)
    (all_cons (fun c h hl => by cases h; exact ⟨_, rfl, normal_F12_Group_F12_GroupData, same_F12_Group_F12_GroupData⟩)
    (all_cons (fun c h hl => by cases h; exact ⟨_, rfl, normal_F12_Group_F12_GroupData, same_F12_Group_F12_GroupData⟩)
    (all_cons (fun c h hl => by cases h; exact ⟨_, rfl, normal_F12_Group_F12_GroupData, same_F12_Group_F12_GroupData⟩)
    (all_cons (fun c h hl => by cases h; exact ⟨_, rfl, normal_F12_Group_F12_GroupData, same_F12_Group_F12_GroupData⟩)
    (all_cons (fun c h hl => by cases h; exact ⟨_, rfl, normal_F12_Group_F12_GroupData, same_F12_Group_F12_GroupData⟩)
    (all_cons (fun c h hl => by cases h; exact ⟨_, rfl, normal_F12_Group_F12_GroupData, same_F12_Group_F12_GroupData⟩)
    (all_cons (fun c h hl => by cases h)
    (all_cons (fun c h hl => by cases h)
    (all_cons (fun c h hl => by cases h)
    (all_cons (fun c h hl => by cases h)
    (all_cons (fun c h hl => by cases h)
    (all_cons (fun c h hl => by cases h)
    (all_cons (fun c h hl => by cases h)
    (all_cons (fun c h hl => by cases h)
    (all_cons (fun c h hl => by cases h)
    (all_cons (fun c h hl => by cases h)
    (all_cons (fun c h hl => by cases h; exact ⟨_, rfl, normal_F12_Group_F12_GroupData, same_F12_Group_F12_GroupData⟩)
    (all_cons (fun c h hl => by cases h; exact ⟨_, rfl, normal_F12_Group_F12_GroupData, same_F12_Group_F12_GroupData⟩)
    (all_cons (fun c h hl => by cases h; exact ⟨_, rfl, normal_F12_Group_F12_GroupData, same_F12_Group_F12_GroupData⟩) (List.forall_mem_nil _)))))))))))))))))))))))))))))))))))))))

theorem normal_F12_Fcoe_F12_FcoeData : (F12_Fcoe.cls F12_FcoeData.cls).Normal (fcoeSheet 0) (needs c!"fcoe" Version.F12) (unread c!"fcoe") (setToObj (F12_Fcoe.info F12_FcoeData.cls).op.defaults F12_FcoeData.init) :=
  opts_normal (o := F12_FcoeData.strOut F12_FcoeData.args) (T := [c!"lineno"]) (fcoeSheet 0) (fun args n => post_weaken (F12_Fcoe.parsed _ args n) fun _ h => h.mono (by decide)) (fun _ => rfl) (.inl rfl) (fun a b => F12_Fcoe.sim _ a b) (by decide) (by decide +kernel) (by decide +kernel)

theorem same_F12_Fcoe_F12_FcoeData : (F12_Fcoe.cls F12_FcoeData.cls).SameText := list_same (o := F12_FcoeData.strOut F12_FcoeData.args) (fun _ => rfl) (by decide +kernel)

theorem normal_F13_Fcoe_F13_FcoeData : (F13_Fcoe.cls F13_FcoeData.cls).Normal (fcoeSheet 0) (needs c!"fcoe" Version.F13) (unread c!"fcoe") (setToObj (F13_Fcoe.info F13_FcoeData.cls).op.defaults F13_FcoeData.init) :=
  opts_normal (o := F12_FcoeData.strOut F13_FcoeData.args) (T := [c!"lineno"]) (fcoeSheet 0) (fun args n => post_weaken (F12_Fcoe.parsed _ args n) fun _ h => h.mono (by decide)) (fun _ => rfl) (.inl rfl) (fun a b => F12_Fcoe.sim _ a b) (by decide) (by decide +kernel) (by decide +kernel)

theorem same_F13_Fcoe_F13_FcoeData : (F13_Fcoe.cls F13_FcoeData.cls).SameText := list_same (o := F12_FcoeData.strOut F13_FcoeData.args) (fun _ => rfl) (by decide +kernel)

theorem normal_F13_Fcoe_RHEL7_FcoeData : (F13_Fcoe.cls RHEL7_FcoeData.cls).Normal (fcoeSheet 0) (needs c!"fcoe" Version.F18) (unread c!"fcoe") (setToObj (F13_Fcoe.info RHEL7_FcoeData.cls).op.defaults RHEL7_FcoeData.init) :=
  opts_normal (o := F12_FcoeData.strOut RHEL7_FcoeData.args) (T := [c!"lineno"]) (fcoeSheet 0) (fun args n => post_weaken (F12_Fcoe.parsed _ args n) fun _ h => h.mono (by decide)) (fun _ => rfl) (.inl rfl) (fun a b => F12_Fcoe.sim _ a b) (by decide) (by decide +kernel) (by decide +kernel)

theorem same_F13_Fcoe_RHEL7_FcoeData : (F13_Fcoe.cls RHEL7_FcoeData.cls).SameText := list_same (o := F12_FcoeData.strOut RHEL7_FcoeData.args) (fun _ => rfl) (by decide +kernel)

theorem normal_F28_Fcoe_F28_FcoeData : (F28_Fcoe.cls F28_FcoeData.cls).Normal (fcoeSheet 0) (needs c!"fcoe" Version.F28) (unread c!"fcoe") (setToObj (F28_Fcoe.info F28_FcoeData.cls).op.defaults F28_FcoeData.init) :=
  opts_normal (o := F12_FcoeData.strOut F28_FcoeData.args) (T := [c!"lineno"]) (fcoeSheet 0) (fun args n => post_weaken (F12_Fcoe.parsed _ args n) fun _ h => h.mono (by decide)) (fun _ => rfl) (.inl rfl) (fun a b => F12_Fcoe.sim _ a b) (by decide) (by decide +kernel) (by decide +kernel)

theorem same_F28_Fcoe_F28_FcoeData : (F28_Fcoe.cls F28_FcoeData.cls).SameText := list_same (o := F12_FcoeData.strOut F28_FcoeData.args) (fun _ => rfl) (by decide +kernel)

theorem normal_RHEL7_Fcoe_RHEL7_FcoeData : (RHEL7_Fcoe.cls RHEL7_FcoeData.cls).Normal (fcoeSheet 0) (needs c!"fcoe" Version.RHEL7) (unread c!"fcoe") (setToObj (RHEL7_Fcoe.info RHEL7_FcoeData.cls).op.defaults RHEL7_FcoeData.init) :=
  opts_normal (o := F12_FcoeData.strOut RHEL7_FcoeData.args) (T := [c!"lineno"]) (fcoeSheet 0) (fun args n => post_weaken (F12_Fcoe.parsed _ args n) fun _ h => h.mono (by decide)) (fun _ => rfl) (.inl rfl) (fun a b => F12_Fcoe.sim _ a b) (by decide) (by decide +kernel) (by decide +kernel)

theorem same_RHEL7_Fcoe_RHEL7_FcoeData : (RHEL7_Fcoe.cls RHEL7_FcoeData.cls).SameText := list_same (o := F12_FcoeData.strOut RHEL7_FcoeData.args) (fun _ => rfl) (by decide +kernel)

theorem normal_RHEL8_Fcoe_RHEL8_FcoeData : (RHEL8_Fcoe.cls RHEL8_FcoeData.cls).Normal (fcoeSheet 0) (needs c!"fcoe" Version.RHEL8) (unread c!"fcoe") (setToObj (RHEL8_Fcoe.info RHEL8_FcoeData.cls).op.defaults RHEL8_FcoeData.init) :=
  opts_normal (o := F12_FcoeData.strOut F28_FcoeData.args) (T := [c!"lineno"]) (fcoeSheet 0) (fun args n => post_weaken (F12_Fcoe.parsed _ args n) fun _ h => h.mono (by decide)) (fun _ => rfl) (.inl rfl) (fun a b => F12_Fcoe.sim _ a b) (by decide) (by decide +kernel) (by decide +kernel)

theorem same_RHEL8_Fcoe_RHEL8_FcoeData : (RHEL8_Fcoe.cls RHEL8_FcoeData.cls).SameText := list_same (o := F12_FcoeData.strOut F28_FcoeData.args) (fun _ => rfl) (by decide +kernel)

/-- The values of an object of `fcoe` without options. -/
def fcoeBases : List (Nat × Ns) :=
  [(Version.F12, setToObj (F12_Fcoe.info F12_FcoeData.cls).op.defaults F12_FcoeData.init),
   (Version.F13, setToObj (F13_Fcoe.info F13_FcoeData.cls).op.defaults F13_FcoeData.init),
   (Version.F14, setToObj (F13_Fcoe.info F13_FcoeData.cls).op.defaults F13_FcoeData.init),
   (Version.F15, setToObj (F13_Fcoe.info F13_FcoeData.cls).op.defaults F13_FcoeData.init),
   (Version.F16, setToObj (F13_Fcoe.info F13_FcoeData.cls).op.defaults F13_FcoeData.init),
   (Version.F17, setToObj (F13_Fcoe.info F13_FcoeData.cls).op.defaults F13_FcoeData.init),
   (Version.F18, setToObj (F13_Fcoe.info RHEL7_FcoeData.cls).op.defaults RHEL7_FcoeData.init),
   (Version.F19, setToObj (F13_Fcoe.info F13_FcoeData.cls).op.defaults F13_FcoeData.init),
   (Version.F20, setToObj (F13_Fcoe.info F13_FcoeData.cls).op.defaults F13_FcoeData.init),
   (Version.F21, setToObj (F13_Fcoe.info F13_FcoeData.cls).op.defaults F13_FcoeData.init),
   (Version.F22, setToObj (F13_Fcoe.info F13_FcoeData.cls).op.defaults F13_FcoeData.init),
   (Version.F23, setToObj (F13_Fcoe.info F13_FcoeData.cls).op.defaults F13_FcoeData.init),
   (Version.F24, setToObj (F13_Fcoe.info F13_FcoeData.cls).op.defaults F13_FcoeData.init),
   (Version.F25, setToObj (F13_Fcoe.info F13_FcoeData.cls).op.defaults F13_FcoeData.init),
   (Version.F26, setToObj (F13_Fcoe.info F13_FcoeData.cls).op.defaults F13_FcoeData.init),
   (Version.F27, setToObj (F13_Fcoe.info F13_FcoeData.cls).op.defaults F13_FcoeData.init),
   (Version.F28, setToObj (F28_Fcoe.info F28_FcoeData.cls).op.defaults F28_FcoeData.init),
   (Version.F29, setToObj (F28_Fcoe.info F28_FcoeData.cls).op.defaults F28_FcoeData.init),
   (Version.F30, setToObj (F28_Fcoe.info F28_FcoeData.cls).op.defaults F28_FcoeData.init),
   (Version.F31, setToObj (F28_Fcoe.info F28_FcoeData.cls).op.defaults F28_FcoeData.init),
   (Version.F32, setToObj (F28_Fcoe.info F28_FcoeData.cls).op.defaults F28_FcoeData.init),
   (Version.F33, setToObj (F28_Fcoe.info F28_FcoeData.cls).op.defaults F28_FcoeData.init),
   (Version.F34, setToObj (F28_Fcoe.info F28_FcoeData.cls).op.defaults F28_FcoeData.init),
   (Version.RHEL6, setToObj (F13_Fcoe.info F13_FcoeData.cls).op.defaults F13_FcoeData.init),
   (Version.RHEL7, setToObj (RHEL7_Fcoe.info RHEL7_FcoeData.cls).op.defaults RHEL7_FcoeData.init),
   (Version.RHEL8, setToObj (RHEL8_Fcoe.info RHEL8_FcoeData.cls).op.defaults RHEL8_FcoeData.init)]

theorem normal_fcoe : ∀ y ∈ commandMaps, ∀ c, y.2.lookup c!"fcoe" = some c → c.hasList { attrs := {} } = true →
    ∃ base, fcoeBases.lookup y.1 = some base ∧ c.Normal (fcoeSheet y.1) (needs c!"fcoe" y.1) (unread c!"fcoe") base ∧ c.SameText := by
  unfold commandMaps
  exact (all_cons (fun c h hl => by cases h)
    (all_cons (fun c h hl => by cases h)
    (all_cons (fun c h hl => by cases h; exact ⟨_, rfl, normal_F12_Fcoe_F12_FcoeData, same_F12_Fcoe_F12_FcoeData⟩)
    (all_cons (fun c h hl => by cases h; exact ⟨_, rfl, normal_F13_Fcoe_F13_FcoeData, same_F13_Fcoe_F13_FcoeData⟩)
    (all_cons (fun c h hl => by cases h; exact ⟨_, rfl, normal_F13_Fcoe_F13_FcoeData, same_F13_Fcoe_F13_FcoeData⟩)
    (all_cons (fun c h hl => by cases h; exact ⟨_, rfl, normal_F13_Fcoe_F13_FcoeData, same_F13_Fcoe_F13_FcoeData⟩)
    (all_cons (fun c h hl => by cases h; exact ⟨_, rfl, normal_F13_Fcoe_F13_FcoeData, same_F13_Fcoe_F13_FcoeData⟩)
    (all_cons (fun c h hl => by cases h; exact ⟨_, rfl, normal_F13_Fcoe_F13_FcoeData, same_F13_Fcoe_F13_FcoeData⟩)
    (all_cons (fun c h hl => by cases h; exact ⟨_, rfl, normal_F13_Fcoe_RHEL7_FcoeData, same_F13_Fcoe_RHEL7_FcoeData⟩)
    (all_cons (fun c h hl => by cases h; exact ⟨_, rfl, normal_F13_Fcoe_F13_FcoeData, same_F13_Fcoe_F13_FcoeData⟩)
    (all_cons (fun c h hl => by cases h; exact ⟨_, rfl, normal_F13_Fcoe_F13_FcoeData, same_F13_Fcoe_F13_FcoeData⟩)
    (all_cons (fun c h hl => by cases h; exact ⟨_, rfl, normal_F13_Fcoe_F13_FcoeData, same_F13_Fcoe_F13_FcoeData⟩)
    (all_cons (fun c h hl => by cases h; exact ⟨_, rfl, normal_F13_Fcoe_F13_FcoeData, same_F13_Fcoe_F13_FcoeData⟩)
    (all_cons (fun c h hl => by cases h; exact ⟨_, rfl, normal_F13_Fcoe_F13_FcoeData, same_F13_Fcoe_F13_FcoeData⟩)
    (all_cons (fun c h hl => by cases h; exact ⟨_, rfl, normal_F13_Fcoe_F13_FcoeData, same_F13_Fcoe_F13_FcoeData⟩)
    (all_cons (fun c h hl => by cases h; exact ⟨_, rfl, normal_F13_Fcoe_F13_FcoeData, same_F13_Fcoe_F13_FcoeData⟩)
    (all_cons (fun c h hl => by cases h; exact ⟨_, rfl, normal_F13_Fcoe_F13_FcoeData, same_F13_Fcoe_F13_FcoeData⟩)
    (all_cons (fun c h hl => by cases h; exact ⟨_, rfl, normal_F13_Fcoe_F13_FcoeData, same_F13_Fcoe_F13_FcoeData⟩)
    (all_cons (fun c h hl => by cases h; exact ⟨_, rfl, normal_F28_Fcoe_F28_FcoeData, same_F28_Fcoe_F28_FcoeData⟩)
    (all_cons (fun c h hl => by cases h; exact ⟨_, rfl, normal_F28_Fcoe_F28_FcoeData, same_F28_Fcoe_F28_FcoeData⟩)
    (all_cons (fun c h hl => by cases h; exact ⟨_, rfl, normal_F28_Fcoe_F28_FcoeData, same_F28_Fcoe_F28_FcoeData⟩)
    (all_cons (fun c h hl => by cases h; exact ⟨_, rfl, normal_F28_Fcoe_F28_FcoeData, same_F28_Fcoe_F28_FcoeData⟩)
    (all_cons (fun c h hl => by cases h; exact ⟨_, rfl, normal_F28_Fcoe_F28_FcoeData, same_F28_Fcoe_F28_FcoeData⟩)
    (all_cons (fun c h hl => by cases h; exact ⟨_, rfl, normal_F28_Fcoe_F28_FcoeData, same_F28_Fcoe_F28_FcoeData⟩)
    (all_cons (fun c h hl => by cases h; exact ⟨_, rfl, normal_F28_Fcoe_F28_FcoeData, same_F28_Fcoe_F28_FcoeData⟩)
    (all_cons (fun c h hl => by cases h)
    (all_cons (fun c h hl => by cases h)
    (all_cons (fun c h hl => by cases h)
    (all_cons (fun c h hl => by cases h)
    (all_cons (fun c h hl => by cases h)
    (all_cons (fun c h hl => by cases h)
    (all_cons (fun c h hl => by cases h)
    (all_cons (fun c h hl => by cases h)
    (all_cons (fun c h hl => by cases h)
    (all_cons (fun c h hl => by cases h)
    (all_cons (fun c h hl => by cases h; exact ⟨_, rfl, normal_F13_Fcoe_F13_FcoeData, same_F13_Fcoe_F13_FcoeData⟩)
    (all_cons (fun c h hl => by cases h; exact ⟨_, rfl, normal_RHEL7_Fcoe_RHEL7_FcoeData, same_RHEL7_Fcoe_RHEL7_FcoeData⟩)
    (all_cons (fun c h hl => by cases h; exact ⟨_, rfl, normal_RHEL8_Fcoe_RHEL8_FcoeData, same_RHEL8_Fcoe_RHEL8_FcoeData⟩) (List.forall_mem_nil _)))))))))))))))))))))))))))))))))))))))

theorem normal_F10_Iscsi_F10_IscsiData : (F10_Iscsi.cls F10_IscsiData.cls).Normal (iscsiSheet 0) (needs c!"iscsi" Version.F10) (unread c!"iscsi") (setToObj (F10_Iscsi.info F10_IscsiData.cls).op.defaults F10_IscsiData.init) :=
  opts_normal (o := FC6_IscsiData.strOut F10_IscsiData.args) (T := [c!"lineno"]) (iscsiSheet 0) (fun args n => post_weaken (FC6_Iscsi.parsed _ args n) fun _ h => h.mono (by decide)) (fun _ => rfl) (.inl rfl) (fun a b => FC6_Iscsi.sim _ a b) (by decide) (by decide +kernel) (by decide +kernel)

theorem same_F10_Iscsi_F10_IscsiData : (F10_Iscsi.cls F10_IscsiData.cls).SameText := list_same (o := FC6_IscsiData.strOut F10_IscsiData.args) (fun _ => rfl) (by decide +kernel)

theorem normal_F17_Iscsi_F17_IscsiData : (F17_Iscsi.cls F17_IscsiData.cls).Normal (iscsiSheet 0) (needs c!"iscsi" Version.F17) (unread c!"iscsi") (setToObj (F17_Iscsi.info F17_IscsiData.cls).op.defaults F17_IscsiData.init) :=
  opts_normal (o := FC6_IscsiData.strOut RHEL6_IscsiData.args) (T := [c!"lineno"]) (iscsiSheet 0) (fun args n => post_weaken (FC6_Iscsi.parsed _ args n) fun _ h => h.mono (by decide)) (fun _ => rfl) (.inl rfl) (fun a b => FC6_Iscsi.sim _ a b) (by decide) (by decide +kernel) (by decide +kernel)

theorem same_F17_Iscsi_F17_IscsiData : (F17_Iscsi.cls F17_IscsiData.cls).SameText := list_same (o := FC6_IscsiData.strOut RHEL6_IscsiData.args) (fun _ => rfl) (by decide +kernel)

theorem normal_FC6_Iscsi_FC6_IscsiData : (FC6_Iscsi.cls FC6_IscsiData.cls).Normal (iscsiSheet 0) (needs c!"iscsi" Version.F7) (unread c!"iscsi") (setToObj (FC6_Iscsi.info FC6_IscsiData.cls).op.defaults FC6_IscsiData.init) :=
  opts_normal (o := FC6_IscsiData.strOut FC6_IscsiData.args) (T := [c!"lineno"]) (iscsiSheet 0) (fun args n => post_weaken (FC6_Iscsi.parsed _ args n) fun _ h => h.mono (by decide)) (fun _ => rfl) (.inl rfl) (fun a b => FC6_Iscsi.sim _ a b) (by decide) (by decide +kernel) (by decide +kernel)

theorem same_FC6_Iscsi_FC6_IscsiData : (FC6_Iscsi.cls FC6_IscsiData.cls).SameText := list_same (o := FC6_IscsiData.strOut FC6_IscsiData.args) (fun _ => rfl) (by decide +kernel)

theorem normal_RHEL6_Iscsi_RHEL6_IscsiData : (RHEL6_Iscsi.cls RHEL6_IscsiData.cls).Normal (iscsiSheet 0) (needs c!"iscsi" Version.RHEL6) (unread c!"iscsi") (setToObj (RHEL6_Iscsi.info RHEL6_IscsiData.cls).op.defaults RHEL6_IscsiData.init) :=
  opts_normal (o := FC6_IscsiData.strOut RHEL6_IscsiData.args) (T := [c!"lineno"]) (iscsiSheet 0) (fun args n => post_weaken (FC6_Iscsi.parsed _ args n) fun _ h => h.mono (by decide)) (fun _ => rfl) (.inl rfl) (fun a b => FC6_Iscsi.sim _ a b) (by decide) (by decide +kernel) (by decide +kernel)

theorem same_RHEL6_Iscsi_RHEL6_IscsiData : (RHEL6_Iscsi.cls RHEL6_IscsiData.cls).SameText := list_same (o := FC6_IscsiData.strOut RHEL6_IscsiData.args) (fun _ => rfl) (by decide +kernel)

/-- The values of an object of `iscsi` without options. -/
def iscsiBases : List (Nat × Ns) :=
  [(Version.F10, setToObj (F10_Iscsi.info F10_IscsiData.cls).op.defaults F10_IscsiData.init),
   (Version.F11, setToObj (F10_Iscsi.info F10_IscsiData.cls).op.defaults F10_IscsiData.init),
   (Version.F12, setToObj (F10_Iscsi.info F10_IscsiData.cls).op.defaults F10_IscsiData.init),
   (Version.F13, setToObj (F10_Iscsi.info F10_IscsiData.cls).op.defaults F10_IscsiData.init),
   (Version.F14, setToObj (F10_Iscsi.info F10_IscsiData.cls).op.defaults F10_IscsiData.init),
   (Version.F15, setToObj (F10_Iscsi.info F10_IscsiData.cls).op.defaults F10_IscsiData.init),
   (Version.F16, setToObj (F10_Iscsi.info F10_IscsiData.cls).op.defaults F10_IscsiData.init),
   (Version.F17, setToObj (F17_Iscsi.info F17_IscsiData.cls).op.defaults F17_IscsiData.init),
   (Version.F18, setToObj (F17_Iscsi.info F17_IscsiData.cls).op.defaults F17_IscsiData.init),
   (Version.F19, setToObj (F17_Iscsi.info F17_IscsiData.cls).op.defaults F17_IscsiData.init),
   (Version.F20, setToObj (F17_Iscsi.info F17_IscsiData.cls).op.defaults F17_IscsiData.init),
   (Version.F21, setToObj (F17_Iscsi.info F17_IscsiData.cls).op.defaults F17_IscsiData.init),
   (Version.F22, setToObj (F17_Iscsi.info F17_IscsiData.cls).op.defaults F17_IscsiData.init),
   (Version.F23, setToObj (F17_Iscsi.info F17_IscsiData.cls).op.defaults F17_IscsiData.init),
   (Version.F24, setToObj (F17_Iscsi.info F17_IscsiData.cls).op.defaults F17_IscsiData.init),
   (Version.F25, setToObj (F17_Iscsi.info F17_IscsiData.cls).op.defaults F17_IscsiData.init),
   (Version.F26, setToObj (F17_Iscsi.info F17_IscsiData.cls).op.defaults F17_IscsiData.init),
   (Version.F27, setToObj (F17_Iscsi.info F17_IscsiData.cls).op.defaults F17_IscsiData.init),
   (Version.F28, setToObj (F17_Iscsi.info F17_IscsiData.cls).op.defaults F17_IscsiData.init),
   (Version.F29, setToObj (F17_Iscsi.info F17_IscsiData.cls).op.defaults F17_IscsiData.init),
   (Version.F30, setToObj (F17_Iscsi.info F17_IscsiData.cls).op.defaults F17_IscsiData.init),
   (Version.F31, setToObj (F17_Iscsi.info F17_IscsiData.cls).op.defaults F17_IscsiData.init),
   (Version.F32, setToObj (F17_Iscsi.info F17_IscsiData.cls).op.defaults F17_IscsiData.init),
   (Version.F33, setToObj (F17_Iscsi.info F17_IscsiData.cls).op.defaults F17_IscsiData.init),
   (Version.F34, setToObj (F17_Iscsi.info F17_IscsiData.cls).op.defaults F17_IscsiData.init),
   (Version.F7, setToObj (FC6_Iscsi.info FC6_IscsiData.cls).op.defaults FC6_IscsiData.init),
   (Version.F8, setToObj (FC6_Iscsi.info FC6_IscsiData.cls).op.defaults FC6_IscsiData.init),
   (Version.F9, setToObj (FC6_Iscsi.info FC6_IscsiData.cls).op.defaults FC6_IscsiData.init),
   (Version.FC6, setToObj (FC6_Iscsi.info FC6_IscsiData.cls).op.defaults FC6_IscsiData.init),
   (Version.RHEL5, setToObj (FC6_Iscsi.info FC6_IscsiData.cls).op.defaults FC6_IscsiData.init),
   (Version.RHEL6, setToObj (RHEL6_Iscsi.info RHEL6_IscsiData.cls).op.defaults RHEL6_IscsiData.init),
   (Version.RHEL7, setToObj (F17_Iscsi.info F17_IscsiData.cls).op.defaults F17_IscsiData.init),
   (Version.RHEL8, setToObj (F17_Iscsi.info F17_IscsiData.cls).op.defaults F17_IscsiData.init)]

theorem normal_iscsi : ∀ y ∈ commandMaps, ∀ c, y.2.lookup c!"iscsi" = some c → c.hasList { attrs := {} } = true →
    ∃ base, iscsiBases.lookup y.1 = some base ∧ c.Normal (iscsiSheet y.1) (needs c!"iscsi" y.1) (unread c!"iscsi") base ∧ c.SameText := by
  unfold commandMaps
  exact (all_cons (fun c h hl => by cases h; exact ⟨_, rfl, normal_F10_Iscsi_F10_IscsiData, same_F10_Iscsi_F10_IscsiData⟩)
    (all_cons (fun c h hl => by cases h; exact ⟨_, rfl, normal_F10_Iscsi_F10_IscsiData, same_F10_Iscsi_F10_IscsiData⟩)
    (all_cons (fun c h hl => by cases h; exact ⟨_, rfl, normal_F10_Iscsi_F10_IscsiData, same_F10_Iscsi_F10_IscsiData⟩)
    (all_cons (fun c h hl => by cases h; exact ⟨_, rfl, normal_F10_Iscsi_F10_IscsiData, same_F10_Iscsi_F10_IscsiData⟩)
    (all_cons (fun c h hl => by cases h; exact ⟨_, rfl, normal_F10_Iscsi_F10_IscsiData, same_F10_Iscsi_F10_IscsiData⟩)
    (all_cons (fun c h hl => by cases h; exact ⟨_, rfl, normal_F10_Iscsi_F10_IscsiData, same_F10_Iscsi_F10_IscsiData⟩)
    (all_cons (fun c h hl => by cases h; exact ⟨_, rfl, normal_F10_Iscsi_F10_IscsiData, same_F10_Iscsi_F10_IscsiData⟩)
    (all_cons (fun c h hl => by cases h; exact ⟨_, rfl, normal_F17_Iscsi_F17_IscsiData, same_F17_Iscsi_F17_IscsiData⟩)
    (all_cons (fun c h hl => by cases h; exact ⟨_, rfl, normal_F17_Iscsi_F17_IscsiData, same_F17_Iscsi_F17_IscsiData⟩)
    (all_cons (fun c h hl => by cases h; exact ⟨_, rfl, normal_F17_Iscsi_F17_IscsiData, same_F17_Iscsi_F17_IscsiData⟩)
    (all_cons (fun c h hl => by cases h; exact ⟨_, rfl, normal_F17_Iscsi_F17_IscsiData, same_F17_Iscsi_F17_IscsiData⟩)
    (all_cons (fun c h hl => by cases h; exact ⟨_, rfl, normal_F17_Iscsi_F17_IscsiData, same_F17_Iscsi_F17_IscsiData⟩)
    (all_cons (fun c h hl => by cases h; exact ⟨_, rfl, normal_F17_Iscsi_F17_IscsiData, same_F17_Iscsi_F17_IscsiData⟩)
    (all_cons (fun c h hl => by cases h; exact ⟨_, rfl, normal_F17_Iscsi_F17_IscsiData, same_F17_Iscsi_F17_IscsiData⟩)
    (all_cons (fun c h hl => by cases h; exact ⟨_, rfl, normal_F17_Iscsi_F17_IscsiData, same_F17_Iscsi_F17_IscsiData⟩)
    (all_cons (fun c h hl => by cases h; exact ⟨_, rfl, normal_F17_Iscsi_F17_IscsiData, same_F17_Iscsi_F17_IscsiData⟩)
    (all_cons (fun c h hl => by cases h; exact ⟨_, rfl, normal_F17_Iscsi_F17_IscsiData, same_F17_Iscsi_F17_IscsiData⟩)
    (all_cons (fun c h hl => by cases h; exact ⟨_, rfl, normal_F17_Iscsi_F17_IscsiData, same_F17_Iscsi_F17_IscsiData⟩)
    (all_cons (fun c h hl => by cases h; exact ⟨_, rfl, normal_F17_Iscsi_F17_IscsiData, same_F17_Iscsi_F17_IscsiData⟩)
    (all_cons (fun c h hl => by cases h; exact ⟨_, rfl, normal_F17_Iscsi_F17_IscsiData, same_F17_Iscsi_F17_IscsiData⟩)
    (all_cons (fun c h hl => by cases h; exact ⟨_, rfl, normal_F17_Iscsi_F17_IscsiData, same_F17_Iscsi_F17_IscsiData⟩)
    (all_cons (fun c h hl => by cases h; exact ⟨_, rfl, normal_F17_Iscsi_F17_IscsiData, same_F17_Iscsi_F17_IscsiData⟩)
    (all_cons (fun c h hl => by cases h; exact ⟨_, rfl, normal_F17_Iscsi_F17_IscsiData, same_F17_Iscsi_F17_IscsiData⟩)
    (all_cons (fun c h hl => by cases h; exact ⟨_, rfl, normal_F17_Iscsi_F17_IscsiData, same_F17_Iscsi_F17_IscsiData⟩)
    (all_cons (fun c h hl => by cases h; exact ⟨_, rfl, normal_F17_Iscsi_F17_IscsiData, same_F17_Iscsi_F17_IscsiData⟩)
    (all_cons (fun c h hl => by cases h; exact ⟨_, rfl, normal_FC6_Iscsi_FC6_IscsiData, same_FC6_Iscsi_FC6_IscsiData⟩)
    (all_cons (fun c h hl => by cases h; exact ⟨_, rfl, normal_FC6_Iscsi_FC6_IscsiData, same_FC6_Iscsi_FC6_IscsiData⟩)
    (all_cons (fun c h hl => by cases h; exact ⟨_, rfl, normal_FC6_Iscsi_FC6_IscsiData, same_FC6_Iscsi_FC6_IscsiData⟩)
    (all_cons (fun c h hl => by cases h)
    (all_cons (fun c h hl => by cases h)
    (all_cons (fun c h hl => by cases h)
    (all_cons (fun c h hl => by cases h; exact ⟨_, rfl, normal_FC6_Iscsi_FC6_IscsiData, same_FC6_Iscsi_FC6_IscsiData⟩)
    (all_cons (fun c h hl => by cases h)
    (all_cons (fun c h hl => by cases h)
    (all_cons (fun c h hl => by cases h; exact ⟨_, rfl, normal_FC6_Iscsi_FC6_IscsiData, same_FC6_Iscsi_FC6_IscsiData⟩)
    (all_cons (fun c h hl => by cases h; exact ⟨_, rfl, normal_RHEL6_Iscsi_RHEL6_IscsiData, same_RHEL6_Iscsi_RHEL6_IscsiData⟩)
    (all_cons (fun c h hl => by cases h; exact ⟨_, rfl, normal_F17_Iscsi_F17_IscsiData, same_F17_Iscsi_F17_IscsiData⟩)
    (all_cons (fun c h hl => by cases h; exact ⟨_, rfl, normal_F17_Iscsi_F17_IscsiData, same_F17_Iscsi_F17_IscsiData⟩) (List.forall_mem_nil _)))))))))))))))))))))))))))))))))))))))

theorem normal_FC3_ZFCP_FC3_ZFCPData : (FC3_ZFCP.cls FC3_ZFCPData.cls).Normal (zfcpSheet 0) (needs c!"zfcp" Version.F10) (unread c!"zfcp") (setToObj (FC3_ZFCP.info FC3_ZFCPData.cls).op.defaults FC3_ZFCPData.init) :=
  opts_normal (o := FC3_ZFCPData.strOut) (T := [c!"lineno"]) (zfcpSheet 0) (fun args n => post_weaken (FC3_ZFCP.parsed _ args n) fun _ h => h.mono (by decide)) (fun _ => rfl) (.inl rfl) (fun a b => FC3_ZFCP.sim _ a b) (by decide) (by decide +kernel) (by decide +kernel)

theorem same_FC3_ZFCP_FC3_ZFCPData : (FC3_ZFCP.cls FC3_ZFCPData.cls).SameText := list_same (o := FC3_ZFCPData.strOut) (fun _ => rfl) (by decide +kernel)

theorem normal_F12_ZFCP_F12_ZFCPData : (F12_ZFCP.cls F12_ZFCPData.cls).Normal (zfcpSheet 0) (needs c!"zfcp" Version.F12) (unread c!"zfcp") (setToObj (F12_ZFCP.info F12_ZFCPData.cls).op.defaults F12_ZFCPData.init) :=
  opts_normal (o := FC3_ZFCPData.strOut) (T := [c!"lineno"]) (zfcpSheet 0) (fun args n => post_weaken (FC3_ZFCP.parsed _ args n) fun _ h => h.mono (by decide)) (fun _ => rfl) (.inl rfl) (fun a b => FC3_ZFCP.sim _ a b) (by decide) (by decide +kernel) (by decide +kernel)

theorem same_F12_ZFCP_F12_ZFCPData : (F12_ZFCP.cls F12_ZFCPData.cls).SameText := list_same (o := FC3_ZFCPData.strOut) (fun _ => rfl) (by decide +kernel)

theorem normal_F14_ZFCP_F14_ZFCPData : (F14_ZFCP.cls F14_ZFCPData.cls).Normal (zfcpSheet 0) (needs c!"zfcp" Version.F14) (unread c!"zfcp") (setToObj (F14_ZFCP.info F14_ZFCPData.cls).op.defaults F14_ZFCPData.init) :=
  opts_normal (o := FC3_ZFCPData.strOut) (T := [c!"lineno"]) (zfcpSheet 0) (fun args n => post_weaken (FC3_ZFCP.parsed _ args n) fun _ h => h.mono (by decide)) (fun _ => rfl) (.inl rfl) (fun a b => FC3_ZFCP.sim _ a b) (by decide) (by decide +kernel) (by decide +kernel)

theorem same_F14_ZFCP_F14_ZFCPData : (F14_ZFCP.cls F14_ZFCPData.cls).SameText := list_same (o := FC3_ZFCPData.strOut) (fun _ => rfl) (by decide +kernel)

/-- The values of an object of `zfcp` without options. -/
def zfcpBases : List (Nat × Ns) :=
  [(Version.F10, setToObj (FC3_ZFCP.info FC3_ZFCPData.cls).op.defaults FC3_ZFCPData.init),
   (Version.F11, setToObj (FC3_ZFCP.info FC3_ZFCPData.cls).op.defaults FC3_ZFCPData.init),
   (Version.F12, setToObj (F12_ZFCP.info F12_ZFCPData.cls).op.defaults F12_ZFCPData.init),
   (Version.F13, setToObj (F12_ZFCP.info F12_ZFCPData.cls).op.defaults F12_ZFCPData.init),
   (Version.F14, setToObj (F14_ZFCP.info F14_ZFCPData.cls).op.defaults F14_ZFCPData.init),
   (Version.F15, setToObj (F14_ZFCP.info F14_ZFCPData.cls).op.defaults F14_ZFCPData.init),
   (Version.F16, setToObj (F14_ZFCP.info F14_ZFCPData.cls).op.defaults F14_ZFCPData.init),
   (Version.F17, setToObj (F14_ZFCP.info F14_ZFCPData.cls).op.defaults F14_ZFCPData.init),
   (Version.F18, setToObj (F14_ZFCP.info F14_ZFCPData.cls).op.defaults F14_ZFCPData.init),
   (Version.F19, setToObj (F14_ZFCP.info F14_ZFCPData.cls).op.defaults F14_ZFCPData.init),
   (Version.F20, setToObj (F14_ZFCP.info F14_ZFCPData.cls).op.defaults F14_ZFCPData.init),
   (Version.F21, setToObj (F14_ZFCP.info F14_ZFCPData.cls).op.defaults F14_ZFCPData.init),
   (Version.F22, setToObj (F14_ZFCP.info F14_ZFCPData.cls).op.defaults F14_ZFCPData.init),
   (Version.F23, setToObj (F14_ZFCP.info F14_ZFCPData.cls).op.defaults F14_ZFCPData.init),
   (Version.F24, setToObj (F14_ZFCP.info F14_ZFCPData.cls).op.defaults F14_ZFCPData.init),
   (Version.F25, setToObj (F14_ZFCP.info F14_ZFCPData.cls).op.defaults F14_ZFCPData.init),
   (Version.F26, setToObj (F14_ZFCP.info F14_ZFCPData.cls).op.defaults F14_ZFCPData.init),
   (Version.F27, setToObj (F14_ZFCP.info F14_ZFCPData.cls).op.defaults F14_ZFCPData.init),
   (Version.F28, setToObj (F14_ZFCP.info F14_ZFCPData.cls).op.defaults F14_ZFCPData.init),
   (Version.F29, setToObj (F14_ZFCP.info F14_ZFCPData.cls).op.defaults F14_ZFCPData.init),
   (Version.F30, setToObj (F14_ZFCP.info F14_ZFCPData.cls).op.defaults F14_ZFCPData.init),
   (Version.F31, setToObj (F14_ZFCP.info F14_ZFCPData.cls).op.defaults F14_ZFCPData.init),
   (Version.F32, setToObj (F14_ZFCP.info F14_ZFCPData.cls).op.defaults F14_ZFCPData.init),
   (Version.F33, setToObj (F14_ZFCP.info F14_ZFCPData.cls).op.defaults F14_ZFCPData.init),
   (Version.F34, setToObj (F14_ZFCP.info F14_ZFCPData.cls).op.defaults F14_ZFCPData.init),
   (Version.F7, setToObj (FC3_ZFCP.info FC3_ZFCPData.cls).op.defaults FC3_ZFCPData.init),
   (Version.F8, setToObj (FC3_ZFCP.info FC3_ZFCPData.cls).op.defaults FC3_ZFCPData.init),
   (Version.F9, setToObj (FC3_ZFCP.info FC3_ZFCPData.cls).op.defaults FC3_ZFCPData.init),
   (Version.FC3, setToObj (FC3_ZFCP.info FC3_ZFCPData.cls).op.defaults FC3_ZFCPData.init),
   (Version.FC4, setToObj (FC3_ZFCP.info FC3_ZFCPData.cls).op.defaults FC3_ZFCPData.init),
   (Version.FC5, setToObj (FC3_ZFCP.info FC3_ZFCPData.cls).op.defaults FC3_ZFCPData.init),
   (Version.FC6, setToObj (FC3_ZFCP.info FC3_ZFCPData.cls).op.defaults FC3_ZFCPData.init),
   (Version.RHEL4, setToObj (FC3_ZFCP.info FC3_ZFCPData.cls).op.defaults FC3_ZFCPData.init),
   (Version.RHEL5, setToObj (FC3_ZFCP.info FC3_ZFCPData.cls).op.defaults FC3_ZFCPData.init),
   (Version.RHEL6, setToObj (F12_ZFCP.info F12_ZFCPData.cls).op.defaults F12_ZFCPData.init),
   (Version.RHEL7, setToObj (F14_ZFCP.info F14_ZFCPData.cls).op.defaults F14_ZFCPData.init),
   (Version.RHEL8, setToObj (F14_ZFCP.info F14_ZFCPData.cls).op.defaults F14_ZFCPData.init)]

theorem normal_zfcp : ∀ y ∈ commandMaps, ∀ c, y.2.lookup c!"zfcp" = some c → c.hasList { attrs := {} } = true →
    ∃ base, zfcpBases.lookup y.1 = some base ∧ c.Normal (zfcpSheet y.1) (needs c!"zfcp" y.1) (unread c!"zfcp") base ∧ c.SameText := by
  unfold commandMaps
  exact (all_cons (fun c h hl => by cases h; exact ⟨_, rfl, normal_FC3_ZFCP_FC3_ZFCPData, same_FC3_ZFCP_FC3_ZFCPData⟩)
    (all_cons (fun c h hl => by cases h; exact ⟨_, rfl, normal_FC3_ZFCP_FC3_ZFCPData, same_FC3_ZFCP_FC3_ZFCPData⟩)
    (all_cons (fun c h hl => by cases h; exact ⟨_, rfl, normal_F12_ZFCP_F12_ZFCPData, same_F12_ZFCP_F12_ZFCPData⟩)
    (all_cons (fun c h hl => by cases h; exact ⟨_, rfl, normal_F12_ZFCP_F12_ZFCPData, same_F12_ZFCP_F12_ZFCPData⟩)
    (all_cons (fun c h hl => by cases h; exact ⟨_, rfl, normal_F14_ZFCP_F14_ZFCPData, same_F14_ZFCP_F14_ZFCPData⟩)
    (all_cons (fun c h hl => by cases h; exact ⟨_, rfl, normal_F14_ZFCP_F14_ZFCPData, same_F14_ZFCP_F14_ZFCPData⟩)
    (all_cons (fun c h hl => by cases h; exact ⟨_, rfl, normal_F14_ZFCP_F14_ZFCPData, same_F14_ZFCP_F14_ZFCPData⟩)
    (all_cons (fun c h hl => by cases h; exact ⟨_, rfl, normal_F14_ZFCP_F14_ZFCPData, same_F14_ZFCP_F14_ZFCPData⟩)
    (all_cons (fun c h hl => by cases h; exact ⟨_, rfl, normal_F14_ZFCP_F14_ZFCPData, same_F14_ZFCP_F14_ZFCPData⟩)
    (all_cons (fun c h hl => by cases h; exact ⟨_, rfl, normal_F14_ZFCP_F14_ZFCPData, same_F14_ZFCP_F14_ZFCPData⟩)
    (all_cons (fun c h hl => by cases h; exact ⟨_, rfl, normal_F14_ZFCP_F14_ZFCPData, same_F14_ZFCP_F14_ZFCPData⟩)
    (all_cons (fun c h hl => by cases h; exact ⟨_, rfl, normal_F14_ZFCP_F14_ZFCPData, same_F14_ZFCP_F14_ZFCPData⟩)
    (all_cons (fun c h hl => by cases h; exact ⟨_, rfl, normal_F14_ZFCP_F14_ZFCPData, same_F14_ZFCP_F14_ZFCPData⟩)
    (all_cons (fun c h hl => by cases h; exact ⟨_, rfl, normal_F14_ZFCP_F14_ZFCPData, same_F14_ZFCP_F14_ZFCPData⟩)
    (all_cons (fun c h hl => by cases h; exact ⟨_, rfl, normal_F14_ZFCP_F14_ZFCPData, same_F14_ZFCP_F14_ZFCPData⟩)
    (all_cons (fun c h hl => by cases h; exact ⟨_, rfl, normal_F14_ZFCP_F14_ZFCPData, same_F14_ZFCP_F14_ZFCPData⟩)
    (all_cons (fun c h hl => by cases h; exact ⟨_, rfl, normal_F14_ZFCP_F14_ZFCPData, same_F14_ZFCP_F14_ZFCPData⟩)
    (all_cons (fun c h hl => by cases h; exact ⟨_, rfl, normal_F14_ZFCP_F14_ZFCPData, same_F14_ZFCP_F14_ZFCPData⟩)
    (all_cons (fun c h hl => by cases h; exact ⟨_, rfl, normal_F14_ZFCP_F14_ZFCPData, same_F14_ZFCP_F14_ZFCPData⟩)
    (all_cons (fun c h hl => by cases h; exact ⟨_, rfl, normal_F14_ZFCP_F14_ZFCPData, same_F14_ZFCP_F14_ZFCPData⟩)
    (all_cons (fun c h hl => by cases h; exact ⟨_, rfl, normal_F14_ZFCP_F14_ZFCPData, same_F14_ZFCP_F14_ZFCPData⟩)
    (all_cons (fun c h hl => by cases h; exact ⟨_, rfl, normal_F14_ZFCP_F14_ZFCPData, same_F14_ZFCP_F14_ZFCPData⟩)
    (all_cons (fun c h hl => by cases h; exact ⟨_, rfl, normal_F14_ZFCP_F14_ZFCPData, same_F14_ZFCP_F14_ZFCPData⟩)
    (all_cons (fun c h hl => by cases h; exact ⟨_, rfl, normal_F14_ZFCP_F14_ZFCPData, same_F14_ZFCP_F14_ZFCPData⟩)
    (all_cons (fun c h hl => by cases h; exact ⟨_, rfl, normal_F14_ZFCP_F14_ZFCPData, same_F14_ZFCP_F14_ZFCPData⟩)
    (all_cons (fun c h hl => by cases h; exact ⟨_, rfl, normal_FC3_ZFCP_FC3_ZFCPData, same_FC3_ZFCP_FC3_ZFCPData⟩)
    (all_cons (fun c h hl => by cases h; exact ⟨_, rfl, normal_FC3_ZFCP_FC3_ZFCPData, same_FC3_ZFCP_FC3_ZFCPData⟩)
    (all_cons (fun c h hl => by cases h; exact ⟨_, rfl, normal_FC3_ZFCP_FC3_ZFCPData, same_FC3_ZFCP_FC3_ZFCPData⟩)
    (all_cons (fun c h hl => by cases h; exact ⟨_, rfl, normal_FC3_ZFCP_FC3_ZFCPData, same_FC3_ZFCP_FC3_ZFCPData⟩)
    (all_cons (fun c h hl => by cases h; exact ⟨_, rfl, normal_FC3_ZFCP_FC3_ZFCPData, same_FC3_ZFCP_FC3_ZFCPData⟩)
    (all_cons (fun c h hl => by cases h; exact ⟨_, rfl, normal_FC3_ZFCP_FC3_ZFCPData, same_FC3_ZFCP_FC3_ZFCPData⟩)
    (all_cons (fun c h hl => by cases h; exact ⟨_, rfl, normal_FC3_ZFCP_FC3_ZFCPData, same_FC3_ZFCP_FC3_ZFCPData⟩)
    (all_cons (fun c h hl => by cases h)
    (all_cons (fun c h hl => by cases h; exact ⟨_, rfl, normal_FC3_ZFCP_FC3_ZFCPData, same_FC3_ZFCP_FC3_ZFCPData⟩)
    (all_cons (fun c h hl => by cases h; exact ⟨_, rfl, normal_FC3_ZFCP_FC3_ZFCPData, same_FC3_ZFCP_FC3_ZFCPData⟩)
    (all_cons (fun c h hl => by cases h; exact ⟨_, rfl, normal_F12_ZFCP_F12_ZFCPData, same_F12_ZFCP_F12_ZFCPData⟩)
    (all_cons (fun c h hl => by cases h; exact ⟨_, rfl, normal_F14_ZFCP_F14_ZFCPData, same_F14_ZFCP_F14_ZFCPData⟩)
    (all_cons (fun c h hl => by cases h; exact ⟨_, rfl, normal_F14_ZFCP_F14_ZFCPData, same_F14_ZFCP_F14_ZFCPData⟩) (List.forall_mem_nil _)))))))))))))))))))))))))))))))))))))))

theorem normal_F29_Module_F29_ModuleData : (F29_Module.cls F29_ModuleData.cls).Normal (moduleSheet 0) (needs c!"module" Version.F29) (unread c!"module") (setToObj (F29_Module.info F29_ModuleData.cls).op.defaults F29_ModuleData.init) :=
  opts_normal (o := F29_ModuleData.strOut F29_ModuleData.args) (T := [c!"lineno"]) (moduleSheet 0) (fun args n => post_weaken (F29_Module.parsed _ args n) fun _ h => h.mono (by decide)) (fun _ => rfl) (.inl rfl) (fun a b => F29_Module.sim _ a b) (by decide) (by decide +kernel) (by decide +kernel)

theorem same_F29_Module_F29_ModuleData : (F29_Module.cls F29_ModuleData.cls).SameText := list_same (o := F29_ModuleData.strOut F29_ModuleData.args) (fun _ => rfl) (by decide +kernel)

theorem normal_F31_Module_F31_ModuleData : (F31_Module.cls F31_ModuleData.cls).Normal (moduleSheet 0) (needs c!"module" Version.F31) (unread c!"module") (setToObj (F31_Module.info F31_ModuleData.cls).op.defaults F31_ModuleData.init) :=
  opts_normal (o := F29_ModuleData.strOut RHEL8_ModuleData.args) (T := [c!"lineno"]) (moduleSheet 0) (fun args n => post_weaken (F29_Module.parsed _ args n) fun _ h => h.mono (by decide)) (fun _ => rfl) (.inl rfl) (fun a b => F29_Module.sim _ a b) (by decide) (by decide +kernel) (by decide +kernel)

theorem same_F31_Module_F31_ModuleData : (F31_Module.cls F31_ModuleData.cls).SameText := list_same (o := F29_ModuleData.strOut RHEL8_ModuleData.args) (fun _ => rfl) (by decide +kernel)

theorem normal_RHEL8_Module_RHEL8_ModuleData : (RHEL8_Module.cls RHEL8_ModuleData.cls).Normal (moduleSheet 0) (needs c!"module" Version.RHEL8) (unread c!"module") (setToObj (RHEL8_Module.info RHEL8_ModuleData.cls).op.defaults RHEL8_ModuleData.init) :=
  opts_normal (o := F29_ModuleData.strOut RHEL8_ModuleData.args) (T := [c!"lineno"]) (moduleSheet 0) (fun args n => post_weaken (F29_Module.parsed _ args n) fun _ h => h.mono (by decide)) (fun _ => rfl) (.inl rfl) (fun a b => F29_Module.sim _ a b) (by decide) (by decide +kernel) (by decide +kernel)

theorem same_RHEL8_Module_RHEL8_ModuleData : (RHEL8_Module.cls RHEL8_ModuleData.cls).SameText := list_same (o := F29_ModuleData.strOut RHEL8_ModuleData.args) (fun _ => rfl) (by decide +kernel)

/-- The values of an object of `module` without options. -/
def moduleBases : List (Nat × Ns) :=
  [(Version.F29, setToObj (F29_Module.info F29_ModuleData.cls).op.defaults F29_ModuleData.init),
   (Version.F30, setToObj (F29_Module.info F29_ModuleData.cls).op.defaults F29_ModuleData.init),
   (Version.F31, setToObj (F31_Module.info F31_ModuleData.cls).op.defaults F31_ModuleData.init),
   (Version.F32, setToObj (F31_Module.info F31_ModuleData.cls).op.defaults F31_ModuleData.init),
   (Version.F33, setToObj (F31_Module.info F31_ModuleData.cls).op.defaults F31_ModuleData.init),
   (Version.F34, setToObj (F31_Module.info F31_ModuleData.cls).op.defaults F31_ModuleData.init),
   (Version.RHEL8, setToObj (RHEL8_Module.info RHEL8_ModuleData.cls).op.defaults RHEL8_ModuleData.init)]

theorem normal_module : ∀ y ∈ commandMaps, ∀ c, y.2.lookup c!"module" = some c → c.hasList { attrs := {} } = true →
    ∃ base, moduleBases.lookup y.1 = some base ∧ c.Normal (moduleSheet y.1) (needs c!"module" y.1) (unread c!"module") base ∧ c.SameText := by
  unfold commandMaps
  exact (all_cons (fun c h hl => by cases h)
    (all_cons (fun c h hl => by cases h)
    (all_cons (fun c h hl => by cases h)
    (all_cons (fun c h hl => by cases h)
    (all_cons (fun c h hl => by cases h)
    (all_cons (fun c h hl => by cases h)
    (all_cons (fun c h hl => by cases h)
    (all_cons (fun c h hl => by cases h)
    (all_cons (fun c h hl => by cases h)
    (all_cons (fun c h hl => by cases h)
    (all_cons (fun c h hl => by cases h)
    (all_cons (fun c h hl => by cases h)
    (all_cons (fun c h hl => by cases h)
    (all_cons (fun c h hl => by cases h)
    (all_cons (fun c h hl => by cases h)
    (all_cons (fun c h hl => by cases h)
    (all_cons (fun c h hl => by cases h)
    (all_cons (fun c h hl => by cases h)
    (all_cons (fun c h hl => by cases h)
    (all_cons (fun c h hl => by cases h; exact ⟨_, rfl, normal_F29_Module_F29_ModuleData, same_F29_Module_F29_ModuleData⟩)
    (all_cons (fun c h hl => by cases h; exact ⟨_, rfl, normal_F29_Module_F29_ModuleData, same_F29_Module_F29_ModuleData⟩)
    (all_cons (fun c h hl => by cases h; exact ⟨_, rfl, normal_F31_Module_F31_ModuleData, same_F31_Module_F31_ModuleData⟩)
    (all_cons (fun c h hl => by cases h; exact ⟨_, rfl, normal_F31_Module_F31_ModuleData, same_F31_Module_F31_ModuleData⟩)
    (all_cons (fun c h hl => by cases h; exact ⟨_, rfl, normal_F31_Module_F31_ModuleData, same_F31_Module_F31_ModuleData⟩)
    (all_cons (fun c h hl => by cases h; exact ⟨_, rfl, normal_F31_Module_F31_ModuleData, same_F31_Module_F31_ModuleData⟩)
    (all_cons (fun c h hl => by cases h)
    (all_cons (fun c h hl => by cases h)
    (all_cons (fun c h hl => by cases h)
    (all_cons (fun c h hl => by cases h)
    (all_cons (fun c h hl => by cases h)
    (all_cons (fun c h hl => by cases h)
    (all_cons (fun c h hl => by cases h)
    (all_cons (fun c h hl => by cases h)
    (all_cons (fun c h hl => by cases h)
    (all_cons (fun c h hl => by cases h)
    (all_cons (fun c h hl => by cases h)
    (all_cons (fun c h hl => by cases h)
    (all_cons (fun c h hl => by cases h; exact ⟨_, rfl, normal_RHEL8_Module_RHEL8_ModuleData, same_RHEL8_Module_RHEL8_ModuleData⟩) (List.forall_mem_nil _)))))))))))))))))))))))))))))))))))))))

theorem normal_F33_Timesource_F33_TimesourceData : (F33_Timesource.cls F33_TimesourceData.cls).Normal (timesourceSheet 0) (needs c!"timesource" Version.F33) (unread c!"timesource") (setToObj (F33_Timesource.info F33_TimesourceData.cls).op.defaults F33_TimesourceData.init) :=
  opts_normal (o := F33_TimesourceData.strOut F33_TimesourceData.args) (T := [c!"lineno"]) (timesourceSheet 0) (fun args n => post_weaken (F33_Timesource.parsed _ args n) fun _ h => h.mono (by decide)) (fun _ => rfl) (.inl rfl) (fun a b => F33_Timesource.sim _ a b (by decide +kernel)) (by decide) (by decide +kernel) (by decide +kernel)

theorem same_F33_Timesource_F33_TimesourceData : (F33_Timesource.cls F33_TimesourceData.cls).SameText := list_same (o := F33_TimesourceData.strOut F33_TimesourceData.args) (fun _ => rfl) (by decide +kernel)

/-- The values of an object of `timesource` without options. -/
def timesourceBases : List (Nat × Ns) :=
  [(Version.F33, setToObj (F33_Timesource.info F33_TimesourceData.cls).op.defaults F33_TimesourceData.init),
   (Version.F34, setToObj (F33_Timesource.info F33_TimesourceData.cls).op.defaults F33_TimesourceData.init)]

theorem normal_timesource : ∀ y ∈ commandMaps, ∀ c, y.2.lookup c!"timesource" = some c → c.hasList { attrs := {} } = true →
    ∃ base, timesourceBases.lookup y.1 = some base ∧ c.Normal (timesourceSheet y.1) (needs c!"timesource" y.1) (unread c!"timesource") base ∧ c.SameText := by
  unfold commandMaps
  exact (all_cons (fun c h hl => by cases h)
    (all_cons (fun c h hl => by cases h)
    (all_cons (fun c h hl => by cases h)
    (all_cons (fun c h hl => by cases h)
    (all_cons (fun c h hl => by cases h)
    (all_cons (fun c h hl => by cases h)
    (all_cons (fun c h hl => by cases h)
    (all_cons (fun c h hl => by cases h)
    (all_cons (fun c h hl => by cases h)
    (all_cons (fun c h hl => by cases h)
    (all_cons (fun c h hl => by cases h)
    (all_cons (fun c h hl => by cases h)
    (all_cons (fun c h hl => by cases h)
    (all_cons (fun c h hl => by cases h)
    (all_cons (fun c h hl => by cases h)
    (all_cons (fun c h hl => by cases h)
    (all_cons (fun c h hl => by cases h)
    (all_cons (fun c h hl => by cases h)
    (all_cons (fun c h hl => by cases h)
    (all_cons (fun c h hl => by cases h)
    (all_cons (fun c h hl => by cases h)
    (all_cons (fun c h hl => by cases h)
    (all_cons (fun c h hl => by cases h)
    (all_cons (fun c h hl => by cases h; exact ⟨_, rfl, normal_F33_Timesource_F33_TimesourceData, same_F33_Timesource_F33_TimesourceData⟩)
    (all_cons (fun c h hl => by cases h; exact ⟨_, rfl, normal_F33_Timesource_F33_TimesourceData, same_F33_Timesource_F33_TimesourceData⟩)
    (all_cons (fun c h hl => by cases h)
    (all_cons (fun c h hl => by cases h)
    (all_cons (fun c h hl => by cases h)
    (all_cons (fun c h hl => by cases h)
    (all_cons (fun c h hl => by cases h)
    (all_cons (fun c h hl => by cases h)
    (all_cons (fun c h hl => by cases h)
    (all_cons (fun c h hl => by cases h)
    (all_cons (fun c h hl => by cases h)
    (all_cons (fun c h hl => by cases h)
    (all_cons (fun c h hl => by cases h)
    (all_cons (fun c h hl => by cases h)
    (all_cons (fun c h hl => by cases h) (List.forall_mem_nil _)))))))))))))))))))))))))))))))))))))))

end Ks.Cmd
