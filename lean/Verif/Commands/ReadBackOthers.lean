import Verif.Commands.Sheets
import Verif.Commands.RuleLogic2
import Verif.Commands.Maps
/-!
# Commands with data lists read their text back

Written by `scripts/gen_readback.py`.
-/
namespace Ks.Cmd

set_option linter.unusedVariables false

theorem FC6_Repo.parsed (k : Info) (args : List Str) (n : Nat) : M.Post n (FC6_Repo.parse k args) (ParsedBy k.op k.dc.init [c!"lineno"] n args) := by
  unfold FC6_Repo.parse
  parsed_steps
  all_goals parsed_close

theorem readsBack_F8_Repo_F8_RepoData : (F8_Repo.cls F8_RepoData.cls).ReadsBack (repoSheet 0) (setToObj (F8_Repo.info F8_RepoData.cls).op.defaults F8_RepoData.init) :=
  list_readsBack (o := FC6_RepoData.strOut F8_RepoData.args) (repoSheet 0) (fun args n => post_weaken (FC6_Repo.parsed _ args n) fun _ h => h.mono (by decide)) (fun _ => rfl) (.inl rfl) (by decide +kernel)

theorem readsBack_F11_Repo_F11_RepoData : (F11_Repo.cls F11_RepoData.cls).ReadsBack (repoSheet 0) (setToObj (F11_Repo.info F11_RepoData.cls).op.defaults F11_RepoData.init) :=
  list_readsBack (o := FC6_RepoData.strOut F11_RepoData.args) (repoSheet 0) (fun args n => post_weaken (FC6_Repo.parsed _ args n) fun _ h => h.mono (by decide)) (fun _ => rfl) (.inl rfl) (by decide +kernel)

theorem readsBack_F13_Repo_F13_RepoData : (F13_Repo.cls F13_RepoData.cls).ReadsBack (repoSheet 0) (setToObj (F13_Repo.info F13_RepoData.cls).op.defaults F13_RepoData.init) :=
  list_readsBack (o := FC6_RepoData.strOut F13_RepoData.args) (repoSheet 0) (fun args n => post_weaken (FC6_Repo.parsed _ args n) fun _ h => h.mono (by decide)) (fun _ => rfl) (.inl rfl) (by decide +kernel)

theorem readsBack_F14_Repo_F14_RepoData : (F14_Repo.cls F14_RepoData.cls).ReadsBack (repoSheet 0) (setToObj (F14_Repo.info F14_RepoData.cls).op.defaults F14_RepoData.init) :=
  list_readsBack (o := FC6_RepoData.strOut F14_RepoData.args) (repoSheet 0) (fun args n => post_weaken (FC6_Repo.parsed _ args n) fun _ h => h.mono (by decide)) (fun _ => rfl) (.inl rfl) (by decide +kernel)

theorem readsBack_F15_Repo_F15_RepoData : (F15_Repo.cls F15_RepoData.cls).ReadsBack (repoSheet 0) (setToObj (F15_Repo.info F15_RepoData.cls).op.defaults F15_RepoData.init) :=
  list_readsBack (o := FC6_RepoData.strOut F14_RepoData.args) (repoSheet 0) (fun args n => post_weaken (FC6_Repo.parsed _ args n) fun _ h => h.mono (by decide)) (fun _ => rfl) (.inl rfl) (by decide +kernel)

theorem readsBack_F21_Repo_F21_RepoData : (F21_Repo.cls F21_RepoData.cls).ReadsBack (repoSheet 0) (setToObj (F21_Repo.info F21_RepoData.cls).op.defaults F21_RepoData.init) :=
  list_readsBack (o := FC6_RepoData.strOut F21_RepoData.args) (repoSheet 0) (fun args n => post_weaken (FC6_Repo.parsed _ args n) fun _ h => h.mono (by decide)) (fun _ => rfl) (.inl rfl) (by decide +kernel)

theorem readsBack_F27_Repo_F27_RepoData : (F27_Repo.cls F27_RepoData.cls).ReadsBack (repoSheet 0) (setToObj (F27_Repo.info F27_RepoData.cls).op.defaults F27_RepoData.init) :=
  list_readsBack (o := FC6_RepoData.strOut F27_RepoData.args) (repoSheet 0) (fun args n => post_weaken (FC6_Repo.parsed _ args n) fun _ h => h.mono (by decide)) (fun _ => rfl) (.inl rfl) (by decide +kernel)

theorem readsBack_F30_Repo_F30_RepoData : (F30_Repo.cls F30_RepoData.cls).ReadsBack (repoSheet 0) (setToObj (F30_Repo.info F30_RepoData.cls).op.defaults F30_RepoData.init) :=
  list_readsBack (o := FC6_RepoData.strOut F30_RepoData.args) (repoSheet 0) (fun args n => post_weaken (FC6_Repo.parsed _ args n) fun _ h => h.mono (by decide)) (fun _ => rfl) (.inl rfl) (by decide +kernel)

theorem readsBack_F33_Repo_F30_RepoData : (F33_Repo.cls F30_RepoData.cls).ReadsBack (repoSheet 0) (setToObj (F33_Repo.info F30_RepoData.cls).op.defaults F30_RepoData.init) :=
  list_readsBack (o := FC6_RepoData.strOut F30_RepoData.args) (repoSheet 0) (fun args n => post_weaken (FC6_Repo.parsed _ args n) fun _ h => h.mono (by decide)) (fun _ => rfl) (.inl rfl) (by decide +kernel)

theorem readsBack_FC6_Repo_FC6_RepoData : (FC6_Repo.cls FC6_RepoData.cls).ReadsBack (repoSheet 0) (setToObj (FC6_Repo.info FC6_RepoData.cls).op.defaults FC6_RepoData.init) :=
  list_readsBack (o := FC6_RepoData.strOut FC6_RepoData.args) (repoSheet 0) (fun args n => post_weaken (FC6_Repo.parsed _ args n) fun _ h => h.mono (by decide)) (fun _ => rfl) (.inl rfl) (by decide +kernel)

theorem readsBack_RHEL6_Repo_RHEL6_RepoData : (RHEL6_Repo.cls RHEL6_RepoData.cls).ReadsBack (repoSheet 0) (setToObj (RHEL6_Repo.info RHEL6_RepoData.cls).op.defaults RHEL6_RepoData.init) :=
  list_readsBack (o := FC6_RepoData.strOut F14_RepoData.args) (repoSheet 0) (fun args n => post_weaken (FC6_Repo.parsed _ args n) fun _ h => h.mono (by decide)) (fun _ => rfl) (.inl rfl) (by decide +kernel)

theorem readsBack_RHEL7_Repo_RHEL7_RepoData : (RHEL7_Repo.cls RHEL7_RepoData.cls).ReadsBack (repoSheet 0) (setToObj (RHEL7_Repo.info RHEL7_RepoData.cls).op.defaults RHEL7_RepoData.init) :=
  list_readsBack (o := FC6_RepoData.strOut F21_RepoData.args) (repoSheet 0) (fun args n => post_weaken (FC6_Repo.parsed _ args n) fun _ h => h.mono (by decide)) (fun _ => rfl) (.inl rfl) (by decide +kernel)

theorem readsBack_RHEL8_Repo_RHEL8_RepoData : (RHEL8_Repo.cls RHEL8_RepoData.cls).ReadsBack (repoSheet 0) (setToObj (RHEL8_Repo.info RHEL8_RepoData.cls).op.defaults RHEL8_RepoData.init) :=
  list_readsBack (o := FC6_RepoData.strOut F30_RepoData.args) (repoSheet 0) (fun args n => post_weaken (FC6_Repo.parsed _ args n) fun _ h => h.mono (by decide)) (fun _ => rfl) (.inl rfl) (by decide +kernel)

theorem readsBack_repo : ∀ y ∈ commandMaps, ∀ c, y.2.lookup c!"repo" = some c → c.hasList { attrs := {} } = true → ∃ base, c.ReadsBack (repoSheet y.1) base := by
  unfold commandMaps
  exact (all_cons (fun c h hl => by cases h; exact ⟨_, readsBack_F8_Repo_F8_RepoData⟩)
    (all_cons (fun c h hl => by cases h; exact ⟨_, readsBack_F11_Repo_F11_RepoData⟩)
    (all_cons (fun c h hl => by cases h; exact ⟨_, readsBack_F11_Repo_F11_RepoData⟩)
    (all_cons (fun c h hl => by cases h; exact ⟨_, readsBack_F13_Repo_F13_RepoData⟩)
    (all_cons (fun c h hl => by cases h; exact ⟨_, readsBack_F14_Repo_F14_RepoData⟩)
    (all_cons (fun c h hl => by cases h; exact ⟨_, readsBack_F15_Repo_F15_RepoData⟩)
    (all_cons (fun c h hl => by cases h; exact ⟨_, readsBack_F15_Repo_F15_RepoData⟩)
    (all_cons (fun c h hl => by cases h; exact ⟨_, readsBack_F15_Repo_F15_RepoData⟩)
    (all_cons (fun c h hl => by cases h; exact ⟨_, readsBack_F15_Repo_F15_RepoData⟩)
    (all_cons (fun c h hl => by cases h; exact ⟨_, readsBack_F15_Repo_F15_RepoData⟩)
    (all_cons (fun c h hl => by cases h; exact ⟨_, readsBack_F15_Repo_F15_RepoData⟩)
    (all_cons (fun c h hl => by cases h; exact ⟨_, readsBack_F21_Repo_F21_RepoData⟩)
    (all_cons (fun c h hl => by cases h; exact ⟨_, readsBack_F21_Repo_F21_RepoData⟩)
    (all_cons (fun c h hl => by cases h; exact ⟨_, readsBack_F21_Repo_F21_RepoData⟩)
    (all_cons (fun c h hl => by cases h; exact ⟨_, readsBack_F21_Repo_F21_RepoData⟩)
    (all_cons (fun c h hl => by cases h; exact ⟨_, readsBack_F21_Repo_F21_RepoData⟩)
    (all_cons (fun c h hl => by cases h; exact ⟨_, readsBack_F21_Repo_F21_RepoData⟩)
    (all_cons (fun c h hl => by cases h; exact ⟨_, readsBack_F27_Repo_F27_RepoData⟩)
    (all_cons (fun c h hl => by cases h; exact ⟨_, readsBack_F27_Repo_F27_RepoData⟩)
    (all_cons (fun c h hl => by cases h; exact ⟨_, readsBack_F27_Repo_F27_RepoData⟩)
    (all_cons (fun c h hl => by cases h; exact ⟨_, readsBack_F30_Repo_F30_RepoData⟩)
    (all_cons (fun c h hl => by cases h; exact ⟨_, readsBack_F30_Repo_F30_RepoData⟩)
    (all_cons (fun c h hl => by cases h; exact ⟨_, readsBack_F30_Repo_F30_RepoData⟩)
    (all_cons (fun c h hl => by cases h; exact ⟨_, readsBack_F33_Repo_F30_RepoData⟩)
    (all_cons (fun c h hl => by cases h; exact ⟨_, readsBack_F33_Repo_F30_RepoData⟩)
    (all_cons (fun c h hl => by cases h; exact ⟨_, readsBack_FC6_Repo_FC6_RepoData⟩)
    (all_cons (fun c h hl => by cases h; exact ⟨_, readsBack_F8_Repo_F8_RepoData⟩)
    (all_cons (fun c h hl => by cases h; exact ⟨_, readsBack_F8_Repo_F8_RepoData⟩)
    (all_cons (fun c h hl => by cases h)
    (all_cons (fun c h hl => by cases h)
    (all_cons (fun c h hl => by cases h)
    (all_cons (fun c h hl => by cases h; exact ⟨_, readsBack_FC6_Repo_FC6_RepoData⟩)
    (all_cons (fun c h hl => by cases h)
    (all_cons (fun c h hl => by cases h)
    (all_cons (fun c h hl => by cases h; exact ⟨_, readsBack_FC6_Repo_FC6_RepoData⟩)
    (all_cons (fun c h hl => by cases h; exact ⟨_, readsBack_RHEL6_Repo_RHEL6_RepoData⟩)
    (all_cons (fun c h hl => by cases h; exact ⟨_, readsBack_RHEL7_Repo_RHEL7_RepoData⟩)
    (all_cons (fun c h hl => by cases h; exact ⟨_, readsBack_RHEL8_Repo_RHEL8_RepoData⟩) (List.forall_mem_nil _)))))))))))))))))))))))))))))))))))))))

theorem FC4_DriverDisk.parsed (k : Info) (args : List Str) (n : Nat) : M.Post n (FC4_DriverDisk.parse k args) (ParsedBy k.op k.dc.init [c!"lineno", c!"partition"] n args) := by
  unfold FC4_DriverDisk.parse
  parsed_steps
  all_goals parsed_close

theorem readsBack_FC4_DriverDisk_FC4_DriverDiskData : (FC4_DriverDisk.cls FC4_DriverDiskData.cls).ReadsBack (driverdiskSheet 0) (setToObj (FC4_DriverDisk.info FC4_DriverDiskData.cls).op.defaults FC4_DriverDiskData.init) :=
  list_readsBack (o := FC3_DriverDiskData.strOut FC4_DriverDiskData.args) (driverdiskSheet 0) (fun args n => post_weaken (FC4_DriverDisk.parsed _ args n) fun _ h => h.mono (by decide)) (fun _ => rfl) (.inl rfl) (by decide +kernel)

theorem readsBack_F12_DriverDisk_F12_DriverDiskData : (F12_DriverDisk.cls F12_DriverDiskData.cls).ReadsBack (driverdiskSheet 0) (setToObj (F12_DriverDisk.info F12_DriverDiskData.cls).op.defaults F12_DriverDiskData.init) :=
  list_readsBack (o := FC3_DriverDiskData.strOut FC4_DriverDiskData.args) (driverdiskSheet 0) (fun args n => post_weaken (FC4_DriverDisk.parsed _ args n) fun _ h => h.mono (by decide)) (fun _ => rfl) (.inl rfl) (by decide +kernel)

theorem readsBack_F14_DriverDisk_F14_DriverDiskData : (F14_DriverDisk.cls F14_DriverDiskData.cls).ReadsBack (driverdiskSheet 0) (setToObj (F14_DriverDisk.info F14_DriverDiskData.cls).op.defaults F14_DriverDiskData.init) :=
  list_readsBack (o := FC3_DriverDiskData.strOut FC4_DriverDiskData.args) (driverdiskSheet 0) (fun args n => post_weaken (FC4_DriverDisk.parsed _ args n) fun _ h => h.mono (by decide)) (fun _ => rfl) (.inl rfl) (by decide +kernel)

theorem FC3_DriverDisk.parsed (k : Info) (args : List Str) (n : Nat) : M.Post n (FC3_DriverDisk.parse k args) (ParsedBy k.op k.dc.init [c!"lineno", c!"partition"] n args) := by
  unfold FC3_DriverDisk.parse
  parsed_steps
  all_goals parsed_close

theorem readsBack_FC3_DriverDisk_FC3_DriverDiskData : (FC3_DriverDisk.cls FC3_DriverDiskData.cls).ReadsBack (driverdiskSheet 0) (setToObj (FC3_DriverDisk.info FC3_DriverDiskData.cls).op.defaults FC3_DriverDiskData.init) :=
  list_readsBack (o := FC3_DriverDiskData.strOut FC3_DriverDiskData.args) (driverdiskSheet 0) (fun args n => post_weaken (FC3_DriverDisk.parsed _ args n) fun _ h => h.mono (by decide)) (fun _ => rfl) (.inl rfl) (by decide +kernel)

theorem readsBack_driverdisk : ∀ y ∈ commandMaps, ∀ c, y.2.lookup c!"driverdisk" = some c → c.hasList { attrs := {} } = true → ∃ base, c.ReadsBack (driverdiskSheet y.1) base := by
  unfold commandMaps
  exact (all_cons (fun c h hl => by cases h; exact ⟨_, readsBack_FC4_DriverDisk_FC4_DriverDiskData⟩)
    (all_cons (fun c h hl => by cases h; exact ⟨_, readsBack_FC4_DriverDisk_FC4_DriverDiskData⟩)
    (all_cons (fun c h hl => by cases h; exact ⟨_, readsBack_F12_DriverDisk_F12_DriverDiskData⟩)
    (all_cons (fun c h hl => by cases h; exact ⟨_, readsBack_F12_DriverDisk_F12_DriverDiskData⟩)
    (all_cons (fun c h hl => by cases h; exact ⟨_, readsBack_F14_DriverDisk_F14_DriverDiskData⟩)
    (all_cons (fun c h hl => by cases h; exact ⟨_, readsBack_F14_DriverDisk_F14_DriverDiskData⟩)
    (all_cons (fun c h hl => by cases h; exact ⟨_, readsBack_F14_DriverDisk_F14_DriverDiskData⟩)
    (all_cons (fun c h hl => by cases h; exact ⟨_, readsBack_F14_DriverDisk_F14_DriverDiskData⟩)
    (all_cons (fun c h hl => by cases h; exact ⟨_, readsBack_F14_DriverDisk_F14_DriverDiskData⟩)
    (all_cons (fun c h hl => by cases h; exact ⟨_, readsBack_F14_DriverDisk_F14_DriverDiskData⟩)
    (all_cons (fun c h hl => by cases h; exact ⟨_, readsBack_F14_DriverDisk_F14_DriverDiskData⟩)
    (all_cons (fun c h hl => by cases h; exact ⟨_, readsBack_F14_DriverDisk_F14_DriverDiskData⟩)
    (all_cons (fun c h hl => by cases h; exact ⟨_, readsBack_F14_DriverDisk_F14_DriverDiskData⟩)
    (all_cons (fun c h hl => by cases h; exact ⟨_, readsBack_F14_DriverDisk_F14_DriverDiskData⟩)
    (all_cons (fun c h hl => by cases h; exact ⟨_, readsBack_F14_DriverDisk_F14_DriverDiskData⟩)
    (all_cons (fun c h hl => by cases h; exact ⟨_, readsBack_F14_DriverDisk_F14_DriverDiskData⟩)
    (all_cons (fun c h hl => by cases h; exact ⟨_, readsBack_F14_DriverDisk_F14_DriverDiskData⟩)
    (all_cons (fun c h hl => by cases h; exact ⟨_, readsBack_F14_DriverDisk_F14_DriverDiskData⟩)
    (all_cons (fun c h hl => by cases h; exact ⟨_, readsBack_F14_DriverDisk_F14_DriverDiskData⟩)
    (all_cons (fun c h hl => by cases h; exact ⟨_, readsBack_F14_DriverDisk_F14_DriverDiskData⟩)
    (all_cons (fun c h hl => by cases h; exact ⟨_, readsBack_F14_DriverDisk_F14_DriverDiskData⟩)
    (all_cons (fun c h hl => by cases h; exact ⟨_, readsBack_F14_DriverDisk_F14_DriverDiskData⟩)
    (all_cons (fun c h hl => by cases h; exact ⟨_, readsBack_F14_DriverDisk_F14_DriverDiskData⟩)
    (all_cons (fun c h hl => by cases h; exact ⟨_, readsBack_F14_DriverDisk_F14_DriverDiskData⟩)
    (all_cons (fun c h hl => by cases h; exact ⟨_, readsBack_F14_DriverDisk_F14_DriverDiskData⟩)
    (all_cons (fun c h hl => by cases h; exact ⟨_, readsBack_FC4_DriverDisk_FC4_DriverDiskData⟩)
    (all_cons (fun c h hl => by cases h; exact ⟨_, readsBack_FC4_DriverDisk_FC4_DriverDiskData⟩)
    (all_cons (fun c h hl => by cases h; exact ⟨_, readsBack_FC4_DriverDisk_FC4_DriverDiskData⟩)
    (all_cons (fun c h hl => by cases h; exact ⟨_, readsBack_FC3_DriverDisk_FC3_DriverDiskData⟩)
    (all_cons (fun c h hl => by cases h; exact ⟨_, readsBack_FC4_DriverDisk_FC4_DriverDiskData⟩)
    (all_cons (fun c h hl => by cases h; exact ⟨_, readsBack_FC4_DriverDisk_FC4_DriverDiskData⟩)
    (all_cons (fun c h hl => by cases h; exact ⟨_, readsBack_FC4_DriverDisk_FC4_DriverDiskData⟩)
    (all_cons (fun c h hl => by cases h; exact ⟨_, readsBack_FC3_DriverDisk_FC3_DriverDiskData⟩)
    (all_cons (fun c h hl => by cases h; exact ⟨_, readsBack_FC4_DriverDisk_FC4_DriverDiskData⟩)
    (all_cons (fun c h hl => by cases h; exact ⟨_, readsBack_F12_DriverDisk_F12_DriverDiskData⟩)
    (all_cons (fun c h hl => by cases h; exact ⟨_, readsBack_F12_DriverDisk_F12_DriverDiskData⟩)
    (all_cons (fun c h hl => by cases h; exact ⟨_, readsBack_F14_DriverDisk_F14_DriverDiskData⟩)
    (all_cons (fun c h hl => by cases h; exact ⟨_, readsBack_F14_DriverDisk_F14_DriverDiskData⟩) (List.forall_mem_nil _)))))))))))))))))))))))))))))))))))))))

theorem F13_SshPw.parsed (k : Info) (args : List Str) (n : Nat) : M.Post n (F13_SshPw.parse k args) (ParsedBy k.op k.dc.init [c!"lineno", c!"password"] n args) := by
  unfold F13_SshPw.parse
  parsed_steps
  all_goals parsed_close

theorem readsBack_F13_SshPw_F13_SshPwData : (F13_SshPw.cls F13_SshPwData.cls).ReadsBack (sshpwSheet 0) (setToObj (F13_SshPw.info F13_SshPwData.cls).op.defaults F13_SshPwData.init) :=
  list_readsBack (o := F13_SshPwData.strOut F13_SshPwData.args) (sshpwSheet 0) (fun args n => post_weaken (F13_SshPw.parsed _ args n) fun _ h => h.mono (by decide)) (fun _ => rfl) (.inl rfl) (by decide +kernel)

theorem readsBack_F24_SshPw_F24_SshPwData : (F24_SshPw.cls F24_SshPwData.cls).ReadsBack (sshpwSheet 0) (setToObj (F24_SshPw.info F24_SshPwData.cls).op.defaults F24_SshPwData.init) :=
  list_readsBack (o := F13_SshPwData.strOut F24_SshPwData.args) (sshpwSheet 0) (fun args n => post_weaken (F13_SshPw.parsed _ args n) fun _ h => h.mono (by decide)) (fun _ => rfl) (.inl rfl) (by decide +kernel)

theorem readsBack_sshpw : ∀ y ∈ commandMaps, ∀ c, y.2.lookup c!"sshpw" = some c → c.hasList { attrs := {} } = true → ∃ base, c.ReadsBack (sshpwSheet y.1) base := by
  unfold commandMaps
  exact (all_cons (fun c h hl => by cases h)
    (all_cons (fun c h hl => by cases h)
    (all_cons (fun c h hl => by cases h)
    (all_cons (fun c h hl => by cases h; exact ⟨_, readsBack_F13_SshPw_F13_SshPwData⟩)
    (all_cons (fun c h hl => by cases h; exact ⟨_, readsBack_F13_SshPw_F13_SshPwData⟩)
    (all_cons (fun c h hl => by cases h; exact ⟨_, readsBack_F13_SshPw_F13_SshPwData⟩)
    (all_cons (fun c h hl => by cases h; exact ⟨_, readsBack_F13_SshPw_F13_SshPwData⟩)
    (all_cons (fun c h hl => by cases h; exact ⟨_, readsBack_F13_SshPw_F13_SshPwData⟩)
    (all_cons (fun c h hl => by cases h; exact ⟨_, readsBack_F13_SshPw_F13_SshPwData⟩)
    (all_cons (fun c h hl => by cases h; exact ⟨_, readsBack_F13_SshPw_F13_SshPwData⟩)
    (all_cons (fun c h hl => by cases h; exact ⟨_, readsBack_F13_SshPw_F13_SshPwData⟩)
    (all_cons (fun c h hl => by cases h; exact ⟨_, readsBack_F13_SshPw_F13_SshPwData⟩)
    (all_cons (fun c h hl => by cases h; exact ⟨_, readsBack_F13_SshPw_F13_SshPwData⟩)
    (all_cons (fun c h hl => by cases h; exact ⟨_, readsBack_F13_SshPw_F13_SshPwData⟩)
    (all_cons (fun c h hl => by cases h; exact ⟨_, readsBack_F24_SshPw_F24_SshPwData⟩)
    (all_cons (fun c h hl => by cases h; exact ⟨_, readsBack_F24_SshPw_F24_SshPwData⟩)
    (all_cons (fun c h hl => by cases h; exact ⟨_, readsBack_F24_SshPw_F24_SshPwData⟩)
    (all_cons (fun c h hl => by cases h; exact ⟨_, readsBack_F24_SshPw_F24_SshPwData⟩)
    (all_cons (fun c h hl => by cases h; exact ⟨_, readsBack_F24_SshPw_F24_SshPwData⟩)
    (all_cons (fun c h hl => by cases h; exact ⟨_, readsBack_F24_SshPw_F24_SshPwData⟩)
    (all_cons (fun c h hl => by cases h; exact ⟨_, readsBack_F24_SshPw_F24_SshPwData⟩)
    (all_cons (fun c h hl => by cases h; exact ⟨_, readsBack_F24_SshPw_F24_SshPwData⟩)
    (all_cons (fun c h hl => by cases h; exact ⟨_, readsBack_F24_SshPw_F24_SshPwData⟩)
    (all_cons (fun c h hl => by cases h; exact ⟨_, readsBack_F24_SshPw_F24_SshPwData⟩)
    (all_cons (fun c h hl => by cases h; exact ⟨_, readsBack_F24_SshPw_F24_SshPwData⟩)
    (all_cons (fun c h hl => by cases h)
    (all_cons (fun c h hl => by cases h)
    (all_cons (fun c h hl => by cases h)
    (all_cons (fun c h hl => by cases h)
    (all_cons (fun c h hl => by cases h)
    (all_cons (fun c h hl => by cases h)
    (all_cons (fun c h hl => by cases h)
    (all_cons (fun c h hl => by cases h)
    (all_cons (fun c h hl => by cases h)
    (all_cons (fun c h hl => by cases h)
    (all_cons (fun c h hl => by cases h; exact ⟨_, readsBack_F13_SshPw_F13_SshPwData⟩)
    (all_cons (fun c h hl => by cases h; exact ⟨_, readsBack_F13_SshPw_F13_SshPwData⟩)
    (all_cons (fun c h hl => by cases h; exact ⟨_, readsBack_F24_SshPw_F24_SshPwData⟩) (List.forall_mem_nil _)))))))))))))))))))))))))))))))))))))))

theorem F22_SshKey.parsed (k : Info) (args : List Str) (n : Nat) : M.Post n (F22_SshKey.parse k args) (ParsedBy k.op k.dc.init [c!"key", c!"lineno"] n args) := by
  unfold F22_SshKey.parse
  parsed_steps
  all_goals parsed_close

theorem readsBack_F22_SshKey_F22_SshKeyData : (F22_SshKey.cls F22_SshKeyData.cls).ReadsBack (sshkeySheet 0) (setToObj (F22_SshKey.info F22_SshKeyData.cls).op.defaults F22_SshKeyData.init) :=
  list_readsBack (o := F22_SshKeyData.strOut F22_SshKeyData.args) (sshkeySheet 0) (fun args n => post_weaken (F22_SshKey.parsed _ args n) fun _ h => h.mono (by decide)) (fun _ => rfl) (.inl rfl) (by decide +kernel)

theorem readsBack_sshkey : ∀ y ∈ commandMaps, ∀ c, y.2.lookup c!"sshkey" = some c → c.hasList { attrs := {} } = true → ∃ base, c.ReadsBack (sshkeySheet y.1) base := by
  unfold commandMaps
  exact (all_cons (fun c h hl => by cases h)
    (all_cons (fun c h hl => by cases h)
    (all_cons (fun c h hl => by cases h)
    (all_cons (fun c h hl => by cases h)
    (all_cons (fun c h hl => by cases h)
    (all_cons (fun c h hl => by cases h)
    (all_cons (fun c h hl => by cases h)
    (all_cons (fun c h hl => by cases h)
    (all_cons (fun c h hl => by cases h)
    (all_cons (fun c h hl => by cases h)
    (all_cons (fun c h hl => by cases h)
    (all_cons (fun c h hl => by cases h)
    (all_cons (fun c h hl => by cases h; exact ⟨_, readsBack_F22_SshKey_F22_SshKeyData⟩)
    (all_cons (fun c h hl => by cases h; exact ⟨_, readsBack_F22_SshKey_F22_SshKeyData⟩)
    (all_cons (fun c h hl => by cases h; exact ⟨_, readsBack_F22_SshKey_F22_SshKeyData⟩)
    (all_cons (fun c h hl => by cases h; exact ⟨_, readsBack_F22_SshKey_F22_SshKeyData⟩)
    (all_cons (fun c h hl => by cases h; exact ⟨_, readsBack_F22_SshKey_F22_SshKeyData⟩)
    (all_cons (fun c h hl => by cases h; exact ⟨_, readsBack_F22_SshKey_F22_SshKeyData⟩)
    (all_cons (fun c h hl => by cases h; exact ⟨_, readsBack_F22_SshKey_F22_SshKeyData⟩)
    (all_cons (fun c h hl => by cases h; exact ⟨_, readsBack_F22_SshKey_F22_SshKeyData⟩)
    (all_cons (fun c h hl => by cases h; exact ⟨_, readsBack_F22_SshKey_F22_SshKeyData⟩)
    (all_cons (fun c h hl => by cases h; exact ⟨_, readsBack_F22_SshKey_F22_SshKeyData⟩)
    (all_cons (fun c h hl => by cases h; exact ⟨_, readsBack_F22_SshKey_F22_SshKeyData⟩)
    (all_cons (fun c h hl => by cases h; exact ⟨_, readsBack_F22_SshKey_F22_SshKeyData⟩)
    (all_cons (fun c h hl => by cases h; exact ⟨_, readsBack_F22_SshKey_F22_SshKeyData⟩)
    (all_cons (fun c h hl => by cases h)
    (all_cons (fun c h hl => by cases h)
    (all_cons (fun c h hl => by cases h)
    (all_cons (fun c h hl => by cases h)
    (all_cons (fun c h hl => by cases h)
    (all_cons (fun c h hl => by cases h)
    (all_cons (fun c h hl => by cases h)
    (all_cons (fun c h hl => by cases h)
    (all_cons (fun c h hl => by cases h)
    (all_cons (fun c h hl => by cases h)
    (all_cons (fun c h hl => by cases h)
    (all_cons (fun c h hl => by cases h)
    (all_cons (fun c h hl => by cases h; exact ⟨_, readsBack_F22_SshKey_F22_SshKeyData⟩) (List.forall_mem_nil _)))))))))))))))))))))))))))))))))))))))

theorem F8_Device.parsed (k : Info) (args : List Str) (n : Nat) : M.Post n (F8_Device.parse k args) (ParsedBy k.op k.dc.init [c!"lineno", c!"moduleName"] n args) := by
  unfold F8_Device.parse
  parsed_steps
  all_goals parsed_close

theorem readsBack_F8_Device_F8_DeviceData : (F8_Device.cls F8_DeviceData.cls).ReadsBack (deviceSheet 0) (setToObj (F8_Device.info F8_DeviceData.cls).op.defaults F8_DeviceData.init) :=
  list_readsBack (o := F8_DeviceData.strOut) (deviceSheet 0) (fun args n => post_weaken (F8_Device.parsed _ args n) fun _ h => h.mono (by decide)) (fun _ => rfl) (.inl rfl) (by decide +kernel)

theorem readsBack_device : ∀ y ∈ commandMaps, ∀ c, y.2.lookup c!"device" = some c → c.hasList { attrs := {} } = true → ∃ base, c.ReadsBack (deviceSheet y.1) base := by
  unfold commandMaps
  exact (all_cons (fun c h hl => by cases h; exact ⟨_, readsBack_F8_Device_F8_DeviceData⟩)
    (all_cons (fun c h hl => by cases h; exact ⟨_, readsBack_F8_Device_F8_DeviceData⟩)
    (all_cons (fun c h hl => by cases h; exact ⟨_, readsBack_F8_Device_F8_DeviceData⟩)
    (all_cons (fun c h hl => by cases h; exact ⟨_, readsBack_F8_Device_F8_DeviceData⟩)
    (all_cons (fun c h hl => by cases h; exact ⟨_, readsBack_F8_Device_F8_DeviceData⟩)
    (all_cons (fun c h hl => by cases h; exact ⟨_, readsBack_F8_Device_F8_DeviceData⟩)
    (all_cons (fun c h hl => by cases h; exact ⟨_, readsBack_F8_Device_F8_DeviceData⟩)
    (all_cons (fun c h hl => by cases h; exact ⟨_, readsBack_F8_Device_F8_DeviceData⟩)
    (all_cons (fun c h hl => by cases h; exact ⟨_, readsBack_F8_Device_F8_DeviceData⟩)
    (all_cons (fun c h hl => by cases h; exact ⟨_, readsBack_F8_Device_F8_DeviceData⟩)
    (all_cons (fun c h hl => by cases h; exact ⟨_, readsBack_F8_Device_F8_DeviceData⟩)
    (all_cons (fun c h hl => by cases h; exact ⟨_, readsBack_F8_Device_F8_DeviceData⟩)
    (all_cons (fun c h hl => by cases h; exact ⟨_, readsBack_F8_Device_F8_DeviceData⟩)
    (all_cons (fun c h hl => by cases h; exact ⟨_, readsBack_F8_Device_F8_DeviceData⟩)
    (all_cons (fun c h hl => by cases h; exact absurd hl (by decide))
    (all_cons (fun c h hl => by cases h; exact absurd hl (by decide))
    (all_cons (fun c h hl => by cases h; exact absurd hl (by decide))
    (all_cons (fun c h hl => by cases h; exact absurd hl (by decide))
    (all_cons (fun c h hl => by cases h; exact absurd hl (by decide))
    (all_cons (fun c h hl => by cases h; exact absurd hl (by decide))
    (all_cons (fun c h hl => by cases h; exact absurd hl (by decide))
    (all_cons (fun c h hl => by cases h; exact absurd hl (by decide))
    (all_cons (fun c h hl => by cases h; exact absurd hl (by decide))
    (all_cons (fun c h hl => by cases h; exact absurd hl (by decide))
    (all_cons (fun c h hl => by cases h; exact absurd hl (by decide))
    (all_cons (fun c h hl => by cases h; exact absurd hl (by decide))
    (all_cons (fun c h hl => by cases h; exact ⟨_, readsBack_F8_Device_F8_DeviceData⟩)
    (all_cons (fun c h hl => by cases h; exact ⟨_, readsBack_F8_Device_F8_DeviceData⟩)
    (all_cons (fun c h hl => by cases h; exact absurd hl (by decide))
    (all_cons (fun c h hl => by cases h; exact absurd hl (by decide))
    (all_cons (fun c h hl => by cases h; exact absurd hl (by decide))
    (all_cons (fun c h hl => by cases h; exact absurd hl (by decide))
    (all_cons (fun c h hl => by cases h; exact absurd hl (by decide))
    (all_cons (fun c h hl => by cases h; exact absurd hl (by decide))
    (all_cons (fun c h hl => by cases h; exact absurd hl (by decide))
    (all_cons (fun c h hl => by cases h; exact ⟨_, readsBack_F8_Device_F8_DeviceData⟩)
    (all_cons (fun c h hl => by cases h; exact ⟨_, readsBack_F8_Device_F8_DeviceData⟩)
    (all_cons (fun c h hl => by cases h; exact absurd hl (by decide)) (List.forall_mem_nil _)))))))))))))))))))))))))))))))))))))))

theorem FC6_User.parsed (k : Info) (args : List Str) (n : Nat) : M.Post n (FC6_User.parse k args) (ParsedBy k.op k.dc.init [c!"lineno"] n args) := by
  unfold FC6_User.parse
  parsed_steps
  all_goals parsed_close

theorem readsBack_F8_User_F8_UserData : (F8_User.cls F8_UserData.cls).ReadsBack (userSheet 0) (setToObj (F8_User.info F8_UserData.cls).op.defaults F8_UserData.init) :=
  list_readsBack (o := FC6_UserData.strOut F8_UserData.args) (userSheet 0) (fun args n => post_weaken (FC6_User.parsed _ args n) fun _ h => h.mono (by decide)) (fun _ => rfl) (.inl rfl) (by decide +kernel)

theorem readsBack_F12_User_F12_UserData : (F12_User.cls F12_UserData.cls).ReadsBack (userSheet 0) (setToObj (F12_User.info F12_UserData.cls).op.defaults F12_UserData.init) :=
  list_readsBack (o := FC6_UserData.strOut F12_UserData.args) (userSheet 0) (fun args n => post_weaken (FC6_User.parsed _ args n) fun _ h => h.mono (by decide)) (fun _ => rfl) (.inl rfl) (by decide +kernel)

theorem readsBack_F19_User_F19_UserData : (F19_User.cls F19_UserData.cls).ReadsBack (userSheet 0) (setToObj (F19_User.info F19_UserData.cls).op.defaults F19_UserData.init) :=
  list_readsBack (o := FC6_UserData.strOut F19_UserData.args) (userSheet 0) (fun args n => post_weaken (FC6_User.parsed _ args n) fun _ h => h.mono (by decide)) (fun _ => rfl) (.inl rfl) (by decide +kernel)

theorem readsBack_F24_User_F19_UserData : (F24_User.cls F19_UserData.cls).ReadsBack (userSheet 0) (setToObj (F24_User.info F19_UserData.cls).op.defaults F19_UserData.init) :=
  list_readsBack (o := FC6_UserData.strOut F19_UserData.args) (userSheet 0) (fun args n => post_weaken (FC6_User.parsed _ args n) fun _ h => h.mono (by decide)) (fun _ => rfl) (.inl rfl) (by decide +kernel)

theorem readsBack_FC6_User_FC6_UserData : (FC6_User.cls FC6_UserData.cls).ReadsBack (userSheet 0) (setToObj (FC6_User.info FC6_UserData.cls).op.defaults FC6_UserData.init) :=
  list_readsBack (o := FC6_UserData.strOut FC6_UserData.args) (userSheet 0) (fun args n => post_weaken (FC6_User.parsed _ args n) fun _ h => h.mono (by decide)) (fun _ => rfl) (.inl rfl) (by decide +kernel)

theorem readsBack_user : ∀ y ∈ commandMaps, ∀ c, y.2.lookup c!"user" = some c → c.hasList { attrs := {} } = true → ∃ base, c.ReadsBack (userSheet y.1) base := by
  unfold commandMaps
  exact (all_cons (fun c h hl => by cases h; exact ⟨_, readsBack_F8_User_F8_UserData⟩)
    (all_cons (fun c h hl => by cases h; exact ⟨_, readsBack_F8_User_F8_UserData⟩)
    (all_cons (fun c h hl => by cases h; exact ⟨_, readsBack_F12_User_F12_UserData⟩)
    (all_cons (fun c h hl => by cases h; exact ⟨_, readsBack_F12_User_F12_UserData⟩)
    (all_cons (fun c h hl => by cases h; exact ⟨_, readsBack_F12_User_F12_UserData⟩)
    (all_cons (fun c h hl => by cases h; exact ⟨_, readsBack_F12_User_F12_UserData⟩)
    (all_cons (fun c h hl => by cases h; exact ⟨_, readsBack_F12_User_F12_UserData⟩)
    (all_cons (fun c h hl => by cases h; exact ⟨_, readsBack_F12_User_F12_UserData⟩)
    (all_cons (fun c h hl => by cases h; exact ⟨_, readsBack_F12_User_F12_UserData⟩)
    (all_cons (fun c h hl => by cases h; exact ⟨_, readsBack_F19_User_F19_UserData⟩)
    (all_cons (fun c h hl => by cases h; exact ⟨_, readsBack_F19_User_F19_UserData⟩)
    (all_cons (fun c h hl => by cases h; exact ⟨_, readsBack_F19_User_F19_UserData⟩)
    (all_cons (fun c h hl => by cases h; exact ⟨_, readsBack_F19_User_F19_UserData⟩)
    (all_cons (fun c h hl => by cases h; exact ⟨_, readsBack_F19_User_F19_UserData⟩)
    (all_cons (fun c h hl => by cases h; exact ⟨_, readsBack_F24_User_F19_UserData⟩)
    (all_cons (fun c h hl => by cases h; exact ⟨_, readsBack_F24_User_F19_UserData⟩)
    (all_cons (fun c h hl => by cases h; exact ⟨_, readsBack_F24_User_F19_UserData⟩)
    (all_cons (fun c h hl => by cases h; exact ⟨_, readsBack_F24_User_F19_UserData⟩)
    (all_cons (fun c h hl => by cases h; exact ⟨_, readsBack_F24_User_F19_UserData⟩)
    (all_cons (fun c h hl => by cases h; exact ⟨_, readsBack_F24_User_F19_UserData⟩)
    (all_cons (fun c h hl => by cases h; exact ⟨_, readsBack_F24_User_F19_UserData⟩)
    (all_cons (fun c h hl => by cases h; exact ⟨_, readsBack_F24_User_F19_UserData⟩)
    (all_cons (fun c h hl => by cases h; exact ⟨_, readsBack_F24_User_F19_UserData⟩)
    (all_cons (fun c h hl => by cases h; exact ⟨_, readsBack_F24_User_F19_UserData⟩)
    (all_cons (fun c h hl => by cases h; exact ⟨_, readsBack_F24_User_F19_UserData⟩)
    (all_cons (fun c h hl => by cases h; exact ⟨_, readsBack_FC6_User_FC6_UserData⟩)
    (all_cons (fun c h hl => by cases h; exact ⟨_, readsBack_F8_User_F8_UserData⟩)
    (all_cons (fun c h hl => by cases h; exact ⟨_, readsBack_F8_User_F8_UserData⟩)
    (all_cons (fun c h hl => by cases h)
    (all_cons (fun c h hl => by cases h)
    (all_cons (fun c h hl => by cases h)
    (all_cons (fun c h hl => by cases h; exact ⟨_, readsBack_FC6_User_FC6_UserData⟩)
    (all_cons (fun c h hl => by cases h)
    (all_cons (fun c h hl => by cases h)
    (all_cons (fun c h hl => by cases h; exact ⟨_, readsBack_FC6_User_FC6_UserData⟩)
    (all_cons (fun c h hl => by cases h; exact ⟨_, readsBack_F12_User_F12_UserData⟩)
    (all_cons (fun c h hl => by cases h; exact ⟨_, readsBack_F19_User_F19_UserData⟩)
    (all_cons (fun c h hl => by cases h; exact ⟨_, readsBack_F24_User_F19_UserData⟩) (List.forall_mem_nil _)))))))))))))))))))))))))))))))))))))))

theorem F12_Group.parsed (k : Info) (args : List Str) (n : Nat) : M.Post n (F12_Group.parse k args) (ParsedBy k.op k.dc.init [c!"lineno"] n args) := by
  unfold F12_Group.parse
  parsed_steps
  all_goals parsed_close

theorem readsBack_F12_Group_F12_GroupData : (F12_Group.cls F12_GroupData.cls).ReadsBack (groupSheet 0) (setToObj (F12_Group.info F12_GroupData.cls).op.defaults F12_GroupData.init) :=
  list_readsBack (o := F12_GroupData.strOut) (groupSheet 0) (fun args n => post_weaken (F12_Group.parsed _ args n) fun _ h => h.mono (by decide)) (fun _ => rfl) (.inl rfl) (by decide +kernel)

theorem readsBack_group : ∀ y ∈ commandMaps, ∀ c, y.2.lookup c!"group" = some c → c.hasList { attrs := {} } = true → ∃ base, c.ReadsBack (groupSheet y.1) base := by
  unfold commandMaps
  exact (all_cons (fun c h hl => by cases h)
    (all_cons (fun c h hl => by cases h)
    (all_cons (fun c h hl => by cases h; exact ⟨_, readsBack_F12_Group_F12_GroupData⟩)
    (all_cons (fun c h hl => by cases h; exact ⟨_, readsBack_F12_Group_F12_GroupData⟩)
    (all_cons (fun c h hl => by cases h; exact ⟨_, readsBack_F12_Group_F12_GroupData⟩)
    (all_cons (fun c h hl => by cases h; exact ⟨_, readsBack_F12_Group_F12_GroupData⟩)
    (all_cons (fun c h hl => by cases h; exact ⟨_, readsBack_F12_Group_F12_GroupData⟩)
    (all_cons (fun c h hl => by cases h; exact ⟨_, readsBack_F12_Group_F12_GroupData⟩)
    (all_cons (fun c h hl => by cases h; exact ⟨_, readsBack_F12_Group_F12_GroupData⟩)
    (all_cons (fun c h hl => by cases h; exact ⟨_, readsBack_F12_Group_F12_GroupData⟩)
    (all_cons (fun c h hl => by cases h; exact ⟨_, readsBack_F12_Group_F12_GroupData⟩)
    (all_cons (fun c h hl => by cases h; exact ⟨_, readsBack_F12_Group_F12_GroupData⟩)
    (all_cons (fun c h hl => by cases h; exact ⟨_, readsBack_F12_Group_F12_GroupData⟩)
    (all_cons (fun c h hl => by cases h; exact ⟨_, readsBack_F12_Group_F12_GroupData⟩)
    (all_cons (fun c h hl => by cases h; exact ⟨_, readsBack_F12_Group_F12_GroupData⟩)
    (all_cons (fun c h hl => by cases h; exact ⟨_, readsBack_F12_Group_F12_GroupData⟩)
    (all_cons (fun c h hl => by cases h; exact ⟨_, readsBack_F12_Group_F12_GroupData⟩)
    (all_cons (fun c h hl => by cases h; exact ⟨_, readsBack_F12_Group_F12_GroupData⟩)
    (all_cons (fun c h hl => by cases h; exact ⟨_, readsBack_F12_Group_F12_GroupData⟩)
    (all_cons (fun c h hl => by cases h; exact ⟨_, readsBack_F12_Group_F12_GroupData⟩)
    (all_cons (fun c h hl => by cases h; exact ⟨_, readsBack_F12_Group_F12_GroupData⟩)
    (all_cons (fun c h hl => by cases h; exact ⟨_, readsBack_F12_Group_F12_GroupData⟩)
    (all_cons (fun c h hl => by cases h; exact ⟨_, readsBack_F12_Group_F12_GroupData⟩)
    (all_cons (fun c h hl => by cases h; exact ⟨_, readsBack_F12_Group_F12_GroupData⟩)
    (all_cons (fun c h hl => by cases h; exact ⟨_, readsBack_F12_Group_F12_GroupData⟩)
    (all_cons (fun c h hl => by cases h)
    (all_cons (fun c h hl => by cases h)
    (all_cons (fun c h hl => by cases h)
    (all_cons (fun c h hl => by cases h)
    (all_cons (fun c h hl => by cases h)
    (all_cons (fun c h hl => by cases h)
    (all_cons (fun c h hl => by cases h)
    (all_cons (fun c h hl => by cases h)
    (all_cons (fun c h hl => by cases h)
    (all_cons (fun c h hl => by cases h)
    (all_cons (fun c h hl => by cases h; exact ⟨_, readsBack_F12_Group_F12_GroupData⟩)
    (all_cons (fun c h hl => by cases h; exact ⟨_, readsBack_F12_Group_F12_GroupData⟩)
    (all_cons (fun c h hl => by cases h; exact ⟨_, readsBack_F12_Group_F12_GroupData⟩) (List.forall_mem_nil _)))))))))))))))))))))))))))))))))))))))

theorem F12_Fcoe.parsed (k : Info) (args : List Str) (n : Nat) : M.Post n (F12_Fcoe.parse k args) (ParsedBy k.op k.dc.init [c!"lineno"] n args) := by
  unfold F12_Fcoe.parse
  parsed_steps
  all_goals parsed_close

theorem readsBack_F12_Fcoe_F12_FcoeData : (F12_Fcoe.cls F12_FcoeData.cls).ReadsBack (fcoeSheet 0) (setToObj (F12_Fcoe.info F12_FcoeData.cls).op.defaults F12_FcoeData.init) :=
  list_readsBack (o := F12_FcoeData.strOut F12_FcoeData.args) (fcoeSheet 0) (fun args n => post_weaken (F12_Fcoe.parsed _ args n) fun _ h => h.mono (by decide)) (fun _ => rfl) (.inl rfl) (by decide +kernel)

theorem readsBack_F13_Fcoe_F13_FcoeData : (F13_Fcoe.cls F13_FcoeData.cls).ReadsBack (fcoeSheet 0) (setToObj (F13_Fcoe.info F13_FcoeData.cls).op.defaults F13_FcoeData.init) :=
  list_readsBack (o := F12_FcoeData.strOut F13_FcoeData.args) (fcoeSheet 0) (fun args n => post_weaken (F12_Fcoe.parsed _ args n) fun _ h => h.mono (by decide)) (fun _ => rfl) (.inl rfl) (by decide +kernel)

theorem readsBack_F13_Fcoe_RHEL7_FcoeData : (F13_Fcoe.cls RHEL7_FcoeData.cls).ReadsBack (fcoeSheet 0) (setToObj (F13_Fcoe.info RHEL7_FcoeData.cls).op.defaults RHEL7_FcoeData.init) :=
  list_readsBack (o := F12_FcoeData.strOut RHEL7_FcoeData.args) (fcoeSheet 0) (fun args n => post_weaken (F12_Fcoe.parsed _ args n) fun _ h => h.mono (by decide)) (fun _ => rfl) (.inl rfl) (by decide +kernel)

theorem readsBack_F28_Fcoe_F28_FcoeData : (F28_Fcoe.cls F28_FcoeData.cls).ReadsBack (fcoeSheet 0) (setToObj (F28_Fcoe.info F28_FcoeData.cls).op.defaults F28_FcoeData.init) :=
  list_readsBack (o := F12_FcoeData.strOut F28_FcoeData.args) (fcoeSheet 0) (fun args n => post_weaken (F12_Fcoe.parsed _ args n) fun _ h => h.mono (by decide)) (fun _ => rfl) (.inl rfl) (by decide +kernel)

theorem readsBack_RHEL7_Fcoe_RHEL7_FcoeData : (RHEL7_Fcoe.cls RHEL7_FcoeData.cls).ReadsBack (fcoeSheet 0) (setToObj (RHEL7_Fcoe.info RHEL7_FcoeData.cls).op.defaults RHEL7_FcoeData.init) :=
  list_readsBack (o := F12_FcoeData.strOut RHEL7_FcoeData.args) (fcoeSheet 0) (fun args n => post_weaken (F12_Fcoe.parsed _ args n) fun _ h => h.mono (by decide)) (fun _ => rfl) (.inl rfl) (by decide +kernel)

theorem readsBack_RHEL8_Fcoe_RHEL8_FcoeData : (RHEL8_Fcoe.cls RHEL8_FcoeData.cls).ReadsBack (fcoeSheet 0) (setToObj (RHEL8_Fcoe.info RHEL8_FcoeData.cls).op.defaults RHEL8_FcoeData.init) :=
  list_readsBack (o := F12_FcoeData.strOut F28_FcoeData.args) (fcoeSheet 0) (fun args n => post_weaken (F12_Fcoe.parsed _ args n) fun _ h => h.mono (by decide)) (fun _ => rfl) (.inl rfl) (by decide +kernel)

theorem readsBack_fcoe : ∀ y ∈ commandMaps, ∀ c, y.2.lookup c!"fcoe" = some c → c.hasList { attrs := {} } = true → ∃ base, c.ReadsBack (fcoeSheet y.1) base := by
  unfold commandMaps
  exact (all_cons (fun c h hl => by cases h)
    (all_cons (fun c h hl => by cases h)
    (all_cons (fun c h hl => by cases h; exact ⟨_, readsBack_F12_Fcoe_F12_FcoeData⟩)
    (all_cons (fun c h hl => by cases h; exact ⟨_, readsBack_F13_Fcoe_F13_FcoeData⟩)
    (all_cons (fun c h hl => by cases h; exact ⟨_, readsBack_F13_Fcoe_F13_FcoeData⟩)
    (all_cons (fun c h hl => by cases h; exact ⟨_, readsBack_F13_Fcoe_F13_FcoeData⟩)
    (all_cons (fun c h hl => by cases h; exact ⟨_, readsBack_F13_Fcoe_F13_FcoeData⟩)
    (all_cons (fun c h hl => by cases h; exact ⟨_, readsBack_F13_Fcoe_F13_FcoeData⟩)
    (all_cons (fun c h hl => by cases h; exact ⟨_, readsBack_F13_Fcoe_RHEL7_FcoeData⟩)
    (all_cons (fun c h hl => by cases h; exact ⟨_, readsBack_F13_Fcoe_F13_FcoeData⟩)
    (all_cons (fun c h hl => by cases h; exact ⟨_, readsBack_F13_Fcoe_F13_FcoeData⟩)
    (all_cons (fun c h hl => by cases h; exact ⟨_, readsBack_F13_Fcoe_F13_FcoeData⟩)
    (all_cons (fun c h hl => by cases h; exact ⟨_, readsBack_F13_Fcoe_F13_FcoeData⟩)
    (all_cons (fun c h hl => by cases h; exact ⟨_, readsBack_F13_Fcoe_F13_FcoeData⟩)
    (all_cons (fun c h hl => by cases h; exact ⟨_, readsBack_F13_Fcoe_F13_FcoeData⟩)
    (all_cons (fun c h hl => by cases h; exact ⟨_, readsBack_F13_Fcoe_F13_FcoeData⟩)
    (all_cons (fun c h hl => by cases h; exact ⟨_, readsBack_F13_Fcoe_F13_FcoeData⟩)
    (all_cons (fun c h hl => by cases h; exact ⟨_, readsBack_F13_Fcoe_F13_FcoeData⟩)
    (all_cons (fun c h hl => by cases h; exact ⟨_, readsBack_F28_Fcoe_F28_FcoeData⟩)
    (all_cons (fun c h hl => by cases h; exact ⟨_, readsBack_F28_Fcoe_F28_FcoeData⟩)
    (all_cons (fun c h hl => by cases h; exact ⟨_, readsBack_F28_Fcoe_F28_FcoeData⟩)
    (all_cons (fun c h hl => by cases h; exact ⟨_, readsBack_F28_Fcoe_F28_FcoeData⟩)
    (all_cons (fun c h hl => by cases h; exact ⟨_, readsBack_F28_Fcoe_F28_FcoeData⟩)
    (all_cons (fun c h hl => by cases h; exact ⟨_, readsBack_F28_Fcoe_F28_FcoeData⟩)
    (all_cons (fun c h hl => by cases h; exact ⟨_, readsBack_F28_Fcoe_F28_FcoeData⟩)
    (all_cons (fun c h hl => by cases h)
    (all_cons (fun c h hl => by cases h)
    (all_cons (fun c h hl => by cases h)
    (all_cons (fun c h hl => by cases h)
    (all_cons (fun c h hl => by cases h)
    (all_cons (fun c h hl => by cases h)
    (all_cons (fun c h hl => by cases h)
    (all_cons (fun c h hl => by cases h)
    (all_cons (fun c h hl => by cases h)
    (all_cons (fun c h hl => by cases h)
    (all_cons (fun c h hl => by cases h; exact ⟨_, readsBack_F13_Fcoe_F13_FcoeData⟩)
    (all_cons (fun c h hl => by cases h; exact ⟨_, readsBack_RHEL7_Fcoe_RHEL7_FcoeData⟩)
    (all_cons (fun c h hl => by cases h; exact ⟨_, readsBack_RHEL8_Fcoe_RHEL8_FcoeData⟩) (List.forall_mem_nil _)))))))))))))))))))))))))))))))))))))))

theorem FC6_Iscsi.parsed (k : Info) (args : List Str) (n : Nat) : M.Post n (FC6_Iscsi.parse k args) (ParsedBy k.op k.dc.init [c!"lineno"] n args) := by
  unfold FC6_Iscsi.parse
  parsed_steps
  all_goals parsed_close

theorem readsBack_F10_Iscsi_F10_IscsiData : (F10_Iscsi.cls F10_IscsiData.cls).ReadsBack (iscsiSheet 0) (setToObj (F10_Iscsi.info F10_IscsiData.cls).op.defaults F10_IscsiData.init) :=
  list_readsBack (o := FC6_IscsiData.strOut F10_IscsiData.args) (iscsiSheet 0) (fun args n => post_weaken (FC6_Iscsi.parsed _ args n) fun _ h => h.mono (by decide)) (fun _ => rfl) (.inl rfl) (by decide +kernel)

theorem readsBack_F17_Iscsi_F17_IscsiData : (F17_Iscsi.cls F17_IscsiData.cls).ReadsBack (iscsiSheet 0) (setToObj (F17_Iscsi.info F17_IscsiData.cls).op.defaults F17_IscsiData.init) :=
  list_readsBack (o := FC6_IscsiData.strOut RHEL6_IscsiData.args) (iscsiSheet 0) (fun args n => post_weaken (FC6_Iscsi.parsed _ args n) fun _ h => h.mono (by decide)) (fun _ => rfl) (.inl rfl) (by decide +kernel)

theorem readsBack_FC6_Iscsi_FC6_IscsiData : (FC6_Iscsi.cls FC6_IscsiData.cls).ReadsBack (iscsiSheet 0) (setToObj (FC6_Iscsi.info FC6_IscsiData.cls).op.defaults FC6_IscsiData.init) :=
  list_readsBack (o := FC6_IscsiData.strOut FC6_IscsiData.args) (iscsiSheet 0) (fun args n => post_weaken (FC6_Iscsi.parsed _ args n) fun _ h => h.mono (by decide)) (fun _ => rfl) (.inl rfl) (by decide +kernel)

theorem readsBack_RHEL6_Iscsi_RHEL6_IscsiData : (RHEL6_Iscsi.cls RHEL6_IscsiData.cls).ReadsBack (iscsiSheet 0) (setToObj (RHEL6_Iscsi.info RHEL6_IscsiData.cls).op.defaults RHEL6_IscsiData.init) :=
  list_readsBack (o := FC6_IscsiData.strOut RHEL6_IscsiData.args) (iscsiSheet 0) (fun args n => post_weaken (FC6_Iscsi.parsed _ args n) fun _ h => h.mono (by decide)) (fun _ => rfl) (.inl rfl) (by decide +kernel)

theorem readsBack_iscsi : ∀ y ∈ commandMaps, ∀ c, y.2.lookup c!"iscsi" = some c → c.hasList { attrs := {} } = true → ∃ base, c.ReadsBack (iscsiSheet y.1) base := by
  unfold commandMaps
  exact (all_cons (fun c h hl => by cases h; exact ⟨_, readsBack_F10_Iscsi_F10_IscsiData⟩)
    (all_cons (fun c h hl => by cases h; exact ⟨_, readsBack_F10_Iscsi_F10_IscsiData⟩)
    (all_cons (fun c h hl => by cases h; exact ⟨_, readsBack_F10_Iscsi_F10_IscsiData⟩)
    (all_cons (fun c h hl => by cases h; exact ⟨_, readsBack_F10_Iscsi_F10_IscsiData⟩)
    (all_cons (fun c h hl => by cases h; exact ⟨_, readsBack_F10_Iscsi_F10_IscsiData⟩)
    (all_cons (fun c h hl => by cases h; exact ⟨_, readsBack_F10_Iscsi_F10_IscsiData⟩)
    (all_cons (fun c h hl => by cases h; exact ⟨_, readsBack_F10_Iscsi_F10_IscsiData⟩)
    (all_cons (fun c h hl => by cases h; exact ⟨_, readsBack_F17_Iscsi_F17_IscsiData⟩)
    (all_cons (fun c h hl => by cases h; exact ⟨_, readsBack_F17_Iscsi_F17_IscsiData⟩)
    (all_cons (fun c h hl => by cases h; exact ⟨_, readsBack_F17_Iscsi_F17_IscsiData⟩)
    (all_cons (fun c h hl => by cases h; exact ⟨_, readsBack_F17_Iscsi_F17_IscsiData⟩)
    (all_cons (fun c h hl => by cases h; exact ⟨_, readsBack_F17_Iscsi_F17_IscsiData⟩)
    (all_cons (fun c h hl => by cases h; exact ⟨_, readsBack_F17_Iscsi_F17_IscsiData⟩)
    (all_cons (fun c h hl => by cases h; exact ⟨_, readsBack_F17_Iscsi_F17_IscsiData⟩)
    (all_cons (fun c h hl => by cases h; exact ⟨_, readsBack_F17_Iscsi_F17_IscsiData⟩)
    (all_cons (fun c h hl => by cases h; exact ⟨_, readsBack_F17_Iscsi_F17_IscsiData⟩)
    (all_cons (fun c h hl => by cases h; exact ⟨_, readsBack_F17_Iscsi_F17_IscsiData⟩)
    (all_cons (fun c h hl => by cases h; exact ⟨_, readsBack_F17_Iscsi_F17_IscsiData⟩)
    (all_cons (fun c h hl => by cases h; exact ⟨_, readsBack_F17_Iscsi_F17_IscsiData⟩)
    (all_cons (fun c h hl => by cases h; exact ⟨_, readsBack_F17_Iscsi_F17_IscsiData⟩)
    (all_cons (fun c h hl => by cases h; exact ⟨_, readsBack_F17_Iscsi_F17_IscsiData⟩)
    (all_cons (fun c h hl => by cases h; exact ⟨_, readsBack_F17_Iscsi_F17_IscsiData⟩)
    (all_cons (fun c h hl => by cases h; exact ⟨_, readsBack_F17_Iscsi_F17_IscsiData⟩)
    (all_cons (fun c h hl => by cases h; exact ⟨_, readsBack_F17_Iscsi_F17_IscsiData⟩)
    (all_cons (fun c h hl => by cases h; exact ⟨_, readsBack_F17_Iscsi_F17_IscsiData⟩)
    (all_cons (fun c h hl => by cases h; exact ⟨_, readsBack_FC6_Iscsi_FC6_IscsiData⟩)
    (all_cons (fun c h hl => by cases h; exact ⟨_, readsBack_FC6_Iscsi_FC6_IscsiData⟩)
    (all_cons (fun c h hl => by cases h; exact ⟨_, readsBack_FC6_Iscsi_FC6_IscsiData⟩)
    (all_cons (fun c h hl => by cases h)
    (all_cons (fun c h hl => by cases h)
    (all_cons (fun c h hl => by cases h)
    (all_cons (fun c h hl => by cases h; exact ⟨_, readsBack_FC6_Iscsi_FC6_IscsiData⟩)
    (all_cons (fun c h hl => by cases h)
    (all_cons (fun c h hl => by cases h)
    (all_cons (fun c h hl => by cases h; exact ⟨_, readsBack_FC6_Iscsi_FC6_IscsiData⟩)
    (all_cons (fun c h hl => by cases h; exact ⟨_, readsBack_RHEL6_Iscsi_RHEL6_IscsiData⟩)
    (all_cons (fun c h hl => by cases h; exact ⟨_, readsBack_F17_Iscsi_F17_IscsiData⟩)
    (all_cons (fun c h hl => by cases h; exact ⟨_, readsBack_F17_Iscsi_F17_IscsiData⟩) (List.forall_mem_nil _)))))))))))))))))))))))))))))))))))))))

theorem FC3_ZFCP.parsed (k : Info) (args : List Str) (n : Nat) : M.Post n (FC3_ZFCP.parse k args) (ParsedBy k.op k.dc.init [c!"lineno"] n args) := by
  unfold FC3_ZFCP.parse
  parsed_steps
  all_goals parsed_close

theorem readsBack_FC3_ZFCP_FC3_ZFCPData : (FC3_ZFCP.cls FC3_ZFCPData.cls).ReadsBack (zfcpSheet 0) (setToObj (FC3_ZFCP.info FC3_ZFCPData.cls).op.defaults FC3_ZFCPData.init) :=
  list_readsBack (o := FC3_ZFCPData.strOut) (zfcpSheet 0) (fun args n => post_weaken (FC3_ZFCP.parsed _ args n) fun _ h => h.mono (by decide)) (fun _ => rfl) (.inl rfl) (by decide +kernel)

theorem readsBack_F12_ZFCP_F12_ZFCPData : (F12_ZFCP.cls F12_ZFCPData.cls).ReadsBack (zfcpSheet 0) (setToObj (F12_ZFCP.info F12_ZFCPData.cls).op.defaults F12_ZFCPData.init) :=
  list_readsBack (o := FC3_ZFCPData.strOut) (zfcpSheet 0) (fun args n => post_weaken (FC3_ZFCP.parsed _ args n) fun _ h => h.mono (by decide)) (fun _ => rfl) (.inl rfl) (by decide +kernel)

theorem readsBack_F14_ZFCP_F14_ZFCPData : (F14_ZFCP.cls F14_ZFCPData.cls).ReadsBack (zfcpSheet 0) (setToObj (F14_ZFCP.info F14_ZFCPData.cls).op.defaults F14_ZFCPData.init) :=
  list_readsBack (o := FC3_ZFCPData.strOut) (zfcpSheet 0) (fun args n => post_weaken (FC3_ZFCP.parsed _ args n) fun _ h => h.mono (by decide)) (fun _ => rfl) (.inl rfl) (by decide +kernel)

theorem readsBack_zfcp : ∀ y ∈ commandMaps, ∀ c, y.2.lookup c!"zfcp" = some c → c.hasList { attrs := {} } = true → ∃ base, c.ReadsBack (zfcpSheet y.1) base := by
  unfold commandMaps
  exact (all_cons (fun c h hl => by cases h; exact ⟨_, readsBack_FC3_ZFCP_FC3_ZFCPData⟩)
    (all_cons (fun c h hl => by cases h; exact ⟨_, readsBack_FC3_ZFCP_FC3_ZFCPData⟩)
    (all_cons (fun c h hl => by cases h; exact ⟨_, readsBack_F12_ZFCP_F12_ZFCPData⟩)
    (all_cons (fun c h hl => by cases h; exact ⟨_, readsBack_F12_ZFCP_F12_ZFCPData⟩)
    (all_cons (fun c h hl => by cases h; exact ⟨_, readsBack_F14_ZFCP_F14_ZFCPData⟩)
    (all_cons (fun c h hl => by cases h; exact ⟨_, readsBack_F14_ZFCP_F14_ZFCPData⟩)
    (all_cons (fun c h hl => by cases h; exact ⟨_, readsBack_F14_ZFCP_F14_ZFCPData⟩)
    (all_cons (fun c h hl => by cases h; exact ⟨_, readsBack_F14_ZFCP_F14_ZFCPData⟩)
    (all_cons (fun c h hl => by cases h; exact ⟨_, readsBack_F14_ZFCP_F14_ZFCPData⟩)
    (all_cons (fun c h hl => by cases h; exact ⟨_, readsBack_F14_ZFCP_F14_ZFCPData⟩)
    (all_cons (fun c h hl => by cases h; exact ⟨_, readsBack_F14_ZFCP_F14_ZFCPData⟩)
    (all_cons (fun c h hl => by cases h; exact ⟨_, readsBack_F14_ZFCP_F14_ZFCPData⟩)
    (all_cons (fun c h hl => by cases h; exact ⟨_, readsBack_F14_ZFCP_F14_ZFCPData⟩)
    (all_cons (fun c h hl => by cases h; exact ⟨_, readsBack_F14_ZFCP_F14_ZFCPData⟩)
    (all_cons (fun c h hl => by cases h; exact ⟨_, readsBack_F14_ZFCP_F14_ZFCPData⟩)
    (all_cons (fun c h hl => by cases h; exact ⟨_, readsBack_F14_ZFCP_F14_ZFCPData⟩)
    (all_cons (fun c h hl => by cases h; exact ⟨_, readsBack_F14_ZFCP_F14_ZFCPData⟩)
    (all_cons (fun c h hl => by cases h; exact ⟨_, readsBack_F14_ZFCP_F14_ZFCPData⟩)
    (all_cons (fun c h hl => by cases h; exact ⟨_, readsBack_F14_ZFCP_F14_ZFCPData⟩)
    (all_cons (fun c h hl => by cases h; exact ⟨_, readsBack_F14_ZFCP_F14_ZFCPData⟩)
    (all_cons (fun c h hl => by cases h; exact ⟨_, readsBack_F14_ZFCP_F14_ZFCPData⟩)
    (all_cons (fun c h hl => by cases h; exact ⟨_, readsBack_F14_ZFCP_F14_ZFCPData⟩)
    (all_cons (fun c h hl => by cases h; exact ⟨_, readsBack_F14_ZFCP_F14_ZFCPData⟩)
    (all_cons (fun c h hl => by cases h; exact ⟨_, readsBack_F14_ZFCP_F14_ZFCPData⟩)
    (all_cons (fun c h hl => by cases h; exact ⟨_, readsBack_F14_ZFCP_F14_ZFCPData⟩)
    (all_cons (fun c h hl => by cases h; exact ⟨_, readsBack_FC3_ZFCP_FC3_ZFCPData⟩)
    (all_cons (fun c h hl => by cases h; exact ⟨_, readsBack_FC3_ZFCP_FC3_ZFCPData⟩)
    (all_cons (fun c h hl => by cases h; exact ⟨_, readsBack_FC3_ZFCP_FC3_ZFCPData⟩)
    (all_cons (fun c h hl => by cases h; exact ⟨_, readsBack_FC3_ZFCP_FC3_ZFCPData⟩)
    (all_cons (fun c h hl => by cases h; exact ⟨_, readsBack_FC3_ZFCP_FC3_ZFCPData⟩)
    (all_cons (fun c h hl => by cases h; exact ⟨_, readsBack_FC3_ZFCP_FC3_ZFCPData⟩)
    (all_cons (fun c h hl => by cases h; exact ⟨_, readsBack_FC3_ZFCP_FC3_ZFCPData⟩)
    (all_cons (fun c h hl => by cases h)
    (all_cons (fun c h hl => by cases h; exact ⟨_, readsBack_FC3_ZFCP_FC3_ZFCPData⟩)
    (all_cons (fun c h hl => by cases h; exact ⟨_, readsBack_FC3_ZFCP_FC3_ZFCPData⟩)
    (all_cons (fun c h hl => by cases h; exact ⟨_, readsBack_F12_ZFCP_F12_ZFCPData⟩)
    (all_cons (fun c h hl => by cases h; exact ⟨_, readsBack_F14_ZFCP_F14_ZFCPData⟩)
    (all_cons (fun c h hl => by cases h; exact ⟨_, readsBack_F14_ZFCP_F14_ZFCPData⟩) (List.forall_mem_nil _)))))))))))))))))))))))))))))))))))))))

theorem F29_Module.parsed (k : Info) (args : List Str) (n : Nat) : M.Post n (F29_Module.parse k args) (ParsedBy k.op k.dc.init [c!"lineno"] n args) := by
  unfold F29_Module.parse
  parsed_steps
  all_goals parsed_close

theorem readsBack_F29_Module_F29_ModuleData : (F29_Module.cls F29_ModuleData.cls).ReadsBack (moduleSheet 0) (setToObj (F29_Module.info F29_ModuleData.cls).op.defaults F29_ModuleData.init) :=
  list_readsBack (o := F29_ModuleData.strOut F29_ModuleData.args) (moduleSheet 0) (fun args n => post_weaken (F29_Module.parsed _ args n) fun _ h => h.mono (by decide)) (fun _ => rfl) (.inl rfl) (by decide +kernel)

theorem readsBack_F31_Module_F31_ModuleData : (F31_Module.cls F31_ModuleData.cls).ReadsBack (moduleSheet 0) (setToObj (F31_Module.info F31_ModuleData.cls).op.defaults F31_ModuleData.init) :=
  list_readsBack (o := F29_ModuleData.strOut RHEL8_ModuleData.args) (moduleSheet 0) (fun args n => post_weaken (F29_Module.parsed _ args n) fun _ h => h.mono (by decide)) (fun _ => rfl) (.inl rfl) (by decide +kernel)

theorem readsBack_RHEL8_Module_RHEL8_ModuleData : (RHEL8_Module.cls RHEL8_ModuleData.cls).ReadsBack (moduleSheet 0) (setToObj (RHEL8_Module.info RHEL8_ModuleData.cls).op.defaults RHEL8_ModuleData.init) :=
  list_readsBack (o := F29_ModuleData.strOut RHEL8_ModuleData.args) (moduleSheet 0) (fun args n => post_weaken (F29_Module.parsed _ args n) fun _ h => h.mono (by decide)) (fun _ => rfl) (.inl rfl) (by decide +kernel)

theorem readsBack_module : ∀ y ∈ commandMaps, ∀ c, y.2.lookup c!"module" = some c → c.hasList { attrs := {} } = true → ∃ base, c.ReadsBack (moduleSheet y.1) base := by
  unfold commandMaps
  exact (all_cons (fun c h hl => by cases h)
    (all_cons (fun c h hl => by cases h)
    (all_cons (fun c h hl => by cases h)
    (all_cons (fun c h hl => by cases h)
    (all_cons (fun c h hl => by cases h)
    (all_cons (fun c h hl => by cases h)
    (all_cons (fun c h hl => by cases h)
    (all_cons (fun c h hl => by cases h)
    (all_cons (fun c h hl => by cases h)
    (all_cons (fun c h hl => by cases h)
    (all_cons (fun c h hl => by cases h)
    (all_cons (fun c h hl => by cases h)
    (all_cons (fun c h hl => by cases h)
    (all_cons (fun c h hl => by cases h)
    (all_cons (fun c h hl => by cases h)
    (all_cons (fun c h hl => by cases h)
    (all_cons (fun c h hl => by cases h)
    (all_cons (fun c h hl => by cases h)
    (all_cons (fun c h hl => by cases h)
    (all_cons (fun c h hl => by cases h; exact ⟨_, readsBack_F29_Module_F29_ModuleData⟩)
    (all_cons (fun c h hl => by cases h; exact ⟨_, readsBack_F29_Module_F29_ModuleData⟩)
    (all_cons (fun c h hl => by cases h; exact ⟨_, readsBack_F31_Module_F31_ModuleData⟩)
    (all_cons (fun c h hl => by cases h; exact ⟨_, readsBack_F31_Module_F31_ModuleData⟩)
    (all_cons (fun c h hl => by cases h; exact ⟨_, readsBack_F31_Module_F31_ModuleData⟩)
    (all_cons (fun c h hl => by cases h; exact ⟨_, readsBack_F31_Module_F31_ModuleData⟩)
    (all_cons (fun c h hl => by cases h)
    (all_cons (fun c h hl => by cases h)
    (all_cons (fun c h hl => by cases h)
    (all_cons (fun c h hl => by cases h)
    (all_cons (fun c h hl => by cases h)
    (all_cons (fun c h hl => by cases h)
    (all_cons (fun c h hl => by cases h)
    (all_cons (fun c h hl => by cases h)
    (all_cons (fun c h hl => by cases h)
    (all_cons (fun c h hl => by cases h)
    (all_cons (fun c h hl => by cases h)
    (all_cons (fun c h hl => by cases h)
    (all_cons (fun c h hl => by cases h; exact ⟨_, readsBack_RHEL8_Module_RHEL8_ModuleData⟩) (List.forall_mem_nil _)))))))))))))))))))))))))))))))))))))))

theorem F33_Timesource.parsed (k : Info) (args : List Str) (n : Nat) : M.Post n (F33_Timesource.parse k args) (ParsedBy k.op k.dc.init [c!"lineno"] n args) := by
  unfold F33_Timesource.parse
  parsed_steps
  all_goals parsed_close

theorem readsBack_F33_Timesource_F33_TimesourceData : (F33_Timesource.cls F33_TimesourceData.cls).ReadsBack (timesourceSheet 0) (setToObj (F33_Timesource.info F33_TimesourceData.cls).op.defaults F33_TimesourceData.init) :=
  list_readsBack (o := F33_TimesourceData.strOut F33_TimesourceData.args) (timesourceSheet 0) (fun args n => post_weaken (F33_Timesource.parsed _ args n) fun _ h => h.mono (by decide)) (fun _ => rfl) (.inl rfl) (by decide +kernel)

theorem readsBack_timesource : ∀ y ∈ commandMaps, ∀ c, y.2.lookup c!"timesource" = some c → c.hasList { attrs := {} } = true → ∃ base, c.ReadsBack (timesourceSheet y.1) base := by
  unfold commandMaps
  exact (all_cons (fun c h hl => by cases h)
    (all_cons (fun c h hl => by cases h)
    (all_cons (fun c h hl => by cases h)
    (all_cons (fun c h hl => by cases h)
    (all_cons (fun c h hl => by cases h)
    (all_cons (fun c h hl => by cases h)
    (all_cons (fun c h hl => by cases h)
    (all_cons (fun c h hl => by cases h)
    (all_cons (fun c h hl => by cases h)
    (all_cons (fun c h hl => by cases h)
    (all_cons (fun c h hl => by cases h)
    (all_cons (fun c h hl => by cases h)
    (all_cons (fun c h hl => by cases h)
    (all_cons (fun c h hl => by cases h)
    (all_cons (fun c h hl => by cases h)
    (all_cons (fun c h hl => by cases h)
    (all_cons (fun c h hl => by cases h)
    (all_cons (fun c h hl => by cases h)
    (all_cons (fun c h hl => by cases h)
    (all_cons (fun c h hl => by cases h)
    (all_cons (fun c h hl => by cases h)
    (all_cons (fun c h hl => by cases h)
    (all_cons (fun c h hl => by cases h)
    (all_cons (fun c h hl => by cases h; exact ⟨_, readsBack_F33_Timesource_F33_TimesourceData⟩)
    (all_cons (fun c h hl => by cases h; exact ⟨_, readsBack_F33_Timesource_F33_TimesourceData⟩)
    (all_cons (fun c h hl => by cases h)
    (all_cons (fun c h hl => by cases h)
    (all_cons (fun c h hl => by cases h)
    (all_cons (fun c h hl => by cases h)
    (all_cons (fun c h hl => by cases h)
    (all_cons (fun c h hl => by cases h)
    (all_cons (fun c h hl => by cases h)
    (all_cons (fun c h hl => by cases h)
    (all_cons (fun c h hl => by cases h)
    (all_cons (fun c h hl => by cases h)
    (all_cons (fun c h hl => by cases h)
    (all_cons (fun c h hl => by cases h)
    (all_cons (fun c h hl => by cases h) (List.forall_mem_nil _)))))))))))))))))))))))))))))))))))))))

end Ks.Cmd
