import Verif.Commands.Sheets
import Verif.Commands.RuleLogic2
import Verif.Commands.Maps
/-!
# Commands with data lists read their text back

Written by `scripts/gen_readback.py`.
-/
namespace Ks.Cmd

set_option linter.unusedVariables false

theorem FC3_LogVol.parsed (k : Info) (args : List Str) (n : Nat) : M.Post n (FC3_LogVol.parse k args) (ParsedBy k.op k.dc.init [c!"lineno", c!"mountpoint", c!"preexist"] n args) := by
  unfold FC3_LogVol.parse
  parsed_steps
  all_goals parsed_close

theorem readsBack_F9_LogVol_F9_LogVolData_lost : (F9_LogVol.cls F9_LogVolData.cls).ReadsBack (logvolSheetOf true) (setToObj (F9_LogVol.info F9_LogVolData.cls).op.defaults F9_LogVolData.init) :=
  list_readsBack (o := FC3_LogVolData.strOut F9_LogVolData.args) (logvolSheetOf true) (fun args n => post_weaken (FC3_LogVol.parsed _ args n) fun _ h => h.mono (by decide)) (fun _ => rfl) (.inl rfl) (by decide +kernel)

theorem readsBack_F12_LogVol_F12_LogVolData_lost : (F12_LogVol.cls F12_LogVolData.cls).ReadsBack (logvolSheetOf true) (setToObj (F12_LogVol.info F12_LogVolData.cls).op.defaults F12_LogVolData.init) :=
  list_readsBack (o := FC3_LogVolData.strOut F12_LogVolData.args) (logvolSheetOf true) (fun args n => post_weaken (FC3_LogVol.parsed _ args n) fun _ h => h.mono (by decide)) (fun _ => rfl) (.inl rfl) (by decide +kernel)

theorem readsBack_F14_LogVol_F14_LogVolData : (F14_LogVol.cls F14_LogVolData.cls).ReadsBack (logvolSheetOf false) (setToObj (F14_LogVol.info F14_LogVolData.cls).op.defaults F14_LogVolData.init) :=
  list_readsBack (o := FC3_LogVolData.strOut F12_LogVolData.args) (logvolSheetOf false) (fun args n => post_weaken (FC3_LogVol.parsed _ args n) fun _ h => h.mono (by decide)) (fun _ => rfl) (.inl rfl) (by decide +kernel)

theorem readsBack_F15_LogVol_F15_LogVolData : (F15_LogVol.cls F15_LogVolData.cls).ReadsBack (logvolSheetOf false) (setToObj (F15_LogVol.info F15_LogVolData.cls).op.defaults F15_LogVolData.init) :=
  list_readsBack (o := FC3_LogVolData.strOut F15_LogVolData.args) (logvolSheetOf false) (fun args n => post_weaken (FC3_LogVol.parsed _ args n) fun _ h => h.mono (by decide)) (fun _ => rfl) (.inl rfl) (by decide +kernel)

theorem readsBack_F15_LogVol_F17_LogVolData : (F15_LogVol.cls F17_LogVolData.cls).ReadsBack (logvolSheetOf false) (setToObj (F15_LogVol.info F17_LogVolData.cls).op.defaults F17_LogVolData.init) :=
  list_readsBack (o := FC3_LogVolData.strOut F17_LogVolData.args) (logvolSheetOf false) (fun args n => post_weaken (FC3_LogVol.parsed _ args n) fun _ h => h.mono (by decide)) (fun _ => rfl) (.inl rfl) (by decide +kernel)

theorem F17_LogVol.parsed (k : Info) (args : List Str) (n : Nat) : M.Post n (F17_LogVol.parse k args) (ParsedBy k.op k.dc.init [c!"lineno", c!"mountpoint", c!"preexist"] n args) := by
  unfold F17_LogVol.parse
  repeat' (first | rule_when | (with_reducible apply FC3_LogVol.parsed) | (with_reducible apply post_condT) | (with_reducible apply post_pure) | post_step | (intro _) | extract_lets)
  all_goals parsed_close

theorem readsBack_F17_LogVol_F17_LogVolData : (F17_LogVol.cls F17_LogVolData.cls).ReadsBack (logvolSheetOf false) (setToObj (F17_LogVol.info F17_LogVolData.cls).op.defaults F17_LogVolData.init) :=
  list_readsBack (o := FC3_LogVolData.strOut F17_LogVolData.args) (logvolSheetOf false) (fun args n => post_weaken (F17_LogVol.parsed _ args n) fun _ h => h.mono (by decide)) (fun _ => rfl) (.inl rfl) (by decide +kernel)

theorem readsBack_F18_LogVol_F18_LogVolData : (F18_LogVol.cls F18_LogVolData.cls).ReadsBack (logvolSheetOf false) (setToObj (F18_LogVol.info F18_LogVolData.cls).op.defaults F18_LogVolData.init) :=
  list_readsBack (o := FC3_LogVolData.strOut F18_LogVolData.args) (logvolSheetOf false) (fun args n => post_weaken (F17_LogVol.parsed _ args n) fun _ h => h.mono (by decide)) (fun _ => rfl) (.inl rfl) (by decide +kernel)

theorem readsBack_F18_LogVol_F20_LogVolData : (F18_LogVol.cls F20_LogVolData.cls).ReadsBack (logvolSheetOf false) (setToObj (F18_LogVol.info F20_LogVolData.cls).op.defaults F20_LogVolData.init) :=
  list_readsBack (o := FC3_LogVolData.strOut F20_LogVolData.args) (logvolSheetOf false) (fun args n => post_weaken (F17_LogVol.parsed _ args n) fun _ h => h.mono (by decide)) (fun _ => rfl) (.inl rfl) (by decide +kernel)

theorem F20_LogVol.parsed (k : Info) (args : List Str) (n : Nat) : M.Post n (F20_LogVol.parse k args) (ParsedBy k.op k.dc.init [c!"lineno", c!"mountpoint", c!"preexist"] n args) := by
  unfold F20_LogVol.parse
  repeat' (first | rule_when | (with_reducible apply F17_LogVol.parsed) | (with_reducible apply post_condT) | (with_reducible apply post_pure) | post_step | (intro _) | extract_lets)
  all_goals parsed_close

theorem readsBack_F20_LogVol_F20_LogVolData : (F20_LogVol.cls F20_LogVolData.cls).ReadsBack (logvolSheetOf false) (setToObj (F20_LogVol.info F20_LogVolData.cls).op.defaults F20_LogVolData.init) :=
  list_readsBack (o := FC3_LogVolData.strOut F20_LogVolData.args) (logvolSheetOf false) (fun args n => post_weaken (F20_LogVol.parsed _ args n) fun _ h => h.mono (by decide)) (fun _ => rfl) (.inl rfl) (by decide +kernel)

theorem F21_LogVol.parsed (k : Info) (args : List Str) (n : Nat) : M.Post n (F21_LogVol.parse k args) (ParsedBy k.op k.dc.init [c!"lineno", c!"mountpoint", c!"preexist"] n args) := by
  unfold F21_LogVol.parse
  repeat' (first | rule_when | (with_reducible apply F20_LogVol.parsed) | (with_reducible apply post_condT) | (with_reducible apply post_pure) | post_step | (intro _) | extract_lets)
  all_goals parsed_close

theorem readsBack_F21_LogVol_F21_LogVolData : (F21_LogVol.cls F21_LogVolData.cls).ReadsBack (logvolSheetOf false) (setToObj (F21_LogVol.info F21_LogVolData.cls).op.defaults F21_LogVolData.init) :=
  list_readsBack (o := FC3_LogVolData.strOut F21_LogVolData.args) (logvolSheetOf false) (fun args n => post_weaken (F21_LogVol.parsed _ args n) fun _ h => h.mono (by decide)) (fun _ => rfl) (.inl rfl) (by decide +kernel)

theorem F23_LogVol.parsed (k : Info) (args : List Str) (n : Nat) : M.Post n (F23_LogVol.parse k args) (ParsedBy k.op k.dc.init [c!"lineno", c!"mountpoint", c!"preexist"] n args) := by
  unfold F23_LogVol.parse
  repeat' (first | rule_when | (with_reducible apply F21_LogVol.parsed) | (with_reducible apply post_condT) | (with_reducible apply post_pure) | post_step | (intro _) | extract_lets)
  all_goals parsed_close

theorem readsBack_F23_LogVol_F23_LogVolData : (F23_LogVol.cls F23_LogVolData.cls).ReadsBack (logvolSheetOf false) (setToObj (F23_LogVol.info F23_LogVolData.cls).op.defaults F23_LogVolData.init) :=
  list_readsBack (o := FC3_LogVolData.strOut F23_LogVolData.args) (logvolSheetOf false) (fun args n => post_weaken (F23_LogVol.parsed _ args n) fun _ h => h.mono (by decide)) (fun _ => rfl) (.inl rfl) (by decide +kernel)

theorem F29_LogVol.parsed (k : Info) (args : List Str) (n : Nat) : M.Post n (F29_LogVol.parse k args) (ParsedBy k.op k.dc.init [c!"lineno", c!"mountpoint", c!"preexist"] n args) := by
  unfold F29_LogVol.parse
  repeat' (first | rule_when | (with_reducible apply F23_LogVol.parsed) | (with_reducible apply post_condT) | (with_reducible apply post_pure) | post_step | (intro _) | extract_lets)
  all_goals parsed_close

theorem readsBack_F29_LogVol_F29_LogVolData : (F29_LogVol.cls F29_LogVolData.cls).ReadsBack (logvolSheetOf false) (setToObj (F29_LogVol.info F29_LogVolData.cls).op.defaults F29_LogVolData.init) :=
  list_readsBack (o := FC3_LogVolData.strOut F29_LogVolData.args) (logvolSheetOf false) (fun args n => post_weaken (F29_LogVol.parsed _ args n) fun _ h => h.mono (by decide)) (fun _ => rfl) (.inl rfl) (by decide +kernel)

theorem readsBack_FC4_LogVol_FC4_LogVolData : (FC4_LogVol.cls FC4_LogVolData.cls).ReadsBack (logvolSheetOf false) (setToObj (FC4_LogVol.info FC4_LogVolData.cls).op.defaults FC4_LogVolData.init) :=
  list_readsBack (o := FC3_LogVolData.strOut FC4_LogVolData.args) (logvolSheetOf false) (fun args n => post_weaken (FC3_LogVol.parsed _ args n) fun _ h => h.mono (by decide)) (fun _ => rfl) (.inl rfl) (by decide +kernel)

theorem readsBack_FC3_LogVol_FC3_LogVolData : (FC3_LogVol.cls FC3_LogVolData.cls).ReadsBack (logvolSheetOf false) (setToObj (FC3_LogVol.info FC3_LogVolData.cls).op.defaults FC3_LogVolData.init) :=
  list_readsBack (o := FC3_LogVolData.strOut FC3_LogVolData.args) (logvolSheetOf false) (fun args n => post_weaken (FC3_LogVol.parsed _ args n) fun _ h => h.mono (by decide)) (fun _ => rfl) (.inl rfl) (by decide +kernel)

theorem readsBack_RHEL5_LogVol_RHEL5_LogVolData : (RHEL5_LogVol.cls RHEL5_LogVolData.cls).ReadsBack (logvolSheetOf false) (setToObj (RHEL5_LogVol.info RHEL5_LogVolData.cls).op.defaults RHEL5_LogVolData.init) :=
  list_readsBack (o := FC3_LogVolData.strOut RHEL5_LogVolData.args) (logvolSheetOf false) (fun args n => post_weaken (FC3_LogVol.parsed _ args n) fun _ h => h.mono (by decide)) (fun _ => rfl) (.inl rfl) (by decide +kernel)

theorem RHEL6_LogVol.parsed (k : Info) (args : List Str) (n : Nat) : M.Post n (RHEL6_LogVol.parse k args) (ParsedBy k.op k.dc.init [c!"lineno", c!"mountpoint", c!"preexist"] n args) := by
  unfold RHEL6_LogVol.parse
  repeat' (first | rule_when | (with_reducible apply FC3_LogVol.parsed) | (with_reducible apply post_condT) | (with_reducible apply post_pure) | post_step | (intro _) | extract_lets)
  all_goals parsed_close

theorem readsBack_RHEL6_LogVol_RHEL6_LogVolData_lost : (RHEL6_LogVol.cls RHEL6_LogVolData.cls).ReadsBack (logvolSheetOf true) (setToObj (RHEL6_LogVol.info RHEL6_LogVolData.cls).op.defaults RHEL6_LogVolData.init) :=
  list_readsBack (o := FC3_LogVolData.strOut RHEL6_LogVolData.args) (logvolSheetOf true) (fun args n => post_weaken (RHEL6_LogVol.parsed _ args n) fun _ h => h.mono (by decide)) (fun _ => rfl) (.inl rfl) (by decide +kernel)

theorem RHEL7_LogVol.parsed (k : Info) (args : List Str) (n : Nat) : M.Post n (RHEL7_LogVol.parse k args) (ParsedBy k.op k.dc.init [c!"lineno", c!"mountpoint", c!"preexist"] n args) := by
  unfold RHEL7_LogVol.parse
  repeat' (first | rule_when | (with_reducible apply F21_LogVol.parsed) | (with_reducible apply post_condT) | (with_reducible apply post_pure) | post_step | (intro _) | extract_lets)
  all_goals parsed_close

theorem readsBack_RHEL7_LogVol_RHEL7_LogVolData : (RHEL7_LogVol.cls RHEL7_LogVolData.cls).ReadsBack (logvolSheetOf false) (setToObj (RHEL7_LogVol.info RHEL7_LogVolData.cls).op.defaults RHEL7_LogVolData.init) :=
  list_readsBack (o := FC3_LogVolData.strOut RHEL7_LogVolData.args) (logvolSheetOf false) (fun args n => post_weaken (RHEL7_LogVol.parsed _ args n) fun _ h => h.mono (by decide)) (fun _ => rfl) (.inl rfl) (by decide +kernel)

theorem RHEL8_LogVol.parsed (k : Info) (args : List Str) (n : Nat) : M.Post n (RHEL8_LogVol.parse k args) (ParsedBy k.op k.dc.init [c!"lineno", c!"mountpoint", c!"preexist"] n args) := by
  unfold RHEL8_LogVol.parse
  repeat' (first | rule_when | (with_reducible apply F29_LogVol.parsed) | (with_reducible apply post_condT) | (with_reducible apply post_pure) | post_step | (intro _) | extract_lets)
  all_goals parsed_close

theorem readsBack_RHEL8_LogVol_RHEL8_LogVolData : (RHEL8_LogVol.cls RHEL8_LogVolData.cls).ReadsBack (logvolSheetOf false) (setToObj (RHEL8_LogVol.info RHEL8_LogVolData.cls).op.defaults RHEL8_LogVolData.init) :=
  list_readsBack (o := FC3_LogVolData.strOut F29_LogVolData.args) (logvolSheetOf false) (fun args n => post_weaken (RHEL8_LogVol.parsed _ args n) fun _ h => h.mono (by decide)) (fun _ => rfl) (.inl rfl) (by decide +kernel)

theorem readsBack_logvol : ∀ y ∈ commandMaps, ∀ c, y.2.lookup c!"logvol" = some c → c.hasList { attrs := {} } = true → ∃ base, c.ReadsBack (logvolSheet y.1) base := by
  unfold commandMaps
  exact (all_cons (fun c h hl => by cases h; exact ⟨_, readsBack_F9_LogVol_F9_LogVolData_lost⟩)
    (all_cons (fun c h hl => by cases h; exact ⟨_, readsBack_F9_LogVol_F9_LogVolData_lost⟩)
    (all_cons (fun c h hl => by cases h; exact ⟨_, readsBack_F12_LogVol_F12_LogVolData_lost⟩)
    (all_cons (fun c h hl => by cases h; exact ⟨_, readsBack_F12_LogVol_F12_LogVolData_lost⟩)
    (all_cons (fun c h hl => by cases h; exact ⟨_, readsBack_F14_LogVol_F14_LogVolData⟩)
    (all_cons (fun c h hl => by cases h; exact ⟨_, readsBack_F15_LogVol_F15_LogVolData⟩)
    (all_cons (fun c h hl => by cases h; exact ⟨_, readsBack_F15_LogVol_F17_LogVolData⟩)
    (all_cons (fun c h hl => by cases h; exact ⟨_, readsBack_F17_LogVol_F17_LogVolData⟩)
    (all_cons (fun c h hl => by cases h; exact ⟨_, readsBack_F18_LogVol_F18_LogVolData⟩)
    (all_cons (fun c h hl => by cases h; exact ⟨_, readsBack_F18_LogVol_F20_LogVolData⟩)
    (all_cons (fun c h hl => by cases h; exact ⟨_, readsBack_F20_LogVol_F20_LogVolData⟩)
    (all_cons (fun c h hl => by cases h; exact ⟨_, readsBack_F21_LogVol_F21_LogVolData⟩)
    (all_cons (fun c h hl => by cases h; exact ⟨_, readsBack_F21_LogVol_F21_LogVolData⟩)
    (all_cons (fun c h hl => by cases h; exact ⟨_, readsBack_F23_LogVol_F23_LogVolData⟩)
    (all_cons (fun c h hl => by cases h; exact ⟨_, readsBack_F23_LogVol_F23_LogVolData⟩)
    (all_cons (fun c h hl => by cases h; exact ⟨_, readsBack_F23_LogVol_F23_LogVolData⟩)
    (all_cons (fun c h hl => by cases h; exact ⟨_, readsBack_F23_LogVol_F23_LogVolData⟩)
    (all_cons (fun c h hl => by cases h; exact ⟨_, readsBack_F23_LogVol_F23_LogVolData⟩)
    (all_cons (fun c h hl => by cases h; exact ⟨_, readsBack_F23_LogVol_F23_LogVolData⟩)
    (all_cons (fun c h hl => by cases h; exact ⟨_, readsBack_F29_LogVol_F29_LogVolData⟩)
    (all_cons (fun c h hl => by cases h; exact ⟨_, readsBack_F29_LogVol_F29_LogVolData⟩)
    (all_cons (fun c h hl => by cases h; exact ⟨_, readsBack_F29_LogVol_F29_LogVolData⟩)
    (all_cons (fun c h hl => by cases h; exact ⟨_, readsBack_F29_LogVol_F29_LogVolData⟩)
    (all_cons (fun c h hl => by cases h; exact ⟨_, readsBack_F29_LogVol_F29_LogVolData⟩)
    (all_cons (fun c h hl => by cases h; exact ⟨_, readsBack_F29_LogVol_F29_LogVolData⟩)
    (all_cons (fun c h hl => by cases h; exact ⟨_, readsBack_FC4_LogVol_FC4_LogVolData⟩)
    (all_cons (fun c h hl => by cases h; exact ⟨_, readsBack_FC4_LogVol_FC4_LogVolData⟩)
    (all_cons (fun c h hl => by cases h; exact ⟨_, readsBack_F9_LogVol_F9_LogVolData_lost⟩)
    (all_cons (fun c h hl => by cases h; exact ⟨_, readsBack_FC3_LogVol_FC3_LogVolData⟩)
    (all_cons (fun c h hl => by cases h; exact ⟨_, readsBack_FC4_LogVol_FC4_LogVolData⟩)
    (all_cons (fun c h hl => by cases h; exact ⟨_, readsBack_FC4_LogVol_FC4_LogVolData⟩)
    (all_cons (fun c h hl => by cases h; exact ⟨_, readsBack_FC4_LogVol_FC4_LogVolData⟩)
    (all_cons (fun c h hl => by cases h; exact ⟨_, readsBack_FC3_LogVol_FC3_LogVolData⟩)
    (all_cons (fun c h hl => by cases h; exact ⟨_, readsBack_FC3_LogVol_FC3_LogVolData⟩)
    (all_cons (fun c h hl => by cases h; exact ⟨_, readsBack_RHEL5_LogVol_RHEL5_LogVolData⟩)
    (all_cons (fun c h hl => by cases h; exact ⟨_, readsBack_RHEL6_LogVol_RHEL6_LogVolData_lost⟩)
    (all_cons (fun c h hl => by cases h; exact ⟨_, readsBack_RHEL7_LogVol_RHEL7_LogVolData⟩)
    (all_cons (fun c h hl => by cases h; exact ⟨_, readsBack_RHEL8_LogVol_RHEL8_LogVolData⟩) (List.forall_mem_nil _)))))))))))))))))))))))))))))))))))))))

end Ks.Cmd
