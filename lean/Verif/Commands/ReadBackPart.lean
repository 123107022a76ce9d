import Verif.Commands.Sheets
import Verif.Commands.RuleLogic2
import Verif.Commands.Maps
/-!
# Commands with data lists read their text back

Written by `scripts/gen_readback.py`.
-/
namespace Ks.Cmd

set_option linter.unusedVariables false

theorem FC3_Partition.parsed (k : Info) (args : List Str) (n : Nat) : M.Post n (FC3_Partition.parse k args) (ParsedBy k.op k.dc.init [c!"lineno", c!"mountpoint"] n args) := by
  unfold FC3_Partition.parse
  parsed_steps
  all_goals parsed_close

theorem readsBack_F9_Partition_F9_PartData_lost : (F9_Partition.cls F9_PartData.cls).ReadsBack (partSheetOf true) (setToObj (F9_Partition.info F9_PartData.cls).op.defaults F9_PartData.init) :=
  list_readsBack (o := FC3_PartData.strOut F9_PartData.args) (partSheetOf true) (fun args n => post_weaken (FC3_Partition.parsed _ args n) fun _ h => h.mono (by decide)) (fun _ => rfl) (.inr ⟨_, by decide, rfl⟩) (by decide +kernel)

theorem readsBack_F11_Partition_F11_PartData_lost : (F11_Partition.cls F11_PartData.cls).ReadsBack (partSheetOf true) (setToObj (F11_Partition.info F11_PartData.cls).op.defaults F11_PartData.init) :=
  list_readsBack (o := FC3_PartData.strOut F9_PartData.args) (partSheetOf true) (fun args n => post_weaken (FC3_Partition.parsed _ args n) fun _ h => h.mono (by decide)) (fun _ => rfl) (.inr ⟨_, by decide, rfl⟩) (by decide +kernel)

theorem readsBack_F12_Partition_F12_PartData_lost : (F12_Partition.cls F12_PartData.cls).ReadsBack (partSheetOf true) (setToObj (F12_Partition.info F12_PartData.cls).op.defaults F12_PartData.init) :=
  list_readsBack (o := FC3_PartData.strOut F12_PartData.args) (partSheetOf true) (fun args n => post_weaken (FC3_Partition.parsed _ args n) fun _ h => h.mono (by decide)) (fun _ => rfl) (.inr ⟨_, by decide, rfl⟩) (by decide +kernel)

theorem readsBack_F14_Partition_F14_PartData : (F14_Partition.cls F14_PartData.cls).ReadsBack (partSheetOf false) (setToObj (F14_Partition.info F14_PartData.cls).op.defaults F14_PartData.init) :=
  list_readsBack (o := FC3_PartData.strOut F12_PartData.args) (partSheetOf false) (fun args n => post_weaken (FC3_Partition.parsed _ args n) fun _ h => h.mono (by decide)) (fun _ => rfl) (.inr ⟨_, by decide, rfl⟩) (by decide +kernel)

theorem readsBack_F14_Partition_F17_PartData : (F14_Partition.cls F17_PartData.cls).ReadsBack (partSheetOf false) (setToObj (F14_Partition.info F17_PartData.cls).op.defaults F17_PartData.init) :=
  list_readsBack (o := FC3_PartData.strOut F17_PartData.args) (partSheetOf false) (fun args n => post_weaken (FC3_Partition.parsed _ args n) fun _ h => h.mono (by decide)) (fun _ => rfl) (.inr ⟨_, by decide, rfl⟩) (by decide +kernel)

theorem F17_Partition.parsed (k : Info) (args : List Str) (n : Nat) : M.Post n (F17_Partition.parse k args) (ParsedBy k.op k.dc.init [c!"lineno", c!"mountpoint"] n args) := by
  unfold F17_Partition.parse
  repeat' (first | rule_when | (with_reducible apply FC3_Partition.parsed) | (with_reducible apply post_condT) | (with_reducible apply post_pure) | post_step | (intro _) | extract_lets)
  all_goals parsed_close

theorem readsBack_F17_Partition_F17_PartData : (F17_Partition.cls F17_PartData.cls).ReadsBack (partSheetOf false) (setToObj (F17_Partition.info F17_PartData.cls).op.defaults F17_PartData.init) :=
  list_readsBack (o := FC3_PartData.strOut F17_PartData.args) (partSheetOf false) (fun args n => post_weaken (F17_Partition.parsed _ args n) fun _ h => h.mono (by decide)) (fun _ => rfl) (.inr ⟨_, by decide, rfl⟩) (by decide +kernel)

theorem readsBack_F18_Partition_F18_PartData : (F18_Partition.cls F18_PartData.cls).ReadsBack (partSheetOf false) (setToObj (F18_Partition.info F18_PartData.cls).op.defaults F18_PartData.init) :=
  list_readsBack (o := FC3_PartData.strOut F18_PartData.args) (partSheetOf false) (fun args n => post_weaken (F17_Partition.parsed _ args n) fun _ h => h.mono (by decide)) (fun _ => rfl) (.inr ⟨_, by decide, rfl⟩) (by decide +kernel)

theorem F20_Partition.parsed (k : Info) (args : List Str) (n : Nat) : M.Post n (F20_Partition.parse k args) (ParsedBy k.op k.dc.init [c!"lineno", c!"mountpoint"] n args) := by
  unfold F20_Partition.parse
  repeat' (first | rule_when | (with_reducible apply F17_Partition.parsed) | (with_reducible apply post_condT) | (with_reducible apply post_pure) | post_step | (intro _) | extract_lets)
  all_goals parsed_close

theorem readsBack_F20_Partition_F18_PartData : (F20_Partition.cls F18_PartData.cls).ReadsBack (partSheetOf false) (setToObj (F20_Partition.info F18_PartData.cls).op.defaults F18_PartData.init) :=
  list_readsBack (o := FC3_PartData.strOut F18_PartData.args) (partSheetOf false) (fun args n => post_weaken (F20_Partition.parsed _ args n) fun _ h => h.mono (by decide)) (fun _ => rfl) (.inr ⟨_, by decide, rfl⟩) (by decide +kernel)

theorem F23_Partition.parsed (k : Info) (args : List Str) (n : Nat) : M.Post n (F23_Partition.parse k args) (ParsedBy k.op k.dc.init [c!"lineno", c!"mountpoint"] n args) := by
  unfold F23_Partition.parse
  repeat' (first | rule_when | (with_reducible apply F20_Partition.parsed) | (with_reducible apply post_condT) | (with_reducible apply post_pure) | post_step | (intro _) | extract_lets)
  all_goals parsed_close

theorem readsBack_F23_Partition_F23_PartData : (F23_Partition.cls F23_PartData.cls).ReadsBack (partSheetOf false) (setToObj (F23_Partition.info F23_PartData.cls).op.defaults F23_PartData.init) :=
  list_readsBack (o := FC3_PartData.strOut F23_PartData.args) (partSheetOf false) (fun args n => post_weaken (F23_Partition.parsed _ args n) fun _ h => h.mono (by decide)) (fun _ => rfl) (.inr ⟨_, by decide, rfl⟩) (by decide +kernel)

theorem F29_Partition.parsed (k : Info) (args : List Str) (n : Nat) : M.Post n (F29_Partition.parse k args) (ParsedBy k.op k.dc.init [c!"lineno", c!"mountpoint"] n args) := by
  unfold F29_Partition.parse
  repeat' (first | rule_when | (with_reducible apply F23_Partition.parsed) | (with_reducible apply post_condT) | (with_reducible apply post_pure) | post_step | (intro _) | extract_lets)
  all_goals parsed_close

theorem readsBack_F29_Partition_F29_PartData : (F29_Partition.cls F29_PartData.cls).ReadsBack (partSheetOf false) (setToObj (F29_Partition.info F29_PartData.cls).op.defaults F29_PartData.init) :=
  list_readsBack (o := FC3_PartData.strOut F29_PartData.args) (partSheetOf false) (fun args n => post_weaken (F29_Partition.parsed _ args n) fun _ h => h.mono (by decide)) (fun _ => rfl) (.inr ⟨_, by decide, rfl⟩) (by decide +kernel)

theorem readsBack_F34_Partition_F29_PartData : (F34_Partition.cls F29_PartData.cls).ReadsBack (partSheetOf false) (setToObj (F34_Partition.info F29_PartData.cls).op.defaults F29_PartData.init) :=
  list_readsBack (o := FC3_PartData.strOut F29_PartData.args) (partSheetOf false) (fun args n => post_weaken (F29_Partition.parsed _ args n) fun _ h => h.mono (by decide)) (fun _ => rfl) (.inr ⟨_, by decide, rfl⟩) (by decide +kernel)

theorem readsBack_FC4_Partition_FC4_PartData : (FC4_Partition.cls FC4_PartData.cls).ReadsBack (partSheetOf false) (setToObj (FC4_Partition.info FC4_PartData.cls).op.defaults FC4_PartData.init) :=
  list_readsBack (o := FC3_PartData.strOut FC4_PartData.args) (partSheetOf false) (fun args n => post_weaken (FC3_Partition.parsed _ args n) fun _ h => h.mono (by decide)) (fun _ => rfl) (.inr ⟨_, by decide, rfl⟩) (by decide +kernel)

theorem readsBack_FC3_Partition_FC3_PartData : (FC3_Partition.cls FC3_PartData.cls).ReadsBack (partSheetOf false) (setToObj (FC3_Partition.info FC3_PartData.cls).op.defaults FC3_PartData.init) :=
  list_readsBack (o := FC3_PartData.strOut FC3_PartData.args) (partSheetOf false) (fun args n => post_weaken (FC3_Partition.parsed _ args n) fun _ h => h.mono (by decide)) (fun _ => rfl) (.inr ⟨_, by decide, rfl⟩) (by decide +kernel)

theorem readsBack_RHEL5_Partition_RHEL5_PartData : (RHEL5_Partition.cls RHEL5_PartData.cls).ReadsBack (partSheetOf false) (setToObj (RHEL5_Partition.info RHEL5_PartData.cls).op.defaults RHEL5_PartData.init) :=
  list_readsBack (o := FC3_PartData.strOut RHEL5_PartData.args) (partSheetOf false) (fun args n => post_weaken (FC3_Partition.parsed _ args n) fun _ h => h.mono (by decide)) (fun _ => rfl) (.inr ⟨_, by decide, rfl⟩) (by decide +kernel)

theorem RHEL6_Partition.parsed (k : Info) (args : List Str) (n : Nat) : M.Post n (RHEL6_Partition.parse k args) (ParsedBy k.op k.dc.init [c!"lineno", c!"mountpoint"] n args) := by
  unfold RHEL6_Partition.parse
  repeat' (first | rule_when | (with_reducible apply FC3_Partition.parsed) | (with_reducible apply post_condT) | (with_reducible apply post_pure) | post_step | (intro _) | extract_lets)
  all_goals parsed_close

theorem readsBack_RHEL6_Partition_RHEL6_PartData_lost : (RHEL6_Partition.cls RHEL6_PartData.cls).ReadsBack (partSheetOf true) (setToObj (RHEL6_Partition.info RHEL6_PartData.cls).op.defaults RHEL6_PartData.init) :=
  list_readsBack (o := FC3_PartData.strOut RHEL6_PartData.args) (partSheetOf true) (fun args n => post_weaken (RHEL6_Partition.parsed _ args n) fun _ h => h.mono (by decide)) (fun _ => rfl) (.inr ⟨_, by decide, rfl⟩) (by decide +kernel)

theorem readsBack_RHEL7_Partition_RHEL7_PartData : (RHEL7_Partition.cls RHEL7_PartData.cls).ReadsBack (partSheetOf false) (setToObj (RHEL7_Partition.info RHEL7_PartData.cls).op.defaults RHEL7_PartData.init) :=
  list_readsBack (o := FC3_PartData.strOut F23_PartData.args) (partSheetOf false) (fun args n => post_weaken (F23_Partition.parsed _ args n) fun _ h => h.mono (by decide)) (fun _ => rfl) (.inr ⟨_, by decide, rfl⟩) (by decide +kernel)

theorem RHEL8_Partition.parsed (k : Info) (args : List Str) (n : Nat) : M.Post n (RHEL8_Partition.parse k args) (ParsedBy k.op k.dc.init [c!"lineno", c!"mountpoint"] n args) := by
  unfold RHEL8_Partition.parse
  repeat' (first | rule_when | (with_reducible apply F29_Partition.parsed) | (with_reducible apply post_condT) | (with_reducible apply post_pure) | post_step | (intro _) | extract_lets)
  all_goals parsed_close

theorem readsBack_RHEL8_Partition_RHEL8_PartData : (RHEL8_Partition.cls RHEL8_PartData.cls).ReadsBack (partSheetOf false) (setToObj (RHEL8_Partition.info RHEL8_PartData.cls).op.defaults RHEL8_PartData.init) :=
  list_readsBack (o := FC3_PartData.strOut F29_PartData.args) (partSheetOf false) (fun args n => post_weaken (RHEL8_Partition.parsed _ args n) fun _ h => h.mono (by decide)) (fun _ => rfl) (.inr ⟨_, by decide, rfl⟩) (by decide +kernel)

theorem readsBack_part : ∀ y ∈ commandMaps, ∀ c, y.2.lookup c!"part" = some c → c.hasList { attrs := {} } = true → ∃ base, c.ReadsBack (partSheet y.1) base := by
  unfold commandMaps
  exact (all_cons (fun c h hl => by cases h; exact ⟨_, readsBack_F9_Partition_F9_PartData_lost⟩)
    (all_cons (fun c h hl => by cases h; exact ⟨_, readsBack_F11_Partition_F11_PartData_lost⟩)
    (all_cons (fun c h hl => by cases h; exact ⟨_, readsBack_F12_Partition_F12_PartData_lost⟩)
    (all_cons (fun c h hl => by cases h; exact ⟨_, readsBack_F12_Partition_F12_PartData_lost⟩)
    (all_cons (fun c h hl => by cases h; exact ⟨_, readsBack_F14_Partition_F14_PartData⟩)
    (all_cons (fun c h hl => by cases h; exact ⟨_, readsBack_F14_Partition_F14_PartData⟩)
    (all_cons (fun c h hl => by cases h; exact ⟨_, readsBack_F14_Partition_F17_PartData⟩)
    (all_cons (fun c h hl => by cases h; exact ⟨_, readsBack_F17_Partition_F17_PartData⟩)
    (all_cons (fun c h hl => by cases h; exact ⟨_, readsBack_F18_Partition_F18_PartData⟩)
    (all_cons (fun c h hl => by cases h; exact ⟨_, readsBack_F18_Partition_F18_PartData⟩)
    (all_cons (fun c h hl => by cases h; exact ⟨_, readsBack_F20_Partition_F18_PartData⟩)
    (all_cons (fun c h hl => by cases h; exact ⟨_, readsBack_F20_Partition_F18_PartData⟩)
    (all_cons (fun c h hl => by cases h; exact ⟨_, readsBack_F20_Partition_F18_PartData⟩)
    (all_cons (fun c h hl => by cases h; exact ⟨_, readsBack_F23_Partition_F23_PartData⟩)
    (all_cons (fun c h hl => by cases h; exact ⟨_, readsBack_F23_Partition_F23_PartData⟩)
    (all_cons (fun c h hl => by cases h; exact ⟨_, readsBack_F23_Partition_F23_PartData⟩)
    (all_cons (fun c h hl => by cases h; exact ⟨_, readsBack_F23_Partition_F23_PartData⟩)
    (all_cons (fun c h hl => by cases h; exact ⟨_, readsBack_F23_Partition_F23_PartData⟩)
    (all_cons (fun c h hl => by cases h; exact ⟨_, readsBack_F23_Partition_F23_PartData⟩)
    (all_cons (fun c h hl => by cases h; exact ⟨_, readsBack_F29_Partition_F29_PartData⟩)
    (all_cons (fun c h hl => by cases h; exact ⟨_, readsBack_F29_Partition_F29_PartData⟩)
    (all_cons (fun c h hl => by cases h; exact ⟨_, readsBack_F29_Partition_F29_PartData⟩)
    (all_cons (fun c h hl => by cases h; exact ⟨_, readsBack_F29_Partition_F29_PartData⟩)
    (all_cons (fun c h hl => by cases h; exact ⟨_, readsBack_F29_Partition_F29_PartData⟩)
    (all_cons (fun c h hl => by cases h; exact ⟨_, readsBack_F34_Partition_F29_PartData⟩)
    (all_cons (fun c h hl => by cases h; exact ⟨_, readsBack_FC4_Partition_FC4_PartData⟩)
    (all_cons (fun c h hl => by cases h; exact ⟨_, readsBack_FC4_Partition_FC4_PartData⟩)
    (all_cons (fun c h hl => by cases h; exact ⟨_, readsBack_F9_Partition_F9_PartData_lost⟩)
    (all_cons (fun c h hl => by cases h; exact ⟨_, readsBack_FC3_Partition_FC3_PartData⟩)
    (all_cons (fun c h hl => by cases h; exact ⟨_, readsBack_FC4_Partition_FC4_PartData⟩)
    (all_cons (fun c h hl => by cases h; exact ⟨_, readsBack_FC4_Partition_FC4_PartData⟩)
    (all_cons (fun c h hl => by cases h; exact ⟨_, readsBack_FC4_Partition_FC4_PartData⟩)
    (all_cons (fun c h hl => by cases h; exact ⟨_, readsBack_FC3_Partition_FC3_PartData⟩)
    (all_cons (fun c h hl => by cases h; exact ⟨_, readsBack_FC3_Partition_FC3_PartData⟩)
    (all_cons (fun c h hl => by cases h; exact ⟨_, readsBack_RHEL5_Partition_RHEL5_PartData⟩)
    (all_cons (fun c h hl => by cases h; exact ⟨_, readsBack_RHEL6_Partition_RHEL6_PartData_lost⟩)
    (all_cons (fun c h hl => by cases h; exact ⟨_, readsBack_RHEL7_Partition_RHEL7_PartData⟩)
    (all_cons (fun c h hl => by cases h; exact ⟨_, readsBack_RHEL8_Partition_RHEL8_PartData⟩) (List.forall_mem_nil _)))))))))))))))))))))))))))))))))))))))

theorem readsBack_partition : ∀ y ∈ commandMaps, ∀ c, y.2.lookup c!"partition" = some c → c.hasList { attrs := {} } = true → ∃ base, c.ReadsBack (partSheet y.1) base := by
  unfold commandMaps
  exact (all_cons (fun c h hl => by cases h; exact ⟨_, readsBack_F9_Partition_F9_PartData_lost⟩)
    (all_cons (fun c h hl => by cases h; exact ⟨_, readsBack_F11_Partition_F11_PartData_lost⟩)
    (all_cons (fun c h hl => by cases h; exact ⟨_, readsBack_F12_Partition_F12_PartData_lost⟩)
    (all_cons (fun c h hl => by cases h; exact ⟨_, readsBack_F12_Partition_F12_PartData_lost⟩)
    (all_cons (fun c h hl => by cases h; exact ⟨_, readsBack_F14_Partition_F14_PartData⟩)
    (all_cons (fun c h hl => by cases h; exact ⟨_, readsBack_F14_Partition_F14_PartData⟩)
    (all_cons (fun c h hl => by cases h; exact ⟨_, readsBack_F14_Partition_F17_PartData⟩)
    (all_cons (fun c h hl => by cases h; exact ⟨_, readsBack_F17_Partition_F17_PartData⟩)
    (all_cons (fun c h hl => by cases h; exact ⟨_, readsBack_F18_Partition_F18_PartData⟩)
    (all_cons (fun c h hl => by cases h; exact ⟨_, readsBack_F18_Partition_F18_PartData⟩)
    (all_cons (fun c h hl => by cases h; exact ⟨_, readsBack_F20_Partition_F18_PartData⟩)
    (all_cons (fun c h hl => by cases h; exact ⟨_, readsBack_F20_Partition_F18_PartData⟩)
    (all_cons (fun c h hl => by cases h; exact ⟨_, readsBack_F20_Partition_F18_PartData⟩)
    (all_cons (fun c h hl => by cases h; exact ⟨_, readsBack_F23_Partition_F23_PartData⟩)
    (all_cons (fun c h hl => by cases h; exact ⟨_, readsBack_F23_Partition_F23_PartData⟩)
    (all_cons (fun c h hl => by cases h; exact ⟨_, readsBack_F23_Partition_F23_PartData⟩)
    (all_cons (fun c h hl => by cases h; exact ⟨_, readsBack_F23_Partition_F23_PartData⟩)
    (all_cons (fun c h hl => by cases h; exact ⟨_, readsBack_F23_Partition_F23_PartData⟩)
    (all_cons (fun c h hl => by cases h; exact ⟨_, readsBack_F23_Partition_F23_PartData⟩)
    (all_cons (fun c h hl => by cases h; exact ⟨_, readsBack_F29_Partition_F29_PartData⟩)
    (all_cons (fun c h hl => by cases h; exact ⟨_, readsBack_F29_Partition_F29_PartData⟩)
    (all_cons (fun c h hl => by cases h; exact ⟨_, readsBack_F29_Partition_F29_PartData⟩)
    (all_cons (fun c h hl => by cases h; exact ⟨_, readsBack_F29_Partition_F29_PartData⟩)
    (all_cons (fun c h hl => by cases h; exact ⟨_, readsBack_F29_Partition_F29_PartData⟩)
    (all_cons (fun c h hl => by cases h; exact ⟨_, readsBack_F34_Partition_F29_PartData⟩)
    (all_cons (fun c h hl => by cases h; exact ⟨_, readsBack_FC4_Partition_FC4_PartData⟩)
    (all_cons (fun c h hl => by cases h; exact ⟨_, readsBack_FC4_Partition_FC4_PartData⟩)
    (all_cons (fun c h hl => by cases h; exact ⟨_, readsBack_F9_Partition_F9_PartData_lost⟩)
    (all_cons (fun c h hl => by cases h; exact ⟨_, readsBack_FC3_Partition_FC3_PartData⟩)
    (all_cons (fun c h hl => by cases h; exact ⟨_, readsBack_FC4_Partition_FC4_PartData⟩)
    (all_cons (fun c h hl => by cases h; exact ⟨_, readsBack_FC4_Partition_FC4_PartData⟩)
    (all_cons (fun c h hl => by cases h; exact ⟨_, readsBack_FC4_Partition_FC4_PartData⟩)
    (all_cons (fun c h hl => by cases h; exact ⟨_, readsBack_FC3_Partition_FC3_PartData⟩)
    (all_cons (fun c h hl => by cases h; exact ⟨_, readsBack_FC3_Partition_FC3_PartData⟩)
    (all_cons (fun c h hl => by cases h; exact ⟨_, readsBack_RHEL5_Partition_RHEL5_PartData⟩)
    (all_cons (fun c h hl => by cases h; exact ⟨_, readsBack_RHEL6_Partition_RHEL6_PartData_lost⟩)
    (all_cons (fun c h hl => by cases h; exact ⟨_, readsBack_RHEL7_Partition_RHEL7_PartData⟩)
    (all_cons (fun c h hl => by cases h; exact ⟨_, readsBack_RHEL8_Partition_RHEL8_PartData⟩) (List.forall_mem_nil _)))))))))))))))))))))))))))))))))))))))

end Ks.Cmd
