import Verif.Commands.Sheets
import Verif.Commands.RuleLogic2
import Verif.Commands.Maps
/-!
# Commands with data lists read their text back

Written by `scripts/gen_readback.py`.
-/
namespace Ks.Cmd

set_option linter.unusedVariables false

theorem FC3_Network.parsed (k : Info) (args : List Str) (n : Nat) : M.Post n (FC3_Network.parse k args) (ParsedBy k.op k.dc.init [c!"lineno"] n args) := by
  unfold FC3_Network.parse
  parsed_steps
  all_goals parsed_close

theorem readsBack_F9_Network_F8_NetworkData : (F9_Network.cls F8_NetworkData.cls).ReadsBack (networkSheetOf false) (setToObj (F9_Network.info F8_NetworkData.cls).op.defaults F8_NetworkData.init) :=
  list_readsBack (o := FC3_NetworkData.strOut F8_NetworkData.args) (networkSheetOf false) (fun args n => post_weaken (FC3_Network.parsed _ args n) fun _ h => h.mono (by decide)) (fun _ => rfl) (.inr ⟨_, by decide, rfl⟩) (by decide +kernel)

theorem readsBack_F16_Network_F16_NetworkData : (F16_Network.cls F16_NetworkData.cls).ReadsBack (networkSheetOf false) (setToObj (F16_Network.info F16_NetworkData.cls).op.defaults F16_NetworkData.init) :=
  list_readsBack (o := FC3_NetworkData.strOut F16_NetworkData.args) (networkSheetOf false) (fun args n => post_weaken (FC3_Network.parsed _ args n) fun _ h => h.mono (by decide)) (fun _ => rfl) (.inr ⟨_, by decide, rfl⟩) (by decide +kernel)

theorem readsBack_F18_Network_F16_NetworkData : (F18_Network.cls F16_NetworkData.cls).ReadsBack (networkSheetOf false) (setToObj (F18_Network.info F16_NetworkData.cls).op.defaults F16_NetworkData.init) :=
  list_readsBack (o := FC3_NetworkData.strOut F16_NetworkData.args) (networkSheetOf false) (fun args n => post_weaken (FC3_Network.parsed _ args n) fun _ h => h.mono (by decide)) (fun _ => rfl) (.inr ⟨_, by decide, rfl⟩) (by decide +kernel)

theorem readsBack_F19_Network_F19_NetworkData : (F19_Network.cls F19_NetworkData.cls).ReadsBack (networkSheetOf false) (setToObj (F19_Network.info F19_NetworkData.cls).op.defaults F19_NetworkData.init) :=
  list_readsBack (o := FC3_NetworkData.strOut F19_NetworkData.args) (networkSheetOf false) (fun args n => post_weaken (FC3_Network.parsed _ args n) fun _ h => h.mono (by decide)) (fun _ => rfl) (.inr ⟨_, by decide, rfl⟩) (by decide +kernel)

theorem readsBack_F20_Network_F20_NetworkData : (F20_Network.cls F20_NetworkData.cls).ReadsBack (networkSheetOf false) (setToObj (F20_Network.info F20_NetworkData.cls).op.defaults F20_NetworkData.init) :=
  list_readsBack (o := FC3_NetworkData.strOut F20_NetworkData.args) (networkSheetOf false) (fun args n => post_weaken (FC3_Network.parsed _ args n) fun _ h => h.mono (by decide)) (fun _ => rfl) (.inr ⟨_, by decide, rfl⟩) (by decide +kernel)

theorem readsBack_F21_Network_F21_NetworkData : (F21_Network.cls F21_NetworkData.cls).ReadsBack (networkSheetOf false) (setToObj (F21_Network.info F21_NetworkData.cls).op.defaults F21_NetworkData.init) :=
  list_readsBack (o := FC3_NetworkData.strOut F21_NetworkData.args) (networkSheetOf false) (fun args n => post_weaken (FC3_Network.parsed _ args n) fun _ h => h.mono (by decide)) (fun _ => rfl) (.inr ⟨_, by decide, rfl⟩) (by decide +kernel)

theorem F22_Network.parsed (k : Info) (args : List Str) (n : Nat) : M.Post n (F22_Network.parse k args) (ParsedBy k.op k.dc.init [c!"lineno"] n args) := by
  unfold F22_Network.parse
  repeat' (first | rule_when | (with_reducible apply FC3_Network.parsed) | (with_reducible apply post_condT) | (with_reducible apply post_pure) | post_step | (intro _) | extract_lets)
  all_goals parsed_close

theorem readsBack_F22_Network_F22_NetworkData : (F22_Network.cls F22_NetworkData.cls).ReadsBack (networkSheetOf false) (setToObj (F22_Network.info F22_NetworkData.cls).op.defaults F22_NetworkData.init) :=
  list_readsBack (o := FC3_NetworkData.strOut F22_NetworkData.args) (networkSheetOf false) (fun args n => post_weaken (F22_Network.parsed _ args n) fun _ h => h.mono (by decide)) (fun _ => rfl) (.inr ⟨_, by decide, rfl⟩) (by decide +kernel)

theorem F24_Network.parsed (k : Info) (args : List Str) (n : Nat) : M.Post n (F24_Network.parse k args) (ParsedBy k.op k.dc.init [c!"bootProto", c!"lineno"] n args) := by
  unfold F24_Network.parse
  repeat' (first | rule_when | (with_reducible apply F22_Network.parsed) | (with_reducible apply post_condT) | (with_reducible apply post_pure) | post_step | (intro _) | extract_lets)
  all_goals parsed_close

theorem readsBack_F24_Network_F22_NetworkData_lost : (F24_Network.cls F22_NetworkData.cls).ReadsBack (networkSheetOf true) (setToObj (F24_Network.info F22_NetworkData.cls).op.defaults F22_NetworkData.init) :=
  list_readsBack (o := FC3_NetworkData.strOut F22_NetworkData.args) (networkSheetOf true) (fun args n => post_weaken (F24_Network.parsed _ args n) fun _ h => h.mono (by decide)) (fun _ => rfl) (.inr ⟨_, by decide, rfl⟩) (by decide +kernel)

theorem readsBack_F25_Network_F25_NetworkData_lost : (F25_Network.cls F25_NetworkData.cls).ReadsBack (networkSheetOf true) (setToObj (F25_Network.info F25_NetworkData.cls).op.defaults F25_NetworkData.init) :=
  list_readsBack (o := FC3_NetworkData.strOut F25_NetworkData.args) (networkSheetOf true) (fun args n => post_weaken (F24_Network.parsed _ args n) fun _ h => h.mono (by decide)) (fun _ => rfl) (.inr ⟨_, by decide, rfl⟩) (by decide +kernel)

theorem F27_Network.parsed (k : Info) (args : List Str) (n : Nat) : M.Post n (F27_Network.parse k args) (ParsedBy k.op k.dc.init [c!"bootProto", c!"lineno"] n args) := by
  unfold F27_Network.parse
  repeat' (first | rule_when | (with_reducible apply F24_Network.parsed) | (with_reducible apply post_condT) | (with_reducible apply post_pure) | post_step | (intro _) | extract_lets)
  all_goals parsed_close

theorem readsBack_F27_Network_F27_NetworkData_lost : (F27_Network.cls F27_NetworkData.cls).ReadsBack (networkSheetOf true) (setToObj (F27_Network.info F27_NetworkData.cls).op.defaults F27_NetworkData.init) :=
  list_readsBack (o := FC3_NetworkData.strOut F27_NetworkData.args) (networkSheetOf true) (fun args n => post_weaken (F27_Network.parsed _ args n) fun _ h => h.mono (by decide)) (fun _ => rfl) (.inr ⟨_, by decide, rfl⟩) (by decide +kernel)

theorem readsBack_FC6_Network_FC6_NetworkData : (FC6_Network.cls FC6_NetworkData.cls).ReadsBack (networkSheetOf false) (setToObj (FC6_Network.info FC6_NetworkData.cls).op.defaults FC6_NetworkData.init) :=
  list_readsBack (o := FC3_NetworkData.strOut FC6_NetworkData.args) (networkSheetOf false) (fun args n => post_weaken (FC3_Network.parsed _ args n) fun _ h => h.mono (by decide)) (fun _ => rfl) (.inr ⟨_, by decide, rfl⟩) (by decide +kernel)

theorem readsBack_F8_Network_F8_NetworkData : (F8_Network.cls F8_NetworkData.cls).ReadsBack (networkSheetOf false) (setToObj (F8_Network.info F8_NetworkData.cls).op.defaults F8_NetworkData.init) :=
  list_readsBack (o := FC3_NetworkData.strOut F8_NetworkData.args) (networkSheetOf false) (fun args n => post_weaken (FC3_Network.parsed _ args n) fun _ h => h.mono (by decide)) (fun _ => rfl) (.inr ⟨_, by decide, rfl⟩) (by decide +kernel)

theorem readsBack_FC3_Network_FC3_NetworkData : (FC3_Network.cls FC3_NetworkData.cls).ReadsBack (networkSheetOf false) (setToObj (FC3_Network.info FC3_NetworkData.cls).op.defaults FC3_NetworkData.init) :=
  list_readsBack (o := FC3_NetworkData.strOut FC3_NetworkData.args) (networkSheetOf false) (fun args n => post_weaken (FC3_Network.parsed _ args n) fun _ h => h.mono (by decide)) (fun _ => rfl) (.inr ⟨_, by decide, rfl⟩) (by decide +kernel)

theorem readsBack_FC4_Network_FC4_NetworkData : (FC4_Network.cls FC4_NetworkData.cls).ReadsBack (networkSheetOf false) (setToObj (FC4_Network.info FC4_NetworkData.cls).op.defaults FC4_NetworkData.init) :=
  list_readsBack (o := FC3_NetworkData.strOut FC4_NetworkData.args) (networkSheetOf false) (fun args n => post_weaken (FC3_Network.parsed _ args n) fun _ h => h.mono (by decide)) (fun _ => rfl) (.inr ⟨_, by decide, rfl⟩) (by decide +kernel)

theorem readsBack_FC3_Network_RHEL4_NetworkData : (FC3_Network.cls RHEL4_NetworkData.cls).ReadsBack (networkSheetOf false) (setToObj (FC3_Network.info RHEL4_NetworkData.cls).op.defaults RHEL4_NetworkData.init) :=
  list_readsBack (o := FC3_NetworkData.strOut RHEL4_NetworkData.args) (networkSheetOf false) (fun args n => post_weaken (FC3_Network.parsed _ args n) fun _ h => h.mono (by decide)) (fun _ => rfl) (.inr ⟨_, by decide, rfl⟩) (by decide +kernel)

theorem readsBack_RHEL4_Network_RHEL4_NetworkData : (RHEL4_Network.cls RHEL4_NetworkData.cls).ReadsBack (networkSheetOf false) (setToObj (RHEL4_Network.info RHEL4_NetworkData.cls).op.defaults RHEL4_NetworkData.init) :=
  list_readsBack (o := FC3_NetworkData.strOut RHEL4_NetworkData.args) (networkSheetOf false) (fun args n => post_weaken (FC3_Network.parsed _ args n) fun _ h => h.mono (by decide)) (fun _ => rfl) (.inr ⟨_, by decide, rfl⟩) (by decide +kernel)

theorem readsBack_RHEL5_Network_FC6_NetworkData : (RHEL5_Network.cls FC6_NetworkData.cls).ReadsBack (networkSheetOf false) (setToObj (RHEL5_Network.info FC6_NetworkData.cls).op.defaults FC6_NetworkData.init) :=
  list_readsBack (o := FC3_NetworkData.strOut FC6_NetworkData.args) (networkSheetOf false) (fun args n => post_weaken (FC3_Network.parsed _ args n) fun _ h => h.mono (by decide)) (fun _ => rfl) (.inr ⟨_, by decide, rfl⟩) (by decide +kernel)

theorem readsBack_RHEL6_Network_RHEL6_NetworkData : (RHEL6_Network.cls RHEL6_NetworkData.cls).ReadsBack (networkSheetOf false) (setToObj (RHEL6_Network.info RHEL6_NetworkData.cls).op.defaults RHEL6_NetworkData.init) :=
  list_readsBack (o := FC3_NetworkData.strOut RHEL6_NetworkData.args) (networkSheetOf false) (fun args n => post_weaken (FC3_Network.parsed _ args n) fun _ h => h.mono (by decide)) (fun _ => rfl) (.inr ⟨_, by decide, rfl⟩) (by decide +kernel)

theorem RHEL7_Network.parsed (k : Info) (args : List Str) (n : Nat) : M.Post n (RHEL7_Network.parse k args) (ParsedBy k.op k.dc.init [c!"lineno"] n args) := by
  unfold RHEL7_Network.parse
  repeat' (first | rule_when | (with_reducible apply post_pure) | split | (with_reducible apply FC3_Network.parsed) | post_step | (intro _))
  all_goals parsed_close

theorem readsBack_RHEL7_Network_RHEL7_NetworkData : (RHEL7_Network.cls RHEL7_NetworkData.cls).ReadsBack (networkSheetOf false) (setToObj (RHEL7_Network.info RHEL7_NetworkData.cls).op.defaults RHEL7_NetworkData.init) :=
  list_readsBack (o := FC3_NetworkData.strOut RHEL7_NetworkData.args) (networkSheetOf false) (fun args n => post_weaken (RHEL7_Network.parsed _ args n) fun _ h => h.mono (by decide)) (fun _ => rfl) (.inr ⟨_, by decide, rfl⟩) (by decide +kernel)

theorem readsBack_network : ∀ y ∈ commandMaps, ∀ c, y.2.lookup c!"network" = some c → c.hasList { attrs := {} } = true → ∃ base, c.ReadsBack (networkSheet y.1) base := by
  unfold commandMaps
  exact (all_cons (fun c h hl => by cases h; exact ⟨_, readsBack_F9_Network_F8_NetworkData⟩)
    (all_cons (fun c h hl => by cases h; exact ⟨_, readsBack_F9_Network_F8_NetworkData⟩)
    (all_cons (fun c h hl => by cases h; exact ⟨_, readsBack_F9_Network_F8_NetworkData⟩)
    (all_cons (fun c h hl => by cases h; exact ⟨_, readsBack_F9_Network_F8_NetworkData⟩)
    (all_cons (fun c h hl => by cases h; exact ⟨_, readsBack_F9_Network_F8_NetworkData⟩)
    (all_cons (fun c h hl => by cases h; exact ⟨_, readsBack_F9_Network_F8_NetworkData⟩)
    (all_cons (fun c h hl => by cases h; exact ⟨_, readsBack_F16_Network_F16_NetworkData⟩)
    (all_cons (fun c h hl => by cases h; exact ⟨_, readsBack_F16_Network_F16_NetworkData⟩)
    (all_cons (fun c h hl => by cases h; exact ⟨_, readsBack_F18_Network_F16_NetworkData⟩)
    (all_cons (fun c h hl => by cases h; exact ⟨_, readsBack_F19_Network_F19_NetworkData⟩)
    (all_cons (fun c h hl => by cases h; exact ⟨_, readsBack_F20_Network_F20_NetworkData⟩)
    (all_cons (fun c h hl => by cases h; exact ⟨_, readsBack_F21_Network_F21_NetworkData⟩)
    (all_cons (fun c h hl => by cases h; exact ⟨_, readsBack_F22_Network_F22_NetworkData⟩)
    (all_cons (fun c h hl => by cases h; exact ⟨_, readsBack_F22_Network_F22_NetworkData⟩)
    (all_cons (fun c h hl => by cases h; exact ⟨_, readsBack_F24_Network_F22_NetworkData_lost⟩)
    (all_cons (fun c h hl => by cases h; exact ⟨_, readsBack_F25_Network_F25_NetworkData_lost⟩)
    (all_cons (fun c h hl => by cases h; exact ⟨_, readsBack_F25_Network_F25_NetworkData_lost⟩)
    (all_cons (fun c h hl => by cases h; exact ⟨_, readsBack_F27_Network_F27_NetworkData_lost⟩)
    (all_cons (fun c h hl => by cases h; exact ⟨_, readsBack_F27_Network_F27_NetworkData_lost⟩)
    (all_cons (fun c h hl => by cases h; exact ⟨_, readsBack_F27_Network_F27_NetworkData_lost⟩)
    (all_cons (fun c h hl => by cases h; exact ⟨_, readsBack_F27_Network_F27_NetworkData_lost⟩)
    (all_cons (fun c h hl => by cases h; exact ⟨_, readsBack_F27_Network_F27_NetworkData_lost⟩)
    (all_cons (fun c h hl => by cases h; exact ⟨_, readsBack_F27_Network_F27_NetworkData_lost⟩)
    (all_cons (fun c h hl => by cases h; exact ⟨_, readsBack_F27_Network_F27_NetworkData_lost⟩)
    (all_cons (fun c h hl => by cases h; exact ⟨_, readsBack_F27_Network_F27_NetworkData_lost⟩)
    (all_cons (fun c h hl => by cases h; exact ⟨_, readsBack_FC6_Network_FC6_NetworkData⟩)
    (all_cons (fun c h hl => by cases h; exact ⟨_, readsBack_F8_Network_F8_NetworkData⟩)
    (all_cons (fun c h hl => by cases h; exact ⟨_, readsBack_F9_Network_F8_NetworkData⟩)
    (all_cons (fun c h hl => by cases h; exact ⟨_, readsBack_FC3_Network_FC3_NetworkData⟩)
    (all_cons (fun c h hl => by cases h; exact ⟨_, readsBack_FC4_Network_FC4_NetworkData⟩)
    (all_cons (fun c h hl => by cases h; exact ⟨_, readsBack_FC4_Network_FC4_NetworkData⟩)
    (all_cons (fun c h hl => by cases h; exact ⟨_, readsBack_FC6_Network_FC6_NetworkData⟩)
    (all_cons (fun c h hl => by cases h; exact ⟨_, readsBack_FC3_Network_RHEL4_NetworkData⟩)
    (all_cons (fun c h hl => by cases h; exact ⟨_, readsBack_RHEL4_Network_RHEL4_NetworkData⟩)
    (all_cons (fun c h hl => by cases h; exact ⟨_, readsBack_RHEL5_Network_FC6_NetworkData⟩)
    (all_cons (fun c h hl => by cases h; exact ⟨_, readsBack_RHEL6_Network_RHEL6_NetworkData⟩)
    (all_cons (fun c h hl => by cases h; exact ⟨_, readsBack_RHEL7_Network_RHEL7_NetworkData⟩)
    (all_cons (fun c h hl => by cases h; exact ⟨_, readsBack_F27_Network_F27_NetworkData_lost⟩) (List.forall_mem_nil _)))))))))))))))))))))))))))))))))))))))

end Ks.Cmd
