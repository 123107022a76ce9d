import Verif.Commands.RuleSpec
import Verif.Commands.ListLogic
import Verif.Commands.Logvol
import Verif.Commands.Partition
import Verif.Commands.Mount
import Verif.Commands.Nvdimm
import Verif.Commands.Btrfs
import Verif.Commands.Snapshot
import Verif.Commands.Network
/-!
# Rules that hold for what `parse` returns
-/
namespace Ks
open Cmd

/-- Every object that `parse` returns satisfies `R`. -/
def Command.Data (c : Command) (R : Ns → Prop) : Prop := ∀ h args i d, (c.parse h args i).2 = .ok (some d) → R d

theorem list_data {name : Str} {prio : Option Int} {init : Ns} {dc : DataCls} {parse : List Str → M Ns} {str : List Str → Str} {R : Ns → Prop}
    (h : ∀ args n, M.Post n (parse args) R) : (listCmd name prio init dc parse str).Data R := by
  intro s args i d hd
  obtain ⟨d', e, hd'⟩ := list_value hd
  cases e
  exact (h args i.lineno).run rfl hd'

theorem post_seq {n : Nat} {α : Type} {m : M Unit} {f : Unit → M α} {P : Unit → Prop} {Q : α → Prop} (hm : M.Post n m P) (hf : M.Post n (f ()) Q) :
    M.Post n (m >>= f) fun a => P () ∧ Q a :=
  post_bind hm fun _ hp => post_weaken hf fun _ hq => ⟨hp, hq⟩

/-- A list of checks under a condition. -/
macro "rule_when" : tactic => `(tactic| (
  with_reducible apply post_when
  repeat' (first | with_reducible apply post_seq | with_reducible apply post_failIf | with_reducible apply post_failIfNoLine | with_reducible apply post_warn)))

theorem pyEq_str (v : Val) (s : Str) : v.pyEq (.str s) = decide (v = .str s) := by cases v <;> rfl

/-- `R l d` holds for every object `d` that `parse` returns when the data list is `l`. -/
def Command.Grows (c : Command) (R : List Ns → Ns → Prop) : Prop := ∀ h args i d, (c.parse h args i).2 = .ok (some d) → R i.attrs.data d

theorem Command.Data.weaken {c : Command} {P Q : Ns → Prop} (h : c.Data P) (hw : ∀ d, P d → Q d) : c.Data Q :=
  fun s args i d hd => hw d (h s args i d hd)

theorem deprecated_data {name : Str} {init : Ns} {R : Ns → Prop} : (deprecatedCmd name init).Data R := by
  intro s args i d hd
  cases hd

/-- Follow the program up to what it returns. -/
syntax "rule_steps" : tactic
macro_rules | `(tactic| rule_steps) => `(tactic| repeat' (first | rule_when | (with_reducible apply post_condT) | (with_reducible apply post_pure) | post_step | (intro _) | extract_lets))

/-- From what was checked to the rules. -/
macro "rule_close" : tactic => `(tactic| (constructor <;> simp (decide := true) only [forall_const, false_implies, Ns.on, or_false, false_or, pyEq_str, List.any_cons, List.any_nil, Ns.getD_ite, Ns.getD_set, if_true, if_false, ite_self] at * <;> grind))

/-! ## logvol -/

set_option linter.unusedSimpArgs false

theorem FC3_LogVol.rules (k : Info) (args : List Str) (n : Nat) : M.Post n (FC3_LogVol.parse k args) (LogvolRules Version.FC3) := by
  unfold FC3_LogVol.parse
  rule_steps
  all_goals try exact trivial
  constructor <;> simp (decide := true) only [forall_const, false_implies, Ns.on, Ns.getD_ite, Ns.getD_set, if_true, if_false, ite_self]
  intro h; rw [if_pos (by simpa using h)]; rfl

theorem RHEL6_LogVol.rules (k : Info) (args : List Str) (n : Nat) : M.Post n (RHEL6_LogVol.parse k args) (LogvolRules Version.RHEL6) := by
  unfold RHEL6_LogVol.parse
  repeat' (first | rule_when | (with_reducible apply FC3_LogVol.rules) | post_step | (intro _))
  apply post_pure; cases ‹LogvolRules _ _›; rule_close

theorem F17_LogVol.rules (k : Info) (args : List Str) (n : Nat) : M.Post n (F17_LogVol.parse k args) (LogvolRules Version.F17) := by
  unfold F17_LogVol.parse
  repeat' (first | rule_when | (with_reducible apply FC3_LogVol.rules) | post_step | (intro _))
  apply post_pure; cases ‹LogvolRules _ _›; rule_close

theorem F20_LogVol.rules (k : Info) (args : List Str) (n : Nat) : M.Post n (F20_LogVol.parse k args) (LogvolRules Version.F20) := by
  unfold F20_LogVol.parse
  repeat' (first | rule_when | (with_reducible apply F17_LogVol.rules) | post_step | (intro _))
  apply post_pure; cases ‹LogvolRules _ _›; rule_close

theorem F21_LogVol.rules (k : Info) (args : List Str) (n : Nat) : M.Post n (F21_LogVol.parse k args) (LogvolRules Version.F22) := by
  unfold F21_LogVol.parse
  repeat' (first | rule_when | (with_reducible apply F20_LogVol.rules) | post_step | (intro _))
  apply post_pure; cases ‹LogvolRules _ _›; rule_close

theorem RHEL7_LogVol.rules (k : Info) (args : List Str) (n : Nat) : M.Post n (RHEL7_LogVol.parse k args) (LogvolRules Version.RHEL7) := by
  unfold RHEL7_LogVol.parse
  repeat' (first | rule_when | (with_reducible apply F21_LogVol.rules) | post_step | (intro _))
  apply post_pure; cases ‹LogvolRules _ _›; rule_close

theorem F23_LogVol.rules (k : Info) (args : List Str) (n : Nat) : M.Post n (F23_LogVol.parse k args) (LogvolRules Version.F28) := by
  unfold F23_LogVol.parse
  repeat' (first | rule_when | (with_reducible apply F21_LogVol.rules) | post_step | (intro _))
  apply post_pure; cases ‹LogvolRules _ _›; rule_close

theorem F29_LogVol.rules (k : Info) (args : List Str) (n : Nat) : M.Post n (F29_LogVol.parse k args) (LogvolRules Version.F34) := by
  unfold F29_LogVol.parse
  repeat' (first | rule_when | (with_reducible apply F23_LogVol.rules) | post_step | (intro _))
  apply post_pure; cases ‹LogvolRules _ _›; rule_close

theorem RHEL8_LogVol.rules (k : Info) (args : List Str) (n : Nat) : M.Post n (RHEL8_LogVol.parse k args) (LogvolRules Version.RHEL8) := by
  unfold RHEL8_LogVol.parse
  repeat' (first | rule_when | (with_reducible apply F29_LogVol.rules) | post_step | (intro _))
  apply post_pure; cases ‹LogvolRules _ _›; rule_close

/-! ## part -/

theorem FC3_Partition.rules (k : Info) (args : List Str) (n : Nat) : M.Post n (FC3_Partition.parse k args) (PartRules Version.FC3) := by
  unfold FC3_Partition.parse
  rule_steps
  all_goals try exact trivial
  constructor <;> simp (decide := true) only [false_implies]

theorem RHEL6_Partition.rules (k : Info) (args : List Str) (n : Nat) : M.Post n (RHEL6_Partition.parse k args) (PartRules Version.RHEL6) := by
  unfold RHEL6_Partition.parse
  repeat' (first | rule_when | (with_reducible apply FC3_Partition.rules) | post_step | (intro _))
  apply post_pure; cases ‹PartRules _ _›; rule_close

theorem F17_Partition.rules (k : Info) (args : List Str) (n : Nat) : M.Post n (F17_Partition.parse k args) (PartRules Version.F17) := by
  unfold F17_Partition.parse
  repeat' (first | rule_when | (with_reducible apply FC3_Partition.rules) | post_step | (intro _))
  apply post_pure; cases ‹PartRules _ _›; rule_close

theorem F20_Partition.rules (k : Info) (args : List Str) (n : Nat) : M.Post n (F20_Partition.parse k args) (PartRules Version.F22) := by
  unfold F20_Partition.parse
  repeat' (first | rule_when | (with_reducible apply F17_Partition.rules) | post_step | (intro _))
  apply post_pure; cases ‹PartRules _ _›; rule_close

theorem F23_Partition.rules (k : Info) (args : List Str) (n : Nat) : M.Post n (F23_Partition.parse k args) (PartRules Version.F28) := by
  unfold F23_Partition.parse
  repeat' (first | rule_when | (with_reducible apply F20_Partition.rules) | post_step | (intro _))
  apply post_pure; cases ‹PartRules _ _›; rule_close

theorem F29_Partition.rules (k : Info) (args : List Str) (n : Nat) : M.Post n (F29_Partition.parse k args) (PartRules Version.F34) := by
  unfold F29_Partition.parse
  repeat' (first | rule_when | (with_reducible apply F23_Partition.rules) | post_step | (intro _))
  apply post_pure; cases ‹PartRules _ _›; rule_close

theorem RHEL8_Partition.rules (k : Info) (args : List Str) (n : Nat) : M.Post n (RHEL8_Partition.parse k args) (PartRules Version.RHEL8) := by
  unfold RHEL8_Partition.parse
  repeat' (first | rule_when | (with_reducible apply F29_Partition.rules) | post_step | (intro _))
  apply post_pure; cases ‹PartRules _ _›; rule_close

/-! ## mount -/

theorem F27_Mount.rules (k : Info) (args : List Str) (n : Nat) : M.Post n (F27_Mount.parse k args) MountRules := by
  unfold F27_Mount.parse
  rule_steps
  all_goals try exact trivial
  constructor <;> simp (decide := true) only [forall_const, false_implies, Ns.on, Ns.getD_ite, Ns.getD_set, if_true, if_false, ite_self] at *
  · grind
  · grind

/-! ## nvdimm -/

theorem F28_Nvdimm.rules (k : Info) (args : List Str) (n : Nat) : M.Post n (F28_Nvdimm.parse k args) NvdimmRules := by
  unfold F28_Nvdimm.parse
  rule_steps
  all_goals try exact trivial
  split
  all_goals rule_steps
  all_goals constructor <;> simp (decide := true) only [forall_const, false_implies, Ns.on, Ns.getD_ite, Ns.getD_set, if_true, if_false, ite_self, pyEq_str] at *
  all_goals grind

/-! ## btrfs -/

theorem F17_BTRFS.rules (k : Info) (args : List Str) (n : Nat) : M.Post n (F17_BTRFS.parse k args) (BtrfsRules Version.F22) := by
  unfold F17_BTRFS.parse
  rule_steps
  all_goals try exact trivial
  constructor <;> simp (decide := true) only [forall_const, false_implies, Ns.on, Ns.getD_ite, Ns.getD_set, if_true, if_false, ite_self] at *
  all_goals first | grind | (repeat' split) <;> simp_all [Val.truthy]

theorem F23_BTRFS.rules (k : Info) (args : List Str) (n : Nat) : M.Post n (F23_BTRFS.parse k args) (BtrfsRules Version.F34) := by
  unfold F23_BTRFS.parse
  repeat' (first | rule_when | (with_reducible apply F17_BTRFS.rules) | post_step | (intro _))
  apply post_pure; cases ‹BtrfsRules _ _›; rule_close

/-! ## snapshot -/

theorem split_two {v : Val} (h : (decide ((v.split '/').len ≠ 2) || decide (((v.split '/').items[0]?.getD []).length = 0) || decide (((v.split '/').items[1]?.getD []).length = 0)) = false) :
    ∃ a b, a ≠ [] ∧ b ≠ [] ∧ v.split '/' = .list [a, b] := by
  simp only [Bool.or_eq_false_iff, decide_eq_false_iff_not, ne_eq, Classical.not_not] at h
  obtain ⟨⟨h1, h2⟩, h3⟩ := h
  have hne : ∀ s, v.split '/' ≠ .str s := by
    intro s hs
    unfold Val.split at hs
    split at hs
    · cases hs
    · rename_i hns; exact hns s hs
  cases hx : v.split '/' with
  | list l =>
    rw [hx] at h1 h2 h3
    match l, h1 with
    | [a, b], _ => exact ⟨a, b, fun e => h2 (by rw [e]; rfl), fun e => h3 (by rw [e]; rfl), rfl⟩
  | pairs l => rw [hx] at h2; exact (h2 rfl).elim
  | str s => exact (hne s hx).elim
  | none => rw [hx] at h2; exact (h2 rfl).elim
  | bool _ => rw [hx] at h2; exact (h2 rfl).elim
  | int _ => rw [hx] at h2; exact (h2 rfl).elim

theorem F26_Snapshot.rules (k : Info) (args : List Str) (n : Nat) : M.Post n (F26_Snapshot.parse k args) SnapshotRules := by
  unfold F26_Snapshot.parse
  rule_steps
  all_goals try exact trivial
  rename_i hwhen _ horig _ _
  constructor
  · simpa using hwhen
  · exact split_two horig

theorem passed {c : Bool} {m : Str} {h : Str → Option Bool} {i j : Inst CState} {a : Unit}
    (e : (if c = true then M.err m else fun _ i => (i, Except.ok ()) : M Unit) h i = (j, .ok a)) : c = false := by
  cases c
  · rfl
  · cases e

/-- The name is none of those in the list. -/
theorem F26_Snapshot.fresh (k : Info) (args : List Str) (h : Str → Option Bool) (i : Inst CState) (d : Ns) (hd : (F26_Snapshot.parse k args h i).2 = .ok d) :
    ∀ e ∈ i.attrs.data, (e.getD c!"name").pyEq (d.getD c!"name") = false := by
  unfold F26_Snapshot.parse at hd
  simp only [bind, M.parseArgs, M.lineno, M.dataList, M.failIf, pure] at hd
  repeat' split at hd
  all_goals simp_all [M.err]
  rename_i h4 h3 _ _ _
  obtain ⟨rfl, _⟩ := h4
  subst hd
  have hany := passed h3
  intro e he
  simp only [List.any_eq_false] at hany
  simpa using hany e he

/-! ## network -/

theorem FC3_Network.rules (k : Info) (args : List Str) (n : Nat) : M.Post n (FC3_Network.parse k args) (NetworkRules Version.FC3) := by
  unfold FC3_Network.parse
  rule_steps
  all_goals try exact trivial
  constructor <;> simp (decide := true) only [false_implies]

theorem F22_Network.rules (k : Info) (args : List Str) (n : Nat) : M.Post n (F22_Network.parse k args) (NetworkRules Version.F23) := by
  unfold F22_Network.parse
  repeat' (first | rule_when | (with_reducible apply FC3_Network.rules) | post_step | (intro _))
  apply post_pure; cases ‹NetworkRules _ _›; rule_close

theorem F24_Network.rules (k : Info) (args : List Str) (n : Nat) : M.Post n (F24_Network.parse k args) (NetworkRules Version.F26) := by
  unfold F24_Network.parse
  repeat' (first | rule_when | (with_reducible apply F22_Network.rules) | post_step | (intro _))
  apply post_pure; cases ‹NetworkRules _ _›; rule_close

theorem F27_Network.rules (k : Info) (args : List Str) (n : Nat) : M.Post n (F27_Network.parse k args) (NetworkRules Version.F34) := by
  unfold F27_Network.parse
  repeat' (first | rule_when | (with_reducible apply F24_Network.rules) | post_step | (intro _))
  apply post_pure; cases ‹NetworkRules _ _›; rule_close

theorem RHEL7_Network.rules (k : Info) (args : List Str) (n : Nat) : M.Post n (RHEL7_Network.parse k args) (NetworkRules Version.RHEL7) := by
  unfold RHEL7_Network.parse
  repeat' (first | rule_when | (with_reducible apply post_pure) | split | (with_reducible apply FC3_Network.rules) | post_step | (intro _))
  all_goals try exact trivial
  all_goals (cases ‹NetworkRules _ _›; rule_close)

end Ks
