import Verif.Commands.Session
/-!
# Commands that refuse to be used together

`M.Fails a m`: the part `m` of a `parse` method raises an exception whenever the command of the
handler's attribute `a` was seen.  `M.Gives a P m`: it raises one or its value satisfies `P`.
-/
namespace Ks

open Cmd

def M.Fails {α : Type} (a : Str) (m : M α) : Prop := ∀ h i, h a = some true → ∃ e, (m h i).2 = .error e

def M.Gives {α : Type} (a : Str) (P : α → Prop) (m : M α) : Prop :=
  ∀ h i, h a = some true → ∀ r, (m h i).2 = .ok r → P r

variable {α β : Type} {a : Str}

theorem fails_left {m : M α} {f : α → M β} (hm : M.Fails a m) : M.Fails a (m >>= f) := by
  intro h i ha
  obtain ⟨e, he⟩ := hm h i ha
  simp only [bind]
  match hr : m h i with
  | (j, .error e') => exact ⟨e', rfl⟩
  | (j, .ok r) => rw [hr] at he; cases he

theorem fails_bind {m : M α} {f : α → M β} {P : α → Prop} (hm : M.Gives a P m) (hf : ∀ r, P r → M.Fails a (f r)) : M.Fails a (m >>= f) := by
  intro h i ha
  simp only [bind]
  match hr : m h i with
  | (j, .error e') => exact ⟨e', rfl⟩
  | (j, .ok r) => exact hf r (hm h i ha r (by rw [hr])) h j ha

theorem fails_right {m : M α} {f : α → M β} (hf : ∀ r, M.Fails a (f r)) : M.Fails a (m >>= f) :=
  fails_bind (P := fun _ => True) (fun _ _ _ _ _ => trivial) fun r _ => hf r

theorem gives_bind {m : M α} {f : α → M β} {P : α → Prop} {Q : β → Prop} (hm : M.Gives a P m) (hf : ∀ r, P r → M.Gives a Q (f r)) :
    M.Gives a Q (m >>= f) := by
  intro h i ha r he
  simp only [bind] at he
  match hr : m h i with
  | (j, .error e') => rw [hr] at he; cases he
  | (j, .ok b) => rw [hr] at he; exact hf b (hm h i ha b (by rw [hr])) h j ha r he

theorem gives_pure {P : α → Prop} {x : α} (h : P x) : M.Gives a P (pure x) := by
  intro _ _ _ r he
  have : r = x := by simpa [pure] using he.symm
  exact this ▸ h

theorem fails_err {msg : Str} : M.Fails a (M.err msg : M α) := fun _ _ _ => ⟨_, rfl⟩

theorem fails_failIf {c : Bool} {msg : Str} (hc : c = true) : M.Fails a (M.failIf c msg) := by
  subst hc; exact fails_err

theorem gives_seen : M.Gives a (· = true) (M.seenCmd a) := by
  intro h i ha r he
  simp only [M.seenCmd, ha] at he
  exact (by simpa using he.symm)

theorem gives_used : M.Gives a (· = true) (M.usedCmd a) := by
  intro h i ha r he
  simp only [M.usedCmd, ha] at he
  exact (by simpa using he.symm)

theorem fails_failIfM {c : M Bool} {msg : Str} (hc : M.Gives a (· = true) c) : M.Fails a (M.failIfM c msg) := by
  unfold M.failIfM
  exact fails_bind hc fun r hr => fails_failIf hr

/-- The condition holds, so the first branch is taken. -/
theorem gives_cond {c : M Bool} {m n : M α} {P : α → Prop} (hc : M.Gives a (· = true) c) (hm : M.Gives a P m) : M.Gives a P (M.cond c m n) := by
  unfold M.cond
  refine gives_bind hc fun r hr => ?_
  subst hr
  exact hm

theorem gives_cond' {c : M Bool} {m n : M α} {P : α → Prop} (hm : M.Gives a P m) (hn : M.Gives a P n) : M.Gives a P (M.cond c m n) := by
  unfold M.cond
  refine gives_bind (P := fun _ => True) (fun _ _ _ _ _ => trivial) fun r _ => ?_
  cases r <;> assumption

/-- The value is not the empty string. -/
def Named (s : Str) : Prop := s ≠ []

theorem named_isEmpty {s : Str} (h : Named s) : (!s.isEmpty) = true := by
  cases s with
  | nil => exact absurd rfl h
  | cons => rfl

/-- `parse` of the class raises an exception whenever the command of the attribute `a` was seen. -/
def Command.Rejects (c : Command) (a : Str) : Prop := ∀ h args i, h a = some true → ∃ e, (c.parse h args i).2 = .error e

variable {name : Str} {prio : Option Int} {init : Ns} {str : Ns → Str} {dc : DataCls}

theorem plain_rejects {parse : List Str → M Unit} (h : ∀ args, M.Fails a (parse args)) : (plainCmd name prio init parse str).Rejects a := by
  intro s args i ha
  obtain ⟨e, he⟩ := h args s i ha
  show ∃ e, (match parse args s i with | (i, .error e) => (i, .error e) | (i, .ok _) => (i, .ok none) : Inst CState × Except Exc (Option Ns)).2 = .error e
  split
  · exact ⟨_, rfl⟩
  · rename_i hr; rw [hr] at he; cases he

theorem list_rejects {parse : List Str → M Ns} {str : List Str → Str} (h : ∀ args, M.Fails a (parse args)) :
    (listCmd name prio init dc parse str).Rejects a := by
  intro s args i ha
  obtain ⟨e, he⟩ := h args s i ha
  show ∃ e, (match parse args s i with | (i, .error e) => (i, .error e) | (i, .ok d) => (i, .ok (some d)) : Inst CState × Except Exc (Option Ns)).2 = .error e
  split
  · exact ⟨_, rfl⟩
  · rename_i hr; rw [hr] at he; cases he

/-- Look for the check. -/
syntax "fails" : tactic
macro_rules | `(tactic| fails) => `(tactic| first
  | (with_reducible assumption)
  | (with_reducible exact fails_failIfM gives_seen)
  | (with_reducible exact fails_failIfM gives_used)
  | ((with_reducible refine fails_left ?_); fails)
  | ((with_reducible refine fails_right fun _ => ?_); fails))

/-- The checks that collect the name of the other command first. -/
syntax "conflict_name" : tactic
macro_rules | `(tactic| conflict_name) => `(tactic| first
  | exact gives_pure (by assumption)
  | exact gives_pure (P := Named) (by unfold Named; decide)
  | (refine gives_cond gives_seen ?_; conflict_name)
  | (refine gives_cond gives_used ?_; conflict_name)
  | (refine gives_cond' ?_ ?_ <;> conflict_name))

syntax "conflict" : tactic
macro_rules | `(tactic| conflict) => `(tactic| first
  | exact fails_left (fails_failIf (named_isEmpty (by assumption)))
  | exact fails_failIf (named_isEmpty (by assumption))
  | (refine fails_bind (P := Named) ?_ fun _ _ => ?_; (on_goal 1 => conflict_name); conflict)
  | (refine fails_right fun _ => ?_; conflict))

namespace Cmd

/-! ## The methods that check -/

theorem RHEL6_LogVol.fails_autopart (k : Info) (args : List Str) : M.Fails c!"autopart" (RHEL6_LogVol.parse k args) := by
  unfold RHEL6_LogVol.parse
  fails

theorem F20_LogVol.fails_autopart (k : Info) (args : List Str) : M.Fails c!"autopart" (F20_LogVol.parse k args) := by
  unfold F20_LogVol.parse
  fails

theorem F20_LogVol.fails_mount (k : Info) (args : List Str) : M.Fails c!"mount" (F20_LogVol.parse k args) := by
  unfold F20_LogVol.parse
  fails

theorem F21_LogVol.fails_autopart (k : Info) (args : List Str) : M.Fails c!"autopart" (F21_LogVol.parse k args) := by
  have := F20_LogVol.fails_autopart k args
  unfold F21_LogVol.parse
  fails

theorem F21_LogVol.fails_mount (k : Info) (args : List Str) : M.Fails c!"mount" (F21_LogVol.parse k args) := by
  have := F20_LogVol.fails_mount k args
  unfold F21_LogVol.parse
  fails

theorem RHEL7_LogVol.fails_autopart (k : Info) (args : List Str) : M.Fails c!"autopart" (RHEL7_LogVol.parse k args) := by
  have := F21_LogVol.fails_autopart k args
  unfold RHEL7_LogVol.parse
  fails

theorem RHEL7_LogVol.fails_mount (k : Info) (args : List Str) : M.Fails c!"mount" (RHEL7_LogVol.parse k args) := by
  have := F21_LogVol.fails_mount k args
  unfold RHEL7_LogVol.parse
  fails

theorem F23_LogVol.fails_autopart (k : Info) (args : List Str) : M.Fails c!"autopart" (F23_LogVol.parse k args) := by
  have := F21_LogVol.fails_autopart k args
  unfold F23_LogVol.parse
  fails

theorem F23_LogVol.fails_mount (k : Info) (args : List Str) : M.Fails c!"mount" (F23_LogVol.parse k args) := by
  have := F21_LogVol.fails_mount k args
  unfold F23_LogVol.parse
  fails

theorem F29_LogVol.fails_autopart (k : Info) (args : List Str) : M.Fails c!"autopart" (F29_LogVol.parse k args) := by
  have := F23_LogVol.fails_autopart k args
  unfold F29_LogVol.parse
  fails

theorem F29_LogVol.fails_mount (k : Info) (args : List Str) : M.Fails c!"mount" (F29_LogVol.parse k args) := by
  have := F23_LogVol.fails_mount k args
  unfold F29_LogVol.parse
  fails

theorem RHEL8_LogVol.fails_autopart (k : Info) (args : List Str) : M.Fails c!"autopart" (RHEL8_LogVol.parse k args) := by
  have := F29_LogVol.fails_autopart k args
  unfold RHEL8_LogVol.parse
  fails

theorem RHEL8_LogVol.fails_mount (k : Info) (args : List Str) : M.Fails c!"mount" (RHEL8_LogVol.parse k args) := by
  have := F29_LogVol.fails_mount k args
  unfold RHEL8_LogVol.parse
  fails

theorem RHEL6_Partition.fails_autopart (k : Info) (args : List Str) : M.Fails c!"autopart" (RHEL6_Partition.parse k args) := by
  unfold RHEL6_Partition.parse
  fails

theorem F20_Partition.fails_autopart (k : Info) (args : List Str) : M.Fails c!"autopart" (F20_Partition.parse k args) := by
  unfold F20_Partition.parse
  fails

theorem F20_Partition.fails_mount (k : Info) (args : List Str) : M.Fails c!"mount" (F20_Partition.parse k args) := by
  unfold F20_Partition.parse
  fails

theorem F23_Partition.fails_autopart (k : Info) (args : List Str) : M.Fails c!"autopart" (F23_Partition.parse k args) := by
  have := F20_Partition.fails_autopart k args
  unfold F23_Partition.parse
  fails

theorem F23_Partition.fails_mount (k : Info) (args : List Str) : M.Fails c!"mount" (F23_Partition.parse k args) := by
  have := F20_Partition.fails_mount k args
  unfold F23_Partition.parse
  fails

theorem F29_Partition.fails_autopart (k : Info) (args : List Str) : M.Fails c!"autopart" (F29_Partition.parse k args) := by
  have := F23_Partition.fails_autopart k args
  unfold F29_Partition.parse
  fails

theorem F29_Partition.fails_mount (k : Info) (args : List Str) : M.Fails c!"mount" (F29_Partition.parse k args) := by
  have := F23_Partition.fails_mount k args
  unfold F29_Partition.parse
  fails

theorem RHEL8_Partition.fails_autopart (k : Info) (args : List Str) : M.Fails c!"autopart" (RHEL8_Partition.parse k args) := by
  have := F29_Partition.fails_autopart k args
  unfold RHEL8_Partition.parse
  fails

theorem RHEL8_Partition.fails_mount (k : Info) (args : List Str) : M.Fails c!"mount" (RHEL8_Partition.parse k args) := by
  have := F29_Partition.fails_mount k args
  unfold RHEL8_Partition.parse
  fails

theorem RHEL6_Raid.fails_autopart (k : Info) (args : List Str) : M.Fails c!"autopart" (RHEL6_Raid.parse k args) := by
  unfold RHEL6_Raid.parse
  fails

theorem F20_Raid.fails_autopart (k : Info) (args : List Str) : M.Fails c!"autopart" (F20_Raid.parse k args) := by
  unfold F20_Raid.parse
  fails

theorem F20_Raid.fails_mount (k : Info) (args : List Str) : M.Fails c!"mount" (F20_Raid.parse k args) := by
  unfold F20_Raid.parse
  fails

theorem F23_Raid.fails_autopart (k : Info) (args : List Str) : M.Fails c!"autopart" (F23_Raid.parse k args) := by
  have := F20_Raid.fails_autopart k args
  unfold F23_Raid.parse
  fails

theorem F23_Raid.fails_mount (k : Info) (args : List Str) : M.Fails c!"mount" (F23_Raid.parse k args) := by
  have := F20_Raid.fails_mount k args
  unfold F23_Raid.parse
  fails

theorem F29_Raid.fails_autopart (k : Info) (args : List Str) : M.Fails c!"autopart" (F29_Raid.parse k args) := by
  have := F23_Raid.fails_autopart k args
  unfold F29_Raid.parse
  fails

theorem F29_Raid.fails_mount (k : Info) (args : List Str) : M.Fails c!"mount" (F29_Raid.parse k args) := by
  have := F23_Raid.fails_mount k args
  unfold F29_Raid.parse
  fails

theorem RHEL8_Raid.fails_autopart (k : Info) (args : List Str) : M.Fails c!"autopart" (RHEL8_Raid.parse k args) := by
  have := F29_Raid.fails_autopart k args
  unfold RHEL8_Raid.parse
  fails

theorem RHEL8_Raid.fails_mount (k : Info) (args : List Str) : M.Fails c!"mount" (RHEL8_Raid.parse k args) := by
  have := F29_Raid.fails_mount k args
  unfold RHEL8_Raid.parse
  fails

theorem F16_VolGroup.fails_autopart (k : Info) (args : List Str) : M.Fails c!"autopart" (F16_VolGroup.parse k args) := by
  unfold F16_VolGroup.parse
  fails

theorem F16_VolGroup.fails_mount (k : Info) (args : List Str) : M.Fails c!"mount" (F16_VolGroup.parse k args) := by
  unfold F16_VolGroup.parse
  fails

theorem F23_ReqPart.fails_autopart (k : Info) (args : List Str) : M.Fails c!"autopart" (F23_ReqPart.parse k args) := by
  unfold F23_ReqPart.parse
  fails

theorem F23_ReqPart.fails_mount (k : Info) (args : List Str) : M.Fails c!"mount" (F23_ReqPart.parse k args) := by
  unfold F23_ReqPart.parse
  fails

theorem RHEL6_AutoPart.fails_partition (k : Info) (args : List Str) : M.Fails c!"partition" (RHEL6_AutoPart.parse k args) := by
  unfold RHEL6_AutoPart.parse
  conflict

theorem RHEL6_AutoPart.fails_raid (k : Info) (args : List Str) : M.Fails c!"raid" (RHEL6_AutoPart.parse k args) := by
  unfold RHEL6_AutoPart.parse
  conflict

theorem RHEL6_AutoPart.fails_volgroup (k : Info) (args : List Str) : M.Fails c!"volgroup" (RHEL6_AutoPart.parse k args) := by
  unfold RHEL6_AutoPart.parse
  conflict

theorem RHEL6_AutoPart.fails_logvol (k : Info) (args : List Str) : M.Fails c!"logvol" (RHEL6_AutoPart.parse k args) := by
  unfold RHEL6_AutoPart.parse
  conflict

theorem F20_AutoPart.fails_partition (k : Info) (args : List Str) : M.Fails c!"partition" (F20_AutoPart.parse k args) := by
  unfold F20_AutoPart.parse
  conflict

theorem F20_AutoPart.fails_raid (k : Info) (args : List Str) : M.Fails c!"raid" (F20_AutoPart.parse k args) := by
  unfold F20_AutoPart.parse
  conflict

theorem F20_AutoPart.fails_volgroup (k : Info) (args : List Str) : M.Fails c!"volgroup" (F20_AutoPart.parse k args) := by
  unfold F20_AutoPart.parse
  conflict

theorem F20_AutoPart.fails_logvol (k : Info) (args : List Str) : M.Fails c!"logvol" (F20_AutoPart.parse k args) := by
  unfold F20_AutoPart.parse
  conflict

theorem F20_AutoPart.fails_mount (k : Info) (args : List Str) : M.Fails c!"mount" (F20_AutoPart.parse k args) := by
  unfold F20_AutoPart.parse
  conflict

theorem F21_AutoPart.fails_partition (k : Info) (args : List Str) : M.Fails c!"partition" (F21_AutoPart.parse k args) := by
  have := F20_AutoPart.fails_partition k args
  unfold F21_AutoPart.parse
  fails

theorem F21_AutoPart.fails_raid (k : Info) (args : List Str) : M.Fails c!"raid" (F21_AutoPart.parse k args) := by
  have := F20_AutoPart.fails_raid k args
  unfold F21_AutoPart.parse
  fails

theorem F21_AutoPart.fails_volgroup (k : Info) (args : List Str) : M.Fails c!"volgroup" (F21_AutoPart.parse k args) := by
  have := F20_AutoPart.fails_volgroup k args
  unfold F21_AutoPart.parse
  fails

theorem F21_AutoPart.fails_logvol (k : Info) (args : List Str) : M.Fails c!"logvol" (F21_AutoPart.parse k args) := by
  have := F20_AutoPart.fails_logvol k args
  unfold F21_AutoPart.parse
  fails

theorem F21_AutoPart.fails_mount (k : Info) (args : List Str) : M.Fails c!"mount" (F21_AutoPart.parse k args) := by
  have := F20_AutoPart.fails_mount k args
  unfold F21_AutoPart.parse
  fails

theorem F23_AutoPart.fails_reqpart (k : Info) (args : List Str) : M.Fails c!"reqpart" (F23_AutoPart.parse k args) := by
  unfold F23_AutoPart.parse
  conflict

theorem F23_AutoPart.fails_partition (k : Info) (args : List Str) : M.Fails c!"partition" (F23_AutoPart.parse k args) := by
  have := F21_AutoPart.fails_partition k args
  unfold F23_AutoPart.parse
  fails

theorem F23_AutoPart.fails_raid (k : Info) (args : List Str) : M.Fails c!"raid" (F23_AutoPart.parse k args) := by
  have := F21_AutoPart.fails_raid k args
  unfold F23_AutoPart.parse
  fails

theorem F23_AutoPart.fails_volgroup (k : Info) (args : List Str) : M.Fails c!"volgroup" (F23_AutoPart.parse k args) := by
  have := F21_AutoPart.fails_volgroup k args
  unfold F23_AutoPart.parse
  fails

theorem F23_AutoPart.fails_logvol (k : Info) (args : List Str) : M.Fails c!"logvol" (F23_AutoPart.parse k args) := by
  have := F21_AutoPart.fails_logvol k args
  unfold F23_AutoPart.parse
  fails

theorem F23_AutoPart.fails_mount (k : Info) (args : List Str) : M.Fails c!"mount" (F23_AutoPart.parse k args) := by
  have := F21_AutoPart.fails_mount k args
  unfold F23_AutoPart.parse
  fails

theorem RHEL7_AutoPart.fails_reqpart (k : Info) (args : List Str) : M.Fails c!"reqpart" (RHEL7_AutoPart.parse k args) := by
  unfold RHEL7_AutoPart.parse
  conflict

theorem RHEL7_AutoPart.fails_partition (k : Info) (args : List Str) : M.Fails c!"partition" (RHEL7_AutoPart.parse k args) := by
  have := F21_AutoPart.fails_partition k args
  unfold RHEL7_AutoPart.parse
  fails

theorem RHEL7_AutoPart.fails_raid (k : Info) (args : List Str) : M.Fails c!"raid" (RHEL7_AutoPart.parse k args) := by
  have := F21_AutoPart.fails_raid k args
  unfold RHEL7_AutoPart.parse
  fails

theorem RHEL7_AutoPart.fails_volgroup (k : Info) (args : List Str) : M.Fails c!"volgroup" (RHEL7_AutoPart.parse k args) := by
  have := F21_AutoPart.fails_volgroup k args
  unfold RHEL7_AutoPart.parse
  fails

theorem RHEL7_AutoPart.fails_logvol (k : Info) (args : List Str) : M.Fails c!"logvol" (RHEL7_AutoPart.parse k args) := by
  have := F21_AutoPart.fails_logvol k args
  unfold RHEL7_AutoPart.parse
  fails

theorem RHEL7_AutoPart.fails_mount (k : Info) (args : List Str) : M.Fails c!"mount" (RHEL7_AutoPart.parse k args) := by
  have := F21_AutoPart.fails_mount k args
  unfold RHEL7_AutoPart.parse
  fails

theorem F29_AutoPart.fails_partition (k : Info) (args : List Str) : M.Fails c!"partition" (F29_AutoPart.parse k args) := by
  have := F23_AutoPart.fails_partition k args
  unfold F29_AutoPart.parse
  fails

theorem F29_AutoPart.fails_raid (k : Info) (args : List Str) : M.Fails c!"raid" (F29_AutoPart.parse k args) := by
  have := F23_AutoPart.fails_raid k args
  unfold F29_AutoPart.parse
  fails

theorem F29_AutoPart.fails_volgroup (k : Info) (args : List Str) : M.Fails c!"volgroup" (F29_AutoPart.parse k args) := by
  have := F23_AutoPart.fails_volgroup k args
  unfold F29_AutoPart.parse
  fails

theorem F29_AutoPart.fails_logvol (k : Info) (args : List Str) : M.Fails c!"logvol" (F29_AutoPart.parse k args) := by
  have := F23_AutoPart.fails_logvol k args
  unfold F29_AutoPart.parse
  fails

theorem F29_AutoPart.fails_mount (k : Info) (args : List Str) : M.Fails c!"mount" (F29_AutoPart.parse k args) := by
  have := F23_AutoPart.fails_mount k args
  unfold F29_AutoPart.parse
  fails

theorem F29_AutoPart.fails_reqpart (k : Info) (args : List Str) : M.Fails c!"reqpart" (F29_AutoPart.parse k args) := by
  have := F23_AutoPart.fails_reqpart k args
  unfold F29_AutoPart.parse
  fails

theorem RHEL8_AutoPart.fails_partition (k : Info) (args : List Str) : M.Fails c!"partition" (RHEL8_AutoPart.parse k args) := by
  have := F29_AutoPart.fails_partition k args
  unfold RHEL8_AutoPart.parse
  fails

theorem RHEL8_AutoPart.fails_raid (k : Info) (args : List Str) : M.Fails c!"raid" (RHEL8_AutoPart.parse k args) := by
  have := F29_AutoPart.fails_raid k args
  unfold RHEL8_AutoPart.parse
  fails

theorem RHEL8_AutoPart.fails_volgroup (k : Info) (args : List Str) : M.Fails c!"volgroup" (RHEL8_AutoPart.parse k args) := by
  have := F29_AutoPart.fails_volgroup k args
  unfold RHEL8_AutoPart.parse
  fails

theorem RHEL8_AutoPart.fails_logvol (k : Info) (args : List Str) : M.Fails c!"logvol" (RHEL8_AutoPart.parse k args) := by
  have := F29_AutoPart.fails_logvol k args
  unfold RHEL8_AutoPart.parse
  fails

theorem RHEL8_AutoPart.fails_mount (k : Info) (args : List Str) : M.Fails c!"mount" (RHEL8_AutoPart.parse k args) := by
  have := F29_AutoPart.fails_mount k args
  unfold RHEL8_AutoPart.parse
  fails

theorem RHEL8_AutoPart.fails_reqpart (k : Info) (args : List Str) : M.Fails c!"reqpart" (RHEL8_AutoPart.parse k args) := by
  have := F29_AutoPart.fails_reqpart k args
  unfold RHEL8_AutoPart.parse
  fails

theorem F27_Mount.fails_autopart (k : Info) (args : List Str) : M.Fails c!"autopart" (F27_Mount.parse k args) := by
  unfold F27_Mount.parse
  conflict

theorem F27_Mount.fails_reqpart (k : Info) (args : List Str) : M.Fails c!"reqpart" (F27_Mount.parse k args) := by
  unfold F27_Mount.parse
  conflict

theorem F27_Mount.fails_partition (k : Info) (args : List Str) : M.Fails c!"partition" (F27_Mount.parse k args) := by
  unfold F27_Mount.parse
  conflict

theorem F27_Mount.fails_raid (k : Info) (args : List Str) : M.Fails c!"raid" (F27_Mount.parse k args) := by
  unfold F27_Mount.parse
  conflict

theorem F27_Mount.fails_volgroup (k : Info) (args : List Str) : M.Fails c!"volgroup" (F27_Mount.parse k args) := by
  unfold F27_Mount.parse
  conflict

theorem F27_Mount.fails_logvol (k : Info) (args : List Str) : M.Fails c!"logvol" (F27_Mount.parse k args) := by
  unfold F27_Mount.parse
  conflict

/-! ## Command maps -/

/-- The class of the command `n` has the attribute `a` and refuses the commands of the attributes `bs`. -/
def Refuses (m : List (Str × Command)) (n a : Str) (bs : List Str) : Prop :=
  ∃ c, (n, c) ∈ m ∧ attrName c.name = a ∧ ∀ b ∈ bs, c.Rejects b

/-- Commands, their attributes of the handler and the attributes of the commands they refuse, for
versions with or without `reqpart` and `mount`. -/
def refusals (req mnt : Bool) : List (Str × Str × List Str) :=
  let m := if mnt then [c!"mount"] else []
  [(c!"part", c!"partition", c!"autopart" :: m), (c!"partition", c!"partition", c!"autopart" :: m), (c!"raid", c!"raid", c!"autopart" :: m),
    (c!"volgroup", c!"volgroup", c!"autopart" :: m), (c!"logvol", c!"logvol", c!"autopart" :: m),
    (c!"autopart", c!"autopart", [c!"partition", c!"raid", c!"volgroup", c!"logvol"] ++ (if req then [c!"reqpart"] else []) ++ m)] ++
  (if req then [(c!"reqpart", c!"reqpart", c!"autopart" :: m)] else []) ++
  (if mnt then [(c!"mount", c!"mount", [c!"autopart", c!"partition", c!"raid", c!"volgroup", c!"logvol", c!"reqpart"])] else [])

end Cmd

end Ks
