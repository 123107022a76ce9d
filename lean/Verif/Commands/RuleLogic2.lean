import Verif.Commands.RuleLogic
import Verif.Commands.Logic
import Verif.Commands.Raid
import Verif.Commands.Volgroup
import Verif.Commands.Repo
import Verif.Commands.Timesource
import Verif.Commands.Driverdisk
/-!
# Rules that `parse` checks before it makes the object
-/
namespace Ks
open Cmd

/-- No option or positional argument is stored in `d`. -/
def OptParser.NoDest (p : OptParser) (d : Str) : Prop := (∀ b ∈ p.actions, b.dest ≠ d) ∧ ∀ x ∈ p.strings, x.2.dest ≠ d

instance (p : OptParser) (d : Str) : Decidable (p.NoDest d) := by unfold OptParser.NoDest; infer_instance

theorem OptParser.NoDest.getD {p : OptParser} {d : Str} (hp : p.NoDest d) {l : Option Int} {args : List Str} {r : Ns × List Str}
    (h : p.parseKnown l args = .ok r) : r.1.getD d = .none := by
  have : r.1.Holds d fun _ => False := parseKnown_holds (fun b hb e => hp.1 b hb e)
    (fun b hb e => hb.elim (fun hb => (hp.1 b hb e).elim) fun ⟨_, hb⟩ => (hp.2 _ hb e).elim) (fun b hb e => (hp.1 b hb e).elim) h
  unfold Ns.getD
  cases hg : r.1.get d with
  | none => rfl
  | some v => exact (this v hg).elim

/-- What `set_to_obj` leaves in an attribute. -/
theorem getD_obj {ns o : Ns} (hk : ns.keys.Nodup) (k : Str) : (setToObj ns o).getD k = if ns.getD k = .none then o.getD k else ns.getD k := by
  unfold Ns.getD
  rw [C16_set_to_obj ns o hk]
  cases hg : ns.get k with
  | none => simp
  | some v => cases v <;> simp

theorem truthy_obj {ns o : Ns} (hk : ns.keys.Nodup) {k : Str} (hi : (o.getD k).truthy = false) : ((setToObj ns o).getD k).truthy = (ns.getD k).truthy := by
  rw [getD_obj hk]
  split
  · rename_i h; rw [hi, h]; rfl
  · rfl

set_option linter.unusedSimpArgs false
set_option linter.unusedTactic false

/-! ## repo -/

theorem FC6_Repo.rules (v : Nat) (k : Info) (args : List Str) (n : Nat)
    (hb : (k.dc.init.getD c!"baseurl").truthy = false) (hm : (k.dc.init.getD c!"mirrorlist").truthy = false)
    (hx : (∀ x ∈ [c!"baseurl", c!"mirrorlist"], x ∈ k.exclusive.map (·.1)) ∧
      (∀ x ∈ k.exclusive.map (·.1), x = c!"baseurl" ∨ x = c!"mirrorlist" ∨ x = c!"metalink"))
    (hl : Version.F27 ≤ v → c!"metalink" ∈ k.exclusive.map (·.1) ∧ (k.dc.init.getD c!"metalink").truthy = false)
    (hu : v < Version.F15 → k.urlRequired = true ∧ c!"metalink" ∉ k.exclusive.map (·.1)) :
    M.Post n (FC6_Repo.parse k args) (RepoRules v) := by
  unfold FC6_Repo.parse
  rule_steps
  all_goals try exact trivial
  rename_i ns hns _ hreq _ hone _ _ _ _ _ _
  have hk := C16_namespace_keys _ _ _ _ hns
  have two : ∀ a b : Str, a ∈ k.exclusive.map (·.1) → b ∈ k.exclusive.map (·.1) → a ≠ b → (ns.getD a).truthy = true → (ns.getD b).truthy = true → False := by
    intro a b ha hb hab h1 h2
    obtain ⟨x, hx, rfl⟩ := List.mem_map.1 ha
    obtain ⟨y, hy, rfl⟩ := List.mem_map.1 hb
    have m1 : x ∈ k.exclusive.filter (fun o => (ns.getD o.1).truthy) := List.mem_filter.2 ⟨hx, h1⟩
    have m2 : y ∈ k.exclusive.filter (fun o => (ns.getD o.1).truthy) := List.mem_filter.2 ⟨hy, h2⟩
    simp only [decide_eq_false_iff_not, List.length_map] at hone
    match he : k.exclusive.filter (fun o => (ns.getD o.1).truthy) with
    | [] => rw [he] at m1; cases m1
    | [z] => rw [he] at m1 m2; simp only [List.mem_singleton] at m1 m2; exact hab (by rw [m1, m2])
    | _ :: _ :: _ => rw [he] at hone; simp at hone
  constructor
  · simp (decide := true) only [Ns.on, Ns.getD_set, if_false, truthy_obj hk hb, truthy_obj hk hm]
    exact fun ⟨h1, h2⟩ => two _ _ (hx.1 _ (by decide)) (hx.1 _ (by decide)) (by decide) h1 h2
  · intro hv
    obtain ⟨hm1, hm2⟩ := hl hv
    simp (decide := true) only [Ns.on, Ns.getD_set, if_false, truthy_obj hk hb, truthy_obj hk hm, truthy_obj hk hm2]
    rintro ⟨h1, h2 | h2⟩
    · exact two _ _ hm1 (hx.1 _ (by decide)) (by decide) h1 h2
    · exact two _ _ hm1 (hx.1 c!"mirrorlist" (by decide)) (by decide) h1 h2
  · intro hv
    obtain ⟨h1, h2⟩ := hu hv
    simp (decide := true) only [Ns.on, Ns.getD_set, if_false, truthy_obj hk hb, truthy_obj hk hm]
    rw [h1] at hreq
    match he : k.exclusive.filter (fun o => (ns.getD o.1).truthy) with
    | [] => simp [he] at hreq
    | x :: t =>
      have := List.mem_filter.1 (he ▸ List.mem_cons_self : x ∈ k.exclusive.filter fun o => (ns.getD o.1).truthy)
      have hm := List.mem_map_of_mem (f := (·.1)) this.1
      rcases hx.2 _ hm with e | e | e
      · left; rw [← e]; exact this.2
      · right; rw [← e]; exact this.2
      · rw [e] at hm; exact (h2 hm).elim

/-! ## timesource -/

theorem F33_Timesource.rules (dc : DataCls) (args : List Str) (n : Nat) (h1 : (dc.init.getD c!"ntp_server").truthy = false)
    (h2 : (dc.init.getD c!"ntp_pool").truthy = false) (h3 : (dc.init.getD c!"ntp_disable").truthy = false) :
    M.Post n (F33_Timesource.parse (F33_Timesource.info dc) args) TimesourceRules := by
  unfold F33_Timesource.parse
  rule_steps
  all_goals try exact trivial
  rename_i ns hns _ _ _ hsome _ hone
  have hk := C16_namespace_keys _ _ _ _ hns
  simp only [F33_Timesource.info, List.filter, List.length_map, decide_eq_false_iff_not] at hsome hone h1 h2 h3
  have hs : ∀ s, ((setToObj ns dc.init).set c!"lineno" s).on = ((setToObj ns dc.init).set c!"lineno" s).on := fun _ => rfl
  constructor <;> simp (decide := true) only [Ns.on, Ns.getD_set, if_false, F33_Timesource.info, truthy_obj hk h1, truthy_obj hk h2, truthy_obj hk h3]
  all_goals
    cases e1 : (ns.getD c!"ntp_server").truthy <;> cases e2 : (ns.getD c!"ntp_pool").truthy <;> cases e3 : (ns.getD c!"ntp_disable").truthy <;>
      simp [e1, e2, e3] at hsome hone ⊢

/-! ## driverdisk -/

theorem FC3_DriverDisk.rules (k : Info) (args : List Str) (n : Nat) (h1 : (k.dc.init.getD c!"partition").truthy = false)
    (h2 : (k.dc.init.getD c!"source").truthy = false) : M.Post n (FC3_DriverDisk.parse k args) (DriverdiskRules Version.FC3) := by
  unfold FC3_DriverDisk.parse
  rule_steps
  all_goals try exact trivial
  rename_i r hr _ _ _ _ _ hone _ hsome _ _
  have hk := C16_known_keys _ _ _ _ _ hr
  constructor <;> simp (decide := true) only [false_and, false_implies, Ns.on, Ns.getD_ite, Ns.getD_set, if_true, if_false, ite_self, truthy_obj hk h1, truthy_obj hk h2]
  · rintro ⟨ha, hb⟩
    split at ha
    · grind
    · rw [truthy_obj hk h1] at ha; grind
  · cases hp : (r.1.getD c!"partition").truthy
    · right; left; simpa [hp] using hsome
    · left; exact ⟨_, rfl⟩

theorem FC4_DriverDisk.rules (k : Info) (args : List Str) (n : Nat) (h1 : (k.dc.init.getD c!"partition").truthy = false)
    (h2 : (k.dc.init.getD c!"source").truthy = false) (h3 : (k.dc.init.getD c!"biospart").truthy = false) :
    M.Post n (FC4_DriverDisk.parse k args) (DriverdiskRules Version.F34) := by
  unfold FC4_DriverDisk.parse
  rule_steps
  all_goals try exact trivial
  rename_i r hr _ _ _ _ _ hps _ hpb _ hsb _ hsome _ _
  have hk := C16_known_keys _ _ _ _ _ hr
  have hp : ∀ x : Val, (if (r.1.getD c!"partition").truthy = true then x else (setToObj r.1 k.dc.init).getD c!"partition").truthy = true → (r.1.getD c!"partition").truthy = true := by
    intro x h
    split at h
    · assumption
    · rwa [truthy_obj hk h1] at h
  constructor <;> simp (decide := true) only [true_and, forall_const, Ns.on, Ns.getD_ite, Ns.getD_set, if_true, if_false, ite_self, truthy_obj hk h1, truthy_obj hk h2, truthy_obj hk h3]
  · rintro ⟨ha, hb⟩
    have := hp _ ha
    grind
  · cases hp : (r.1.getD c!"partition").truthy
    · right; grind
    · left; exact ⟨_, rfl⟩
  · intro hb
    refine ⟨fun ha => ?_, ?_⟩
    · have := hp _ ha
      grind
    · grind

/-! ## raid -/

theorem FC3_Raid.rules (k : Info) (args : List Str) (n : Nat) (hl : k.op.StarPos c!"partitions") (hm : k.op.NoDest c!"members")
    (i1 : k.dc.init.getD c!"format" = .bool true) (i2 : k.dc.init.getD c!"preexist" = .bool false) (i3 : k.dc.init.getD c!"members" = .list []) :
    M.Post n (FC3_Raid.parse k args) (RaidRules Version.FC3) := by
  unfold FC3_Raid.parse
  rule_steps
  all_goals try exact trivial
  rename_i r hr _ _ _ _ _ hnew _ hold _ _ x2 _ x3 _ _ _ _ _ _ hlev _ hdev
  have hk := C16_known_keys _ _ _ _ _ hr
  have hpl := hl.get ⟨_, hr⟩
  have hmm := hm.getD hr
  generalize hP : (!((r.1.getD c!"partitions").truthy) && !r.2.isEmpty) = P at *
  generalize hns1 : (if P = true then r.1.set c!"partitions" (Val.list r.2) else r.1) = ns1 at *
  have k1 : ns1.keys.Nodup := by rw [← hns1]; split; exact Ns.nodup_set hk _ _; exact hk
  have p1 : (ns1.getD c!"partitions").IsList := by
    rw [← hns1]
    split
    · rw [Ns.getD_set, if_pos rfl]; trivial
    · exact hpl
  have m1 : ns1.getD c!"members" = .none := by
    rw [← hns1]
    split
    · rw [Ns.getD_set, if_neg (by decide)]; exact hmm
    · exact hmm
  generalize hns2 : (if (!(ns1.getD c!"format").truthy) = true then ns1.set c!"preexist" (Val.bool true) else ns1) = ns2 at *
  have k2 : ns2.keys.Nodup := by rw [← hns2]; split; exact Ns.nodup_set k1 _ _; exact k1
  have p2 : (ns2.getD c!"partitions").IsList := by
    rw [← hns2]
    split
    · rw [Ns.getD_set, if_neg (by decide)]; exact p1
    · exact p1
  have m2 : ns2.getD c!"members" = .none := by
    rw [← hns2]
    split
    · rw [Ns.getD_set, if_neg (by decide)]; exact m1
    · exact m1
  have f2 : ns2.getD c!"format" = ns1.getD c!"format" := by
    rw [← hns2]
    split
    · rw [Ns.getD_set, if_neg (by decide)]
    · rfl
  have hpre : ((setToObj ns2 k.dc.init).getD c!"preexist").truthy = (ns2.getD c!"preexist").truthy := truthy_obj k2 (by rw [i2]; rfl)
  have hlen : decide ((ns2.getD c!"partitions").len > 0) = (ns2.getD c!"partitions").truthy := by
    unfold Val.IsList at p2
    split at p2
    · rename_i l he
      rw [he]; cases l <;> simp [Val.len, Val.truthy]
    · exact p2.elim
  have hmem : (setToObj ns2 k.dc.init).getD c!"members" = .list [] := by rw [getD_obj k2, if_pos m2, i3]
  constructor <;> simp (decide := true) only [false_implies, Ns.on, Ns.getD_ite, Ns.getD_set, if_true, if_false, ite_self, hpre, hlen, hmem] at *
  · intro hp
    refine ⟨by grind, ?_⟩
    rw [if_pos (by grind)]
    grind
  · intro hp
    refine ⟨?_, ?_⟩
    · rw [hp, pyEq_str] at hdev; simpa using hdev
    · rw [if_neg (by grind)]
      simp [Val.truthy]
  · intro hf
    rw [getD_obj k2, i1] at hf
    split at hf
    · exact absurd rfl hf
    · rw [f2] at hf
      rw [← hns2, if_pos (by simpa using hf), Ns.getD_set, if_pos rfl]
      rfl

theorem RHEL6_Raid.rules (k : Info) (args : List Str) (n : Nat) (hl : k.op.StarPos c!"partitions") (hm : k.op.NoDest c!"members")
    (i1 : k.dc.init.getD c!"format" = .bool true) (i2 : k.dc.init.getD c!"preexist" = .bool false) (i3 : k.dc.init.getD c!"members" = .list []) :
    M.Post n (RHEL6_Raid.parse k args) (RaidRules Version.RHEL6) := by
  unfold RHEL6_Raid.parse
  repeat' (first | rule_when | (with_reducible apply FC3_Raid.rules) | post_step | (intro _))
  all_goals try assumption
  apply post_pure; cases ‹RaidRules _ _›; clear hl hm i1 i2 i3; rule_close

theorem F20_Raid.rules (k : Info) (args : List Str) (n : Nat) (hl : k.op.StarPos c!"partitions") (hm : k.op.NoDest c!"members")
    (i1 : k.dc.init.getD c!"format" = .bool true) (i2 : k.dc.init.getD c!"preexist" = .bool false) (i3 : k.dc.init.getD c!"members" = .list []) :
    M.Post n (F20_Raid.parse k args) (RaidRules Version.F22) := by
  unfold F20_Raid.parse
  repeat' (first | rule_when | (with_reducible apply FC3_Raid.rules) | post_step | (intro _))
  all_goals try assumption
  apply post_pure; cases ‹RaidRules _ _›; clear hl hm i1 i2 i3; rule_close

theorem F23_Raid.rules (k : Info) (args : List Str) (n : Nat) (hl : k.op.StarPos c!"partitions") (hm : k.op.NoDest c!"members")
    (i1 : k.dc.init.getD c!"format" = .bool true) (i2 : k.dc.init.getD c!"preexist" = .bool false) (i3 : k.dc.init.getD c!"members" = .list []) :
    M.Post n (F23_Raid.parse k args) (RaidRules Version.F28) := by
  unfold F23_Raid.parse
  repeat' (first | rule_when | (with_reducible apply F20_Raid.rules) | post_step | (intro _))
  all_goals try assumption
  apply post_pure; cases ‹RaidRules _ _›; clear hl hm i1 i2 i3; rule_close

theorem F29_Raid.rules (k : Info) (args : List Str) (n : Nat) (hl : k.op.StarPos c!"partitions") (hm : k.op.NoDest c!"members")
    (i1 : k.dc.init.getD c!"format" = .bool true) (i2 : k.dc.init.getD c!"preexist" = .bool false) (i3 : k.dc.init.getD c!"members" = .list []) :
    M.Post n (F29_Raid.parse k args) (RaidRules Version.F34) := by
  unfold F29_Raid.parse
  repeat' (first | rule_when | (with_reducible apply F23_Raid.rules) | post_step | (intro _))
  all_goals try assumption
  apply post_pure; cases ‹RaidRules _ _›; clear hl hm i1 i2 i3; rule_close

theorem RHEL8_Raid.rules (k : Info) (args : List Str) (n : Nat) (hl : k.op.StarPos c!"partitions") (hm : k.op.NoDest c!"members")
    (i1 : k.dc.init.getD c!"format" = .bool true) (i2 : k.dc.init.getD c!"preexist" = .bool false) (i3 : k.dc.init.getD c!"members" = .list []) :
    M.Post n (RHEL8_Raid.parse k args) (RaidRules Version.RHEL8) := by
  unfold RHEL8_Raid.parse
  repeat' (first | rule_when | (with_reducible apply F29_Raid.rules) | post_step | (intro _))
  all_goals try assumption
  apply post_pure; cases ‹RaidRules _ _›; clear hl hm i1 i2 i3; rule_close

/-! ## volgroup -/

theorem FC3_VolGroup.rules (k : Info) (args : List Str) (n : Nat) (hm : k.op.NoDest c!"physvols")
    (i1 : k.dc.init.getD c!"format" = .bool true) (i2 : k.dc.init.getD c!"preexist" = .bool false) (i3 : k.dc.init.getD c!"physvols" = .list []) :
    M.Post n (FC3_VolGroup.parse k args) (VolgroupRules Version.FC3) := by
  unfold FC3_VolGroup.parse
  rule_steps
  all_goals try exact trivial
  rename_i r hr _ _ _ _ _ hnew _ hold _ _ _ _ _ _
  have hk := C16_known_keys _ _ _ _ _ hr
  have hmm := hm.getD hr
  generalize hns1 : (if (!(r.1.getD c!"partitions").truthy) = true then
    if (!r.2.isEmpty) = true then r.1.set c!"partitions" (Val.list r.2)
    else if (r.1.getD c!"name").truthy = true then
      (r.1.set c!"partitions" (Val.list (List.drop 1 (r.1.getD c!"name").items))).set c!"name" (Val.list (List.take 1 (r.1.getD c!"name").items))
    else r.1 else r.1) = ns1 at *
  have k1 : ns1.keys.Nodup := by
    rw [← hns1]
    (repeat' split) <;> first | exact hk | exact Ns.nodup_set hk _ _ | exact Ns.nodup_set (Ns.nodup_set hk _ _) _ _
  have m1 : ns1.getD c!"physvols" = .none := by
    rw [← hns1]
    (repeat' split) <;> first | exact hmm | (simp (decide := true) only [Ns.getD_set, if_false]; exact hmm)
  clear hns1
  generalize hns2 : (if (!(ns1.getD c!"format").truthy) = true then ns1.set c!"preexist" (Val.bool true) else ns1) = ns2 at *
  have k2 : ns2.keys.Nodup := by rw [← hns2]; split; exact Ns.nodup_set k1 _ _; exact k1
  have m2 : ns2.getD c!"physvols" = .none := by
    rw [← hns2]
    split
    · rw [Ns.getD_set, if_neg (by decide)]; exact m1
    · exact m1
  have f2 : ns2.getD c!"format" = ns1.getD c!"format" := by
    rw [← hns2]
    split
    · rw [Ns.getD_set, if_neg (by decide)]
    · rfl
  have hpre : ((setToObj ns2 k.dc.init).getD c!"preexist").truthy = (ns2.getD c!"preexist").truthy := truthy_obj k2 (by rw [i2]; rfl)
  have hmem : (setToObj ns2 k.dc.init).getD c!"physvols" = .list [] := by rw [getD_obj k2, if_pos m2, i3]
  constructor <;> simp (decide := true) only [false_implies, Ns.on, Ns.getD_ite, Ns.getD_set, if_true, if_false, ite_self, hpre, hmem] at *
  · intro hp
    rw [if_pos (by grind)]
    grind
  · intro hp
    rw [if_neg (by grind)]
    simp [Val.truthy]
  · intro hf
    rw [getD_obj k2, i1] at hf
    split at hf
    · exact absurd rfl hf
    · rw [f2] at hf
      rw [← hns2, if_pos (by simpa using hf), Ns.getD_set, if_pos rfl]
      rfl

theorem F16_VolGroup.rules (k : Info) (args : List Str) (n : Nat) (hm : k.op.NoDest c!"physvols")
    (i1 : k.dc.init.getD c!"format" = .bool true) (i2 : k.dc.init.getD c!"preexist" = .bool false) (i3 : k.dc.init.getD c!"physvols" = .list []) :
    M.Post n (F16_VolGroup.parse k args) (VolgroupRules Version.F34) := by
  unfold F16_VolGroup.parse
  repeat' (first | rule_when | (with_reducible apply FC3_VolGroup.rules) | post_step | (intro _))
  all_goals try assumption
  apply post_pure; cases ‹VolgroupRules _ _›; clear hm i1 i2 i3; rule_close

/-! ## From one version to another -/

theorem LogvolRules.mono (w : Nat) {v : Nat} {d : Ns} (h : LogvolRules w d) (c : ((Version.F17 ≤ v) → Version.F17 ≤ w) ∧ ((Version.F20 ≤ v ∨ v = Version.RHEL6) → Version.F20 ≤ w ∨ w = Version.RHEL6) ∧ ((Version.F20 ≤ v) → Version.F20 ≤ w) ∧ ((Version.F21 ≤ v) → Version.F21 ≤ w) ∧ ((Version.F23 ≤ v ∨ v = Version.RHEL7) → Version.F23 ≤ w ∨ w = Version.RHEL7) ∧ ((Version.F23 ≤ v) → Version.F23 ≤ w) ∧ ((Version.F29 ≤ v ∨ v = Version.RHEL8) → Version.F29 ≤ w ∨ w = Version.RHEL8) ∧ ((v = Version.RHEL8) → w = Version.RHEL8)) : LogvolRules v d :=
  ⟨h.noformat, fun hv => h.resize (c.1 hv), fun hv => h.thin (c.2.1 hv), fun hv => h.pool (c.2.1 hv), fun hv => h.size (c.2.2.1 hv), fun hv => h.percent (c.2.2.1 hv), fun hv => h.one (c.2.2.2.1 hv), fun hv => h.mkfs (c.2.2.2.2.1 hv), fun hv => h.cache (c.2.2.2.2.2.1 hv), fun hv => h.mode (c.2.2.2.2.2.1 hv), fun hv => h.pbkdf (c.2.2.2.2.2.2.1 hv), fun hv => h.btrfs (c.2.2.2.2.2.2.2 hv)⟩

theorem PartRules.mono (w : Nat) {v : Nat} {d : Ns} (h : PartRules w d) (c : ((Version.F17 ≤ v) → Version.F17 ≤ w) ∧ ((Version.F20 ≤ v) → Version.F20 ≤ w) ∧ ((Version.F23 ≤ v ∨ v = Version.RHEL7) → Version.F23 ≤ w ∨ w = Version.RHEL7) ∧ ((Version.F29 ≤ v ∨ v = Version.RHEL8) → Version.F29 ≤ w ∨ w = Version.RHEL8) ∧ ((v = Version.RHEL8) → w = Version.RHEL8)) : PartRules v d :=
  ⟨fun hv => h.resize (c.1 hv), fun hv => h.tmpfs (c.2.1 hv), fun hv => h.mkfs (c.2.2.1 hv), fun hv => h.pbkdf (c.2.2.2.1 hv), fun hv => h.btrfs (c.2.2.2.2 hv)⟩

theorem RaidRules.mono (w : Nat) {v : Nat} {d : Ns} (h : RaidRules w d) (c : ((Version.F23 ≤ v ∨ v = Version.RHEL7) → Version.F23 ≤ w ∨ w = Version.RHEL7) ∧ ((Version.F29 ≤ v ∨ v = Version.RHEL8) → Version.F29 ≤ w ∨ w = Version.RHEL8) ∧ ((v = Version.RHEL8) → w = Version.RHEL8)) : RaidRules v d :=
  ⟨h.new, h.old, h.noformat, fun hv => h.mkfs (c.1 hv), fun hv => h.pbkdf (c.2.1 hv), fun hv => h.btrfs (c.2.2 hv)⟩

theorem VolgroupRules.mono (w : Nat) {v : Nat} {d : Ns} (h : VolgroupRules w d) (c : ((Version.F16 ≤ v ∨ v = Version.RHEL6) → Version.F16 ≤ w ∨ w = Version.RHEL6)) : VolgroupRules v d :=
  ⟨h.new, h.old, h.noformat, fun hv => h.space (c hv), fun hv => h.percent (c hv)⟩

theorem BtrfsRules.mono (w : Nat) {v : Nat} {d : Ns} (h : BtrfsRules w d) (c : ((Version.F23 ≤ v ∨ v = Version.RHEL7) → Version.F23 ≤ w ∨ w = Version.RHEL7)) : BtrfsRules v d :=
  ⟨h.devices, h.subvol, h.format, fun hv => h.mkfs (c hv)⟩

theorem NetworkRules.mono (w : Nat) {v : Nat} {d : Ns} (h : NetworkRules w d) (c : ((Version.F22 ≤ v ∨ v = Version.RHEL7) → Version.F22 ≤ w ∨ w = Version.RHEL7) ∧ ((Version.F24 ≤ v) → Version.F24 ≤ w) ∧ ((Version.F27 ≤ v ∨ v = Version.RHEL7) → Version.F27 ≤ w ∨ w = Version.RHEL7)) : NetworkRules v d :=
  ⟨fun hv => h.bridge (c.1 hv), fun hv => h.ipv4 (c.2.1 hv), fun hv => h.bindto (c.2.2 hv)⟩

theorem RepoRules.mono (w : Nat) {v : Nat} {d : Ns} (h : RepoRules w d) (c : ((Version.F27 ≤ v) → Version.F27 ≤ w) ∧ ((v < Version.F15) → w < Version.F15)) : RepoRules v d :=
  ⟨h.one, fun hv => h.metalink (c.1 hv), fun hv => h.some (c.2 hv)⟩

theorem DriverdiskRules.mono (w : Nat) {v : Nat} {d : Ns} (h : DriverdiskRules w d) (c : Version.RHEL4 ≤ v ↔ Version.RHEL4 ≤ w) : DriverdiskRules v d :=
  ⟨h.one, by rw [c]; exact h.some, by rw [c]; exact h.bios⟩

end Ks
