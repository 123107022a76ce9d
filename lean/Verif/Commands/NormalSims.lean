import Verif.Commands.NormalLogic
import Verif.Commands.ReadBackPart
import Verif.Commands.ReadBackLogvol
import Verif.Commands.ReadBackNetwork
import Verif.Commands.ReadBackOthers
/-!
# The `parse` methods treat lines alike that give the option parser's results alike
-/
namespace Ks.Cmd

set_option linter.unusedTactic false
set_option linter.unusedVariables false

/-- Follow both programs. -/
macro "sim_steps" : tactic => `(tactic| ((try dsimp only); repeat' sim_step))

variable (k : Info) (args args' : List Str)

/-! ## Commands with options only -/

theorem twin_used {ns ns' init : Ns} (hT : Twin [] init ns ns') {x : List (Str × Str)} (hx : ∀ o ∈ x, (init.getD o.1).truthy = false) :
    x.filter (fun o => (ns.getD o.1).truthy) = x.filter fun o => (ns'.getD o.1).truthy :=
  List.filter_congr fun o ho => hT.truthy (by simp) (hx o ho)

theorem FC6_Repo.sim (hx : ∀ o ∈ k.exclusive, (k.dc.init.getD o.1).truthy = false) (h : Follows k.op k.dc.init [] noWords args args') :
    M.Sim (Alike [c!"lineno"]) (FC6_Repo.parse k args) (FC6_Repo.parse k args') := by
  unfold FC6_Repo.parse
  apply sim_bind_args h rfl
  intro ns ns' hT
  simp only [twin_used hT hx]
  sim_steps

theorem F33_Timesource.sim (hx : ∀ o ∈ k.exclusive, (k.dc.init.getD o.1).truthy = false) (h : Follows k.op k.dc.init [] noWords args args') :
    M.Sim (Alike [c!"lineno"]) (F33_Timesource.parse k args) (F33_Timesource.parse k args') := by
  unfold F33_Timesource.parse
  apply sim_bind_args h rfl
  intro ns ns' hT
  simp only [twin_used hT hx]
  sim_steps

theorem FC6_User.sim (h : Follows k.op k.dc.init [] noWords args args') : M.Sim (Alike [c!"lineno"]) (FC6_User.parse k args) (FC6_User.parse k args') := by
  unfold FC6_User.parse
  sim_steps

theorem F12_Group.sim (h : Follows k.op k.dc.init [] noWords args args') : M.Sim (Alike [c!"lineno"]) (F12_Group.parse k args) (F12_Group.parse k args') := by
  unfold F12_Group.parse
  sim_steps

theorem F12_Fcoe.sim (h : Follows k.op k.dc.init [] noWords args args') : M.Sim (Alike [c!"lineno"]) (F12_Fcoe.parse k args) (F12_Fcoe.parse k args') := by
  unfold F12_Fcoe.parse
  sim_steps

theorem FC6_Iscsi.sim (h : Follows k.op k.dc.init [] noWords args args') : M.Sim (Alike [c!"lineno"]) (FC6_Iscsi.parse k args) (FC6_Iscsi.parse k args') := by
  unfold FC6_Iscsi.parse
  sim_steps

theorem FC3_ZFCP.sim (h : Follows k.op k.dc.init [] noWords args args') : M.Sim (Alike [c!"lineno"]) (FC3_ZFCP.parse k args) (FC3_ZFCP.parse k args') := by
  unfold FC3_ZFCP.parse
  sim_steps

theorem F29_Module.sim (h : Follows k.op k.dc.init [] noWords args args') : M.Sim (Alike [c!"lineno"]) (F29_Module.parse k args) (F29_Module.parse k args') := by
  unfold F29_Module.parse
  sim_steps

/-! ## `network` -/

theorem FC3_Network.sim (X : List Str) (h : Follows k.op k.dc.init X noWords args args') :
    M.Sim (Alike (c!"lineno" :: X)) (FC3_Network.parse k args) (FC3_Network.parse k args') := by
  unfold FC3_Network.parse
  sim_steps

theorem F22_Network.sim (X : List Str) (hX : c!"bridgeopts" ∉ X ∧ c!"bridgeslaves" ∉ X) (h : Follows k.op k.dc.init X noWords args args') :
    M.Sim (Alike (c!"lineno" :: X)) (F22_Network.parse k args) (F22_Network.parse k args') := by
  unfold F22_Network.parse
  apply sim_bind (FC3_Network.sim k args args' X h)
  intro _ _ _
  sim_steps

theorem F24_Network.sim (X : List Str) (hX : ∀ x ∈ X, x = c!"bootProto") (h : Follows k.op k.dc.init X noWords args args') :
    M.Sim (Alike (c!"lineno" :: X)) (F24_Network.parse k args) (F24_Network.parse k args') := by
  unfold F24_Network.parse
  apply sim_bind (F22_Network.sim k args args' X ⟨fun e => absurd (hX _ e) (by decide), fun e => absurd (hX _ e) (by decide)⟩ h)
  intro d d' ha
  have e : d.getD c!"noipv4" = d'.getD c!"noipv4" := by
    refine ha.getD ?_
    simp only [List.mem_cons, not_or]
    exact ⟨by decide, fun e => absurd (hX _ e) (by decide)⟩
  apply sim_pure
  rw [e]
  split
  · exact alike_set ha rfl
  · exact ha

theorem F27_Network.sim (X : List Str) (hX : ∀ x ∈ X, x = c!"bootProto") (h : Follows k.op k.dc.init X noWords args args') :
    M.Sim (Alike (c!"lineno" :: X)) (F27_Network.parse k args) (F27_Network.parse k args') := by
  unfold F27_Network.parse
  apply sim_bind (F24_Network.sim k args args' X hX h)
  intro d d' ha
  have e : ∀ x, x ≠ c!"lineno" → x ≠ c!"bootProto" → d.getD x = d'.getD x := fun x h1 h2 => ha.getD (by
    simp only [List.mem_cons, not_or]
    exact ⟨h1, fun e => h2 (hX _ e)⟩)
  rw [e c!"bindto" (by decide) (by decide), e c!"vlanid" (by decide) (by decide), e c!"bondopts" (by decide) (by decide)]
  sim_steps

theorem RHEL7_Network.sim (h : Follows k.op k.dc.init [] noWords args args') :
    M.Sim (Alike [c!"lineno"]) (RHEL7_Network.parse k args) (RHEL7_Network.parse k args') := by
  unfold RHEL7_Network.parse
  apply sim_bind (FC3_Network.sim k args args' [] h)
  intro _ _ ha
  rw [ha.getD (k := c!"interfacename") (by decide)]
  split
  · intro _ _ _ hb; cases hb
  sim_steps

/-- With `--noipv4`, there is no boot protocol. -/
def NoProto (op : OptParser) (init : Ns) (n : Nat) (args : List Str) (d : Ns) : Prop :=
  ((d.getD c!"noipv4").truthy = true → d.get c!"bootProto" = some (.str [])) ∧
    ((d.getD c!"noipv4").truthy = false → ParsedBy op init [c!"lineno"] n args d)

theorem F24_Network.noProto (n : Nat) : M.Post n (F24_Network.parse k args) (NoProto k.op k.dc.init n args) := by
  unfold F24_Network.parse
  apply post_bind (F22_Network.parsed k args n)
  intro d hd
  apply post_pure
  by_cases hn : (d.getD c!"noipv4").truthy = true
  · rw [if_pos hn]
    refine ⟨fun _ => Ns.get_set_self _ _ _, fun h => ?_⟩
    rw [Ns.getD, Ns.get_set_ne _ _ (by decide), ← Ns.getD, hn] at h
    cases h
  · rw [if_neg hn]
    exact ⟨fun h => absurd h hn, fun _ => hd⟩

theorem F27_Network.noProto (n : Nat) : M.Post n (F27_Network.parse k args) (NoProto k.op k.dc.init n args) := by
  unfold F27_Network.parse
  repeat' (first | rule_when | (with_reducible apply F24_Network.noProto) | (with_reducible apply post_pure) | post_step | (intro _))
  all_goals assumption

/-! ## `part` -/

theorem FC3_Partition.sim (hi : k.dc.init.get c!"mntpoint" = none) (h : Follows k.op k.dc.init [] noWords args args') :
    M.Sim (Alike [c!"lineno"]) (FC3_Partition.parse k args) (FC3_Partition.parse k args') := by
  unfold FC3_Partition.parse
  apply sim_bind_known h
  intro ns ns' ex hT
  dsimp only
  rw [hT.getD (k := c!"mntpoint") (by decide) hi]
  sim_steps

theorem FC3_Partition.mountOf (n : Nat) : M.Post n (FC3_Partition.parse k args) (MountOf k.op n args) := by
  unfold FC3_Partition.parse
  parsed_steps
  all_goals first | trivial | (refine ⟨_, _, _, ‹_›, ‹_›, ?_⟩; exact Ns.get_set_self _ _ _)

theorem RHEL6_Partition.sim (hi : k.dc.init.get c!"mntpoint" = none) (h : Follows k.op k.dc.init [] noWords args args') :
    M.Sim (Alike [c!"lineno"]) (RHEL6_Partition.parse k args) (RHEL6_Partition.parse k args') := by
  unfold RHEL6_Partition.parse
  apply sim_bind (FC3_Partition.sim k args args' hi h)
  intro _ _ _
  sim_steps

theorem RHEL6_Partition.mountOf (n : Nat) : M.Post n (RHEL6_Partition.parse k args) (MountOf k.op n args) := by
  unfold RHEL6_Partition.parse
  repeat' (first | rule_when | (with_reducible apply FC3_Partition.mountOf) | (with_reducible apply post_pure) | post_step | (intro _))
  all_goals assumption

theorem F17_Partition.sim (hi : k.dc.init.get c!"mntpoint" = none) (h : Follows k.op k.dc.init [] noWords args args') :
    M.Sim (Alike [c!"lineno"]) (F17_Partition.parse k args) (F17_Partition.parse k args') := by
  unfold F17_Partition.parse
  apply sim_bind (FC3_Partition.sim k args args' hi h)
  intro _ _ _
  sim_steps

theorem F17_Partition.mountOf (n : Nat) : M.Post n (F17_Partition.parse k args) (MountOf k.op n args) := by
  unfold F17_Partition.parse
  repeat' (first | rule_when | (with_reducible apply FC3_Partition.mountOf) | (with_reducible apply post_pure) | post_step | (intro _))
  all_goals assumption

theorem F20_Partition.sim (hi : k.dc.init.get c!"mntpoint" = none) (h : Follows k.op k.dc.init [] noWords args args') :
    M.Sim (Alike [c!"lineno"]) (F20_Partition.parse k args) (F20_Partition.parse k args') := by
  unfold F20_Partition.parse
  apply sim_bind (F17_Partition.sim k args args' hi h)
  intro _ _ _
  sim_steps

theorem F20_Partition.mountOf (n : Nat) : M.Post n (F20_Partition.parse k args) (MountOf k.op n args) := by
  unfold F20_Partition.parse
  repeat' (first | rule_when | (with_reducible apply F17_Partition.mountOf) | (with_reducible apply post_pure) | post_step | (intro _))
  all_goals assumption

theorem F23_Partition.sim (hi : k.dc.init.get c!"mntpoint" = none) (h : Follows k.op k.dc.init [] noWords args args') :
    M.Sim (Alike [c!"lineno"]) (F23_Partition.parse k args) (F23_Partition.parse k args') := by
  unfold F23_Partition.parse
  apply sim_bind (F20_Partition.sim k args args' hi h)
  intro _ _ _
  sim_steps

theorem F23_Partition.mountOf (n : Nat) : M.Post n (F23_Partition.parse k args) (MountOf k.op n args) := by
  unfold F23_Partition.parse
  repeat' (first | rule_when | (with_reducible apply F20_Partition.mountOf) | (with_reducible apply post_pure) | post_step | (intro _))
  all_goals assumption

theorem F29_Partition.sim (hi : k.dc.init.get c!"mntpoint" = none) (h : Follows k.op k.dc.init [] noWords args args') :
    M.Sim (Alike [c!"lineno"]) (F29_Partition.parse k args) (F29_Partition.parse k args') := by
  unfold F29_Partition.parse
  apply sim_bind (F23_Partition.sim k args args' hi h)
  intro _ _ _
  sim_steps

theorem F29_Partition.mountOf (n : Nat) : M.Post n (F29_Partition.parse k args) (MountOf k.op n args) := by
  unfold F29_Partition.parse
  repeat' (first | rule_when | (with_reducible apply F23_Partition.mountOf) | (with_reducible apply post_pure) | post_step | (intro _))
  all_goals assumption

theorem RHEL8_Partition.sim (hi : k.dc.init.get c!"mntpoint" = none) (h : Follows k.op k.dc.init [] noWords args args') :
    M.Sim (Alike [c!"lineno"]) (RHEL8_Partition.parse k args) (RHEL8_Partition.parse k args') := by
  unfold RHEL8_Partition.parse
  apply sim_bind (F29_Partition.sim k args args' hi h)
  intro _ _ _
  sim_steps

theorem RHEL8_Partition.mountOf (n : Nat) : M.Post n (RHEL8_Partition.parse k args) (MountOf k.op n args) := by
  unfold RHEL8_Partition.parse
  repeat' (first | rule_when | (with_reducible apply F29_Partition.mountOf) | (with_reducible apply post_pure) | post_step | (intro _))
  all_goals assumption

/-! ## `logvol` -/

/-- The parser's results are alike except for `preexist`, which may only differ if the volume is not formatted. -/
def FollowsLv (op : OptParser) (init : Ns) (args args' : List Str) : Prop :=
  ∀ l l' ns ex, op.parseKnown l args = .ok (ns, ex) → ∃ ns', op.parseKnown l' args' = .ok (ns', []) ∧ Twin [c!"preexist"] init ns ns' ∧
    (((setToObj ns init).getD c!"format").truthy = true → (setToObj ns init).get c!"preexist" = (setToObj ns' init).get c!"preexist")

theorem FC3_LogVol.sim (hi : k.dc.init.get c!"mntpoint" = none) (h : FollowsLv k.op k.dc.init args args') :
    M.Sim (Alike [c!"lineno"]) (FC3_LogVol.parse k args) (FC3_LogVol.parse k args') := by
  unfold FC3_LogVol.parse
  apply sim_bind (Q := fun r r' => r'.2 = noWords r.2 ∧ Twin [c!"preexist"] k.dc.init r.1 r'.1 ∧
    (((setToObj r.1 k.dc.init).getD c!"format").truthy = true → (setToObj r.1 k.dc.init).get c!"preexist" = (setToObj r'.1 k.dc.init).get c!"preexist"))
  · intro _ i a ha _ i' _
    obtain ⟨ns', h1, h2⟩ := h (some i.lineno) (some i'.lineno) a.1 a.2 ha
    exact ⟨(ns', []), h1, rfl, h2⟩
  intro r r' hr
  obtain ⟨ns, ex⟩ := r
  obtain ⟨ns', ex'⟩ := r'
  obtain ⟨he, hT, hp⟩ := hr
  simp only at he hT hp
  subst he
  dsimp only
  rw [hT.getD (k := c!"mntpoint") (by decide) hi]
  have key : ∀ (n n' : Nat) (x : Val),
      Alike [c!"lineno"]
        (if (!(((((setToObj ns k.dc.init).set c!"lineno" (Val.int n)).set c!"mountpoint" x).getD c!"format").truthy)) = true then
          (((setToObj ns k.dc.init).set c!"lineno" (Val.int n)).set c!"mountpoint" x).set c!"preexist" (Val.bool true)
        else ((setToObj ns k.dc.init).set c!"lineno" (Val.int n)).set c!"mountpoint" x)
        (if (!(((((setToObj ns' k.dc.init).set c!"lineno" (Val.int n')).set c!"mountpoint" x).getD c!"format").truthy)) = true then
          (((setToObj ns' k.dc.init).set c!"lineno" (Val.int n')).set c!"mountpoint" x).set c!"preexist" (Val.bool true)
        else ((setToObj ns' k.dc.init).set c!"lineno" (Val.int n')).set c!"mountpoint" x) := by
    intro n n' x
    have e : ∀ (m : Ns) (n : Nat), ((m.set c!"lineno" (Val.int n)).set c!"mountpoint" x).getD c!"format" = m.getD c!"format" := by
      intro m n
      rw [Ns.getD, Ns.get_set_ne _ _ (by decide), Ns.get_set_ne _ _ (by decide)]
      rfl
    rw [e, e, hT.obj.getD (k := c!"format") (by decide)]
    have hb : Alike [c!"preexist", c!"lineno"] (((setToObj ns k.dc.init).set c!"lineno" (Val.int n)).set c!"mountpoint" x)
        (((setToObj ns' k.dc.init).set c!"lineno" (Val.int n')).set c!"mountpoint" x) :=
      alike_set (alike_set_in (hT.obj.mono (by simp)) (by simp)) rfl
    split
    · exact alike_set_drop hb rfl
    · rename_i hf
      rw [hT.obj.getD (k := c!"format") (by decide)] at hp
      have hp := hp (by simpa using hf)
      intro k' hk'
      by_cases hk2 : k' = c!"preexist"
      · subst hk2
        rw [Ns.get_set_ne _ _ (by decide), Ns.get_set_ne _ _ (by decide), Ns.get_set_ne _ _ (by decide), Ns.get_set_ne _ _ (by decide)]
        exact hp
      · exact hb k' (by simp_all)
  apply sim_bind_unit sim_extra
  apply sim_bind_lineno; intro n n'
  apply sim_bind_lift rfl; intro x
  apply sim_bind_dataList; intro _ _
  apply sim_bind_unit sim_when_warn
  exact sim_pure (key n n' x)

theorem FC3_LogVol.mountOf (n : Nat) : M.Post n (FC3_LogVol.parse k args) (MountOf k.op n args) := by
  unfold FC3_LogVol.parse
  parsed_steps
  all_goals first | trivial | skip
  refine ⟨_, _, _, ‹_›, ‹_›, ?_⟩
  split
  · rw [Ns.get_set_ne _ _ (by decide)]; exact Ns.get_set_self _ _ _
  · exact Ns.get_set_self _ _ _

theorem RHEL6_LogVol.sim (hi : k.dc.init.get c!"mntpoint" = none) (h : FollowsLv k.op k.dc.init args args') :
    M.Sim (Alike [c!"lineno"]) (RHEL6_LogVol.parse k args) (RHEL6_LogVol.parse k args') := by
  unfold RHEL6_LogVol.parse
  apply sim_bind (FC3_LogVol.sim k args args' hi h)
  intro _ _ _
  sim_steps

theorem RHEL6_LogVol.mountOf (n : Nat) : M.Post n (RHEL6_LogVol.parse k args) (MountOf k.op n args) := by
  unfold RHEL6_LogVol.parse
  repeat' (first | rule_when | (with_reducible apply FC3_LogVol.mountOf) | (with_reducible apply post_pure) | post_step | (intro _))
  all_goals assumption

theorem F17_LogVol.sim (hi : k.dc.init.get c!"mntpoint" = none) (h : FollowsLv k.op k.dc.init args args') :
    M.Sim (Alike [c!"lineno"]) (F17_LogVol.parse k args) (F17_LogVol.parse k args') := by
  unfold F17_LogVol.parse
  apply sim_bind (FC3_LogVol.sim k args args' hi h)
  intro _ _ _
  sim_steps

theorem F17_LogVol.mountOf (n : Nat) : M.Post n (F17_LogVol.parse k args) (MountOf k.op n args) := by
  unfold F17_LogVol.parse
  repeat' (first | rule_when | (with_reducible apply FC3_LogVol.mountOf) | (with_reducible apply post_pure) | post_step | (intro _))
  all_goals assumption

theorem F20_LogVol.sim (hi : k.dc.init.get c!"mntpoint" = none) (h : FollowsLv k.op k.dc.init args args') :
    M.Sim (Alike [c!"lineno"]) (F20_LogVol.parse k args) (F20_LogVol.parse k args') := by
  unfold F20_LogVol.parse
  apply sim_bind (F17_LogVol.sim k args args' hi h)
  intro _ _ _
  sim_steps

theorem F20_LogVol.mountOf (n : Nat) : M.Post n (F20_LogVol.parse k args) (MountOf k.op n args) := by
  unfold F20_LogVol.parse
  repeat' (first | rule_when | (with_reducible apply F17_LogVol.mountOf) | (with_reducible apply post_pure) | post_step | (intro _))
  all_goals assumption

theorem F21_LogVol.sim (hi : k.dc.init.get c!"mntpoint" = none) (h : FollowsLv k.op k.dc.init args args') :
    M.Sim (Alike [c!"lineno"]) (F21_LogVol.parse k args) (F21_LogVol.parse k args') := by
  unfold F21_LogVol.parse
  apply sim_bind (F20_LogVol.sim k args args' hi h)
  intro _ _ _
  sim_steps

theorem F21_LogVol.mountOf (n : Nat) : M.Post n (F21_LogVol.parse k args) (MountOf k.op n args) := by
  unfold F21_LogVol.parse
  repeat' (first | rule_when | (with_reducible apply F20_LogVol.mountOf) | (with_reducible apply post_pure) | post_step | (intro _))
  all_goals assumption

theorem RHEL7_LogVol.sim (hi : k.dc.init.get c!"mntpoint" = none) (h : FollowsLv k.op k.dc.init args args') :
    M.Sim (Alike [c!"lineno"]) (RHEL7_LogVol.parse k args) (RHEL7_LogVol.parse k args') := by
  unfold RHEL7_LogVol.parse
  apply sim_bind (F21_LogVol.sim k args args' hi h)
  intro _ _ _
  sim_steps

theorem RHEL7_LogVol.mountOf (n : Nat) : M.Post n (RHEL7_LogVol.parse k args) (MountOf k.op n args) := by
  unfold RHEL7_LogVol.parse
  repeat' (first | rule_when | (with_reducible apply F21_LogVol.mountOf) | (with_reducible apply post_pure) | post_step | (intro _))
  all_goals assumption

theorem F23_LogVol.sim (hi : k.dc.init.get c!"mntpoint" = none) (h : FollowsLv k.op k.dc.init args args') :
    M.Sim (Alike [c!"lineno"]) (F23_LogVol.parse k args) (F23_LogVol.parse k args') := by
  unfold F23_LogVol.parse
  apply sim_bind (F21_LogVol.sim k args args' hi h)
  intro _ _ _
  sim_steps

theorem F23_LogVol.mountOf (n : Nat) : M.Post n (F23_LogVol.parse k args) (MountOf k.op n args) := by
  unfold F23_LogVol.parse
  repeat' (first | rule_when | (with_reducible apply F21_LogVol.mountOf) | (with_reducible apply post_pure) | post_step | (intro _))
  all_goals assumption

theorem F29_LogVol.sim (hi : k.dc.init.get c!"mntpoint" = none) (h : FollowsLv k.op k.dc.init args args') :
    M.Sim (Alike [c!"lineno"]) (F29_LogVol.parse k args) (F29_LogVol.parse k args') := by
  unfold F29_LogVol.parse
  apply sim_bind (F23_LogVol.sim k args args' hi h)
  intro _ _ _
  sim_steps

theorem F29_LogVol.mountOf (n : Nat) : M.Post n (F29_LogVol.parse k args) (MountOf k.op n args) := by
  unfold F29_LogVol.parse
  repeat' (first | rule_when | (with_reducible apply F23_LogVol.mountOf) | (with_reducible apply post_pure) | post_step | (intro _))
  all_goals assumption

theorem RHEL8_LogVol.sim (hi : k.dc.init.get c!"mntpoint" = none) (h : FollowsLv k.op k.dc.init args args') :
    M.Sim (Alike [c!"lineno"]) (RHEL8_LogVol.parse k args) (RHEL8_LogVol.parse k args') := by
  unfold RHEL8_LogVol.parse
  apply sim_bind (F29_LogVol.sim k args args' hi h)
  intro _ _ _
  sim_steps

theorem RHEL8_LogVol.mountOf (n : Nat) : M.Post n (RHEL8_LogVol.parse k args) (MountOf k.op n args) := by
  unfold RHEL8_LogVol.parse
  repeat' (first | rule_when | (with_reducible apply F29_LogVol.mountOf) | (with_reducible apply post_pure) | post_step | (intro _))
  all_goals assumption

/-- The volume exists if it is not formatted. -/
structure LvExists (op : OptParser) (init : Ns) (n : Nat) (args : List Str) (d : Ns) : Prop where
  parsed : (d.getD c!"format").truthy = true → ParsedBy op init [c!"lineno", c!"mountpoint"] n args d

theorem FC3_LogVol.exists (n : Nat) : M.Post n (FC3_LogVol.parse k args) (LvExists k.op k.dc.init n args) := by
  unfold FC3_LogVol.parse
  parsed_steps
  all_goals first | trivial | skip
  refine ⟨fun hf => ?_⟩
  split
  · rename_i hn
    rw [if_pos hn] at hf
    rw [Ns.getD, Ns.get_set_ne _ _ (by decide), ← Ns.getD] at hf
    simp [hf] at hn
  · parsed_close

theorem RHEL6_LogVol.exists (n : Nat) : M.Post n (RHEL6_LogVol.parse k args) (LvExists k.op k.dc.init n args) := by
  unfold RHEL6_LogVol.parse
  repeat' (first | rule_when | (with_reducible apply FC3_LogVol.exists) | (with_reducible apply post_pure) | post_step | (intro _))
  all_goals assumption

theorem F17_LogVol.exists (n : Nat) : M.Post n (F17_LogVol.parse k args) (LvExists k.op k.dc.init n args) := by
  unfold F17_LogVol.parse
  repeat' (first | rule_when | (with_reducible apply FC3_LogVol.exists) | (with_reducible apply post_pure) | post_step | (intro _))
  all_goals assumption

theorem F20_LogVol.exists (n : Nat) : M.Post n (F20_LogVol.parse k args) (LvExists k.op k.dc.init n args) := by
  unfold F20_LogVol.parse
  repeat' (first | rule_when | (with_reducible apply F17_LogVol.exists) | (with_reducible apply post_pure) | post_step | (intro _))
  all_goals assumption

theorem F21_LogVol.exists (n : Nat) : M.Post n (F21_LogVol.parse k args) (LvExists k.op k.dc.init n args) := by
  unfold F21_LogVol.parse
  repeat' (first | rule_when | (with_reducible apply F20_LogVol.exists) | (with_reducible apply post_pure) | post_step | (intro _))
  all_goals assumption

theorem RHEL7_LogVol.exists (n : Nat) : M.Post n (RHEL7_LogVol.parse k args) (LvExists k.op k.dc.init n args) := by
  unfold RHEL7_LogVol.parse
  repeat' (first | rule_when | (with_reducible apply F21_LogVol.exists) | (with_reducible apply post_pure) | post_step | (intro _))
  all_goals assumption

theorem F23_LogVol.exists (n : Nat) : M.Post n (F23_LogVol.parse k args) (LvExists k.op k.dc.init n args) := by
  unfold F23_LogVol.parse
  repeat' (first | rule_when | (with_reducible apply F21_LogVol.exists) | (with_reducible apply post_pure) | post_step | (intro _))
  all_goals assumption

theorem F29_LogVol.exists (n : Nat) : M.Post n (F29_LogVol.parse k args) (LvExists k.op k.dc.init n args) := by
  unfold F29_LogVol.parse
  repeat' (first | rule_when | (with_reducible apply F23_LogVol.exists) | (with_reducible apply post_pure) | post_step | (intro _))
  all_goals assumption

theorem RHEL8_LogVol.exists (n : Nat) : M.Post n (RHEL8_LogVol.parse k args) (LvExists k.op k.dc.init n args) := by
  unfold RHEL8_LogVol.parse
  repeat' (first | rule_when | (with_reducible apply F29_LogVol.exists) | (with_reducible apply post_pure) | post_step | (intro _))
  all_goals assumption

/-! ## `device` -/

theorem F8_Device.sim (h : Follows k.op k.dc.init [] id args args') : M.Sim (Alike [c!"lineno"]) (F8_Device.parse k args) (F8_Device.parse k args') := by
  unfold F8_Device.parse
  apply sim_bind_known h
  intro ns ns' ex hT
  simp only [id]
  sim_steps

/-- The module is the only word. -/
theorem F8_Device.word (n : Nat) : M.Post n (F8_Device.parse k args) fun d =>
    ∀ ns ex, k.op.parseKnown (some (n : Int)) args = .ok (ns, ex) → ex = [wordOf d [.fr (.fld c!"moduleName")]] := by
  unfold F8_Device.parse
  parsed_steps
  all_goals first | trivial | skip
  rename_i r hr _ h1 _ _ _ _ x hx _ _ _ _ ns ex hk
  rw [hk] at hr
  injection hr with hr
  subst hr
  simp only at h1 hx
  match ex, h1, hx with
  | [w], _, hx =>
    have : x = .str w := by simpa [Val.index] using hx.symm
    subst this
    simp [wordOf, Sym.meant, Frag.meant, Frag.render, Ns.getD, Ns.get_set_self, Val.fmt]

end Ks.Cmd
