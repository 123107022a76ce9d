import Verif.Commands.SelfIgnore
import Verif.Commands.OwnRuleSpec
import Verif.Commands.Autopart
import Verif.Commands.Bootloader
import Verif.Commands.Cdrom
import Verif.Commands.Hmc
import Verif.Commands.Eula
import Verif.Commands.Harddrive
import Verif.Commands.Logging
import Verif.Commands.Ostreesetup
import Verif.Commands.Rescue
import Verif.Commands.Rhsm
import Verif.Commands.Rootpw
import Verif.Commands.Services
import Verif.Commands.Timezone
import Verif.Commands.Upgrade
import Verif.Commands.Url
/-!
# The commands with attributes of their own keep their rules
-/
namespace Ks

variable {α : Type} {n : Nat} {P R : Ns → Prop} {Q : α → Ns → Prop} {args : List Str}

/-- Nothing is known about the attributes. -/
abbrev freeNs (_ : Ns) : Prop := True

section
attribute [local semireducible] M.Self

theorem own_check {c : Bool} {msg : Str} (h : c = false → ∀ s, P s → R s) : M.Self n P (M.failIf c msg) fun _ => R := by
  unfold M.failIf
  intro _ i hi hP
  cases c
  · exact ⟨hi, fun _ _ => h rfl _ hP⟩
  · exact ⟨hi, fun _ e => (nomatch e)⟩

theorem own_check_then {c : Bool} {msg : Str} {f : Unit → M α} (hf : c = false → ∀ b, M.Self n P (f b) Q) : M.Self n P (M.failIf c msg >>= f) Q := by
  refine self_bind (own_check (R := fun s => P s ∧ c = false) fun h s hs => ⟨hs, h⟩) fun b => ?_
  intro h i hi hP
  exact hf hP.2 b h i hi hP.1

theorem own_setTo {ns : Ns} (h : ∀ s, P s → R (setToObj ns s)) : M.Self n P (M.setToSelf ns) fun _ => R :=
  fun _ _ hi hP => ⟨hi, fun _ _ => h _ hP⟩

theorem own_set {k : Str} {v : Val} (h : ∀ s, P s → R (s.set k v)) : M.Self n P (M.set k v) fun _ => R :=
  fun _ _ hi hP => ⟨hi, fun _ _ => h _ hP⟩

theorem own_weaken {Q' : α → Ns → Prop} {m : M α} (hm : M.Self n P m Q') (h : ∀ a s, Q' a s → Q a s) : M.Self n P m Q :=
  fun hd i hi hP => ⟨(hm hd i hi hP).1, fun a ha => h a _ ((hm hd i hi hP).2 a ha)⟩

theorem own_self_then {f : Ns → M α} (hf : ∀ b, M.Self n (fun s => P s ∧ ∀ k, k ≠ c!"seen" → b.getD k = s.getD k) (f b) Q) : M.Self n P (M.self >>= f) Q :=
  self_self_then fun b => self_pre (hf b) fun s h => ⟨h.1, fun k hk => by rw [Ns.getD, h.2 k hk, Ns.getD]⟩

theorem own_forget {m : M α} {Q : α → Ns → Prop} (hm : M.Self n P m Q) : M.Self n P m fun _ => freeNs := own_weaken hm fun _ _ _ => trivial

theorem own_when {c : Bool} {m : M Unit} (hm : c = true → M.Self n P m fun _ => R) (hs : c = false → ∀ s, P s → R s) : M.Self n P (M.when c m) fun _ => R := by
  cases c
  · exact self_pure (hs rfl)
  · exact hm rfl

end

theorem getD_set_ne {s : Ns} {k k' : Str} {v : Val} (h : k ≠ k') : (s.set k v).getD k' = s.getD k' := by
  rw [Ns.getD, Ns.get_set_ne _ _ h, Ns.getD]

theorem getD_set_self {s : Ns} {k : Str} {v : Val} : (s.set k v).getD k = v := by
  rw [Ns.getD, Ns.get_set_self]; rfl

/-- What `setToObj` does to an attribute. -/
theorem getD_setTo {op : OptParser} {l : Option Int} {ns : Ns} {ex : List Str} (h : op.parseKnown l args = .ok (ns, ex)) (s : Ns) (k : Str) :
    (setToObj ns s).getD k = if ns.getD k = .none then s.getD k else ns.getD k := by
  unfold Ns.getD
  rw [C16_set_to_obj _ _ (C16_known_keys _ _ _ _ _ h)]
  cases hg : ns.get k with
  | none => simp
  | some v => cases v <;> simp

theorem getD_setTo_on {op : OptParser} {l : Option Int} {ns : Ns} {ex : List Str} (h : op.parseKnown l args = .ok (ns, ex)) (s : Ns) {k : Str} (hk : (ns.getD k).truthy = true) :
    (setToObj ns s).getD k = ns.getD k := by
  rw [getD_setTo h, if_neg]
  intro e; rw [e] at hk; cases hk

/-- What was off and is on was turned on by the options. -/
theorem on_setTo {op : OptParser} {l : Option Int} {ns s : Ns} {ex : List Str} (h : op.parseKnown l args = .ok (ns, ex)) {k : Str} (hs : ¬ s.on k) (hk : (setToObj ns s).on k) :
    (ns.getD k).truthy = true := by
  unfold Ns.on at hk
  rw [getD_setTo h] at hk
  split at hk
  · exact absurd hk hs
  · exact hk

/-- What holds after every line that the command accepts. -/
def Command.Ruled (c : Command) (R : List Str → Ns → Prop) : Prop :=
  ∀ h args i x, (c.parse h args i).2 = .ok x → x = none ∧ R args (c.parse h args i).1.attrs.attrs

theorem plainCmd_none {name : Str} {prio : Option Int} {init : Ns} {parse : List Str → M Unit} {str : Ns → Str} {h : Str → Option Bool} {args : List Str} {i : Inst CState}
    {x : Option Ns} (hx : ((plainCmd name prio init parse str).parse h args i).2 = .ok x) : x = none := by
  simp only [plainCmd] at hx
  generalize parse args h i = r at hx
  obtain ⟨j, y⟩ := r
  cases y with
  | error e => cases hx
  | ok y => cases hx; rfl

theorem plain_ruled {name : Str} {prio : Option Int} {init : Ns} {parse : List Str → M Unit} {str : Ns → Str} {R : List Str → Ns → Prop}
    (hp : ∀ args n, M.Self n freeNs (parse args) fun _ => R args) : Command.Ruled (plainCmd name prio init parse str) R := by
  intro h args i x hx
  obtain ⟨h1, h2⟩ := plainCmd_parse hx
  rw [h2]
  exact ⟨plainCmd_none hx, (hp args i.lineno).run rfl trivial h1⟩

/-- What holds after the first line that the command accepts. -/
def Command.FirstRuled (c : Command) (R : List Str → Ns → Prop) : Prop :=
  ∀ h args i x, i.attrs.attrs = c.init.attrs → (c.parse h args i).2 = .ok x → x = none ∧ R args (c.parse h args i).1.attrs.attrs

theorem plain_first {name : Str} {prio : Option Int} {init : Ns} {parse : List Str → M Unit} {str : Ns → Str} {R : List Str → Ns → Prop}
    (hp : ∀ args n, M.Self n (fun s => s = init) (parse args) fun _ => R args) : Command.FirstRuled (plainCmd name prio init parse str) R := by
  intro h args i x hi hx
  obtain ⟨h1, h2⟩ := plainCmd_parse hx
  rw [h2]
  exact ⟨plainCmd_none hx, (hp args i.lineno).run rfl hi h1⟩

/-- One step through a program of which nothing is known yet, or that changes nothing. -/
syntax "own_step" : tactic
macro_rules | `(tactic| own_step) => `(tactic| first
  | (intro _)
  | (with_reducible apply self_pure; first | exact fun _ h => h | exact fun _ _ => trivial)
  | with_reducible apply self_err
  | (with_reducible refine self_call (R := freeNs) (own_setTo fun _ _ => trivial) ?_)
  | (with_reducible refine self_call (R := freeNs) (own_set fun _ _ => trivial) ?_)
  | (with_reducible refine own_setTo (R := freeNs) fun _ _ => trivial)
  | (with_reducible refine own_set (R := freeNs) fun _ _ => trivial)
  | with_reducible apply self_when_then
  | with_reducible apply self_when
  | (with_reducible refine self_q (by self_quiet; done) (by self_post) ?_)
  | (with_reducible refine self_q_end (by self_quiet; done) (by self_post))
  | with_reducible apply self_ite)

/-- Steps that change nothing. -/
syntax "own_quiet" : tactic
macro_rules | `(tactic| own_quiet) => `(tactic| repeat' (first
  | (intro _)
  | (with_reducible apply self_pure; exact fun _ h => h)
  | with_reducible apply self_err
  | with_reducible apply self_when_then
  | with_reducible apply self_when
  | (with_reducible refine self_q (by self_quiet; done) (by self_post) ?_)
  | (with_reducible refine self_q_end (by self_quiet; done) (by self_post))
  | with_reducible apply self_ite))

namespace Cmd

/-! ## autopart -/

theorem FC3_AutoPart.noArgs (k : Info) (args : List Str) (n : Nat) : M.Self n freeNs (FC3_AutoPart.parse k args) fun _ _ => args = [] := by
  unfold FC3_AutoPart.parse
  refine own_check_then fun h _ => own_set fun _ _ => ?_
  cases args with
  | nil => rfl
  | cons a t => simp at h

theorem FC3_AutoPart.on (k : Info) (args : List Str) (n : Nat) : M.Self n freeNs (FC3_AutoPart.parse k args) fun _ a => a.getD c!"autopart" = .bool true := by
  unfold FC3_AutoPart.parse
  exact own_check_then fun h _ => own_set fun _ _ => getD_set_self

theorem F9_AutoPart.on (k : Info) (args : List Str) (n : Nat) : M.Self n freeNs (F9_AutoPart.parse k args) fun _ a => a.getD c!"autopart" = .bool true := by
  unfold F9_AutoPart.parse
  iterate 5 own_step
  exact own_set fun _ _ => getD_set_self

theorem RHEL6_AutoPart.on (k : Info) (args : List Str) (n : Nat) : M.Self n freeNs (RHEL6_AutoPart.parse k args) fun _ a => a.getD c!"autopart" = .bool true := by
  unfold RHEL6_AutoPart.parse
  refine self_call (F9_AutoPart.on k args n) fun _ => ?_
  own_quiet

theorem F17_AutoPart.on (k : Info) (args : List Str) (n : Nat) : M.Self n freeNs (F17_AutoPart.parse k args) fun _ a => a.getD c!"autopart" = .bool true := by
  unfold F17_AutoPart.parse
  exact self_call (F9_AutoPart.on k args n) fun _ => own_set fun s h => by rw [getD_set_ne (by decide)]; exact h

theorem F20_AutoPart.on (k : Info) (args : List Str) (n : Nat) : M.Self n freeNs (F20_AutoPart.parse k args) fun _ a => a.getD c!"autopart" = .bool true := by
  unfold F20_AutoPart.parse
  refine self_call (F17_AutoPart.on k args n) fun _ => ?_
  own_quiet

theorem F21_AutoPart.on (k : Info) (args : List Str) (n : Nat) : M.Self n freeNs (F21_AutoPart.parse k args) fun _ a => a.getD c!"autopart" = .bool true := by
  unfold F21_AutoPart.parse
  refine self_call (F20_AutoPart.on k args n) fun _ => ?_
  own_quiet

theorem F23_AutoPart.on (k : Info) (args : List Str) (n : Nat) : M.Self n freeNs (F23_AutoPart.parse k args) fun _ a => a.getD c!"autopart" = .bool true := by
  unfold F23_AutoPart.parse
  refine self_call (F21_AutoPart.on k args n) fun _ => ?_
  own_quiet

theorem RHEL7_AutoPart.on (k : Info) (args : List Str) (n : Nat) : M.Self n freeNs (RHEL7_AutoPart.parse k args) fun _ a => a.getD c!"autopart" = .bool true := by
  unfold RHEL7_AutoPart.parse
  refine self_call (F21_AutoPart.on k args n) fun _ => ?_
  own_quiet

theorem F29_AutoPart.on (k : Info) (args : List Str) (n : Nat) : M.Self n freeNs (F29_AutoPart.parse k args) fun _ a => a.getD c!"autopart" = .bool true := by
  unfold F29_AutoPart.parse
  refine self_call (F23_AutoPart.on k args n) fun _ => ?_
  own_quiet

theorem RHEL8_AutoPart.on (k : Info) (args : List Str) (n : Nat) : M.Self n freeNs (RHEL8_AutoPart.parse k args) fun _ a => a.getD c!"autopart" = .bool true := by
  unfold RHEL8_AutoPart.parse
  refine self_call (F29_AutoPart.on k args n) fun _ => ?_
  own_quiet

theorem F20_AutoPart.any (k : Info) (args : List Str) (n : Nat) : M.Self n freeNs (F20_AutoPart.parse k args) fun _ => freeNs :=
  own_forget (F20_AutoPart.on k args n)

/-- What `autopart` checks about the file system. -/
def fsRule (a : Ns) : Prop := a.getD c!"fstype" ≠ .str c!"btrfs" ∧ (a.getD c!"type" = .int 1 → ¬ a.on c!"fstype")

theorem F21_AutoPart.fs (k : Info) (hk : typeAsStr k.typeMap (.int 1) = some c!"btrfs") (args : List Str) (n : Nat) :
    M.Self n freeNs (F21_AutoPart.parse k args) fun _ => fsRule := by
  unfold F21_AutoPart.parse
  refine self_call (F20_AutoPart.any k args n) fun _ => own_self_then fun b => own_check_then fun h1 _ => own_check fun h2 s hs => ?_
  have hb := hs.2
  simp only [hb c!"fstype" (by decide), hb c!"type" (by decide)] at h1 h2
  refine ⟨fun e => ?_, fun e => ?_⟩
  · rw [e] at h1; exact absurd h1 (by decide)
  · rw [e, hk] at h2
    intro h3
    simp only [Ns.on] at h3
    rw [h3] at h2
    exact absurd h2 (by decide)

theorem F23_AutoPart.fs (k : Info) (hk : typeAsStr k.typeMap (.int 1) = some c!"btrfs") (args : List Str) (n : Nat) :
    M.Self n freeNs (F23_AutoPart.parse k args) fun _ => fsRule := by
  unfold F23_AutoPart.parse
  refine self_call (F21_AutoPart.fs k hk args n) fun _ => ?_
  own_quiet

theorem RHEL7_AutoPart.fs (k : Info) (hk : typeAsStr k.typeMap (.int 1) = some c!"btrfs") (args : List Str) (n : Nat) :
    M.Self n freeNs (RHEL7_AutoPart.parse k args) fun _ => fsRule := by
  unfold RHEL7_AutoPart.parse
  refine self_call (F21_AutoPart.fs k hk args n) fun _ => ?_
  own_quiet

theorem F29_AutoPart.fs (k : Info) (hk : typeAsStr k.typeMap (.int 1) = some c!"btrfs") (args : List Str) (n : Nat) :
    M.Self n freeNs (F29_AutoPart.parse k args) fun _ => fsRule := by
  unfold F29_AutoPart.parse
  refine self_call (F23_AutoPart.fs k hk args n) fun _ => ?_
  own_quiet

theorem RHEL8_AutoPart.fs (k : Info) (hk : typeAsStr k.typeMap (.int 1) = some c!"btrfs") (args : List Str) (n : Nat) :
    M.Self n freeNs (RHEL8_AutoPart.parse k args) fun _ => fsRule := by
  unfold RHEL8_AutoPart.parse
  refine self_call (F29_AutoPart.fs k hk args n) fun _ => ?_
  own_quiet

theorem F29_AutoPart.pbkdf (k : Info) (args : List Str) (n : Nat) :
    M.Self n freeNs (F29_AutoPart.parse k args) fun _ a => ¬ (a.on c!"pbkdf_time" ∧ a.on c!"pbkdf_iterations") := by
  unfold F29_AutoPart.parse
  refine self_call (own_forget (F23_AutoPart.on k args n)) fun _ => own_self_then fun b => own_check fun h1 s hs => ?_
  have hb := hs.2
  simp only [hb c!"pbkdf_time" (by decide), hb c!"pbkdf_iterations" (by decide)] at h1
  rintro ⟨h2, h3⟩
  simp only [Ns.on] at h2 h3
  rw [h2, h3] at h1
  exact absurd h1 (by decide)

theorem RHEL8_AutoPart.pbkdf (k : Info) (args : List Str) (n : Nat) :
    M.Self n freeNs (RHEL8_AutoPart.parse k args) fun _ a => ¬ (a.on c!"pbkdf_time" ∧ a.on c!"pbkdf_iterations") := by
  unfold RHEL8_AutoPart.parse
  refine self_call (F29_AutoPart.pbkdf k args n) fun _ => ?_
  own_quiet

theorem RHEL8_AutoPart.noBtrfs (k : Info) (hk : typeAsStr k.typeMap (.int 1) = some c!"btrfs") (args : List Str) (n : Nat) :
    M.Self n freeNs (RHEL8_AutoPart.parse k args) fun _ a => a.getD c!"type" ≠ .int 1 := by
  unfold RHEL8_AutoPart.parse
  refine self_call (own_forget (F29_AutoPart.on k args n)) fun _ => own_self_then fun b => own_check fun h1 s hs => ?_
  rw [hs.2 c!"type" (by decide)] at h1
  intro e
  rw [e, hk] at h1
  exact absurd h1 (by decide)

/-! ## bootloader -/

theorem F17_Bootloader.oneDrive (k : Info) (args : List Str) (n : Nat) :
    M.Self n freeNs (F17_Bootloader.parse k args) fun _ a => ∀ s, a.getD c!"bootDrive" = .str s → ',' ∉ s := by
  unfold F17_Bootloader.parse
  have h0 : M.Self n freeNs (F15_Bootloader.parse k args) fun _ => freeNs := by
    unfold F15_Bootloader.parse
    repeat' own_step
  refine self_call h0 fun _ => own_self_then fun b => own_check fun h1 s hs => ?_
  rw [hs.2 c!"bootDrive" (by decide)] at h1
  intro w e hw
  rw [e] at h1
  simp only [Val.hasChar, List.contains_eq_mem, decide_eq_false_iff_not] at h1
  exact h1 hw

/-! ## cdrom, hmc, eula, harddrive -/

theorem FC3_Cdrom.noArgs (k : Info) (args : List Str) (n : Nat) : M.Self n freeNs (FC3_Cdrom.parse k args) fun _ _ => args = [] := by
  unfold FC3_Cdrom.parse
  exact own_check fun h _ _ => by simpa using h

theorem RHEL7_Hmc.noArgs (k : Info) (args : List Str) (n : Nat) : M.Self n freeNs (RHEL7_Hmc.parse k args) fun _ _ => args = [] := by
  unfold RHEL7_Hmc.parse
  exact own_check fun h _ _ => by simpa using h

theorem F20_Eula.agreed (k : Info) (args : List Str) (n : Nat) : M.Self n freeNs (F20_Eula.parse k args) fun _ a => a.on c!"agreed" := by
  unfold F20_Eula.parse
  refine self_q (by self_quiet; done) (by self_post) fun r _ => ?_
  extract_lets ns extra
  refine self_call (R := freeNs) (own_setTo fun _ _ => trivial) fun _ => own_check_then fun _ _ => own_self_then fun b => own_check fun h1 s hs => ?_
  rw [hs.2 c!"agreed" (by decide)] at h1
  simpa [Ns.on] using h1

theorem FC3_HardDrive.one (k : Info) (args : List Str) (n : Nat) : M.Self n freeNs (FC3_HardDrive.parse k args) fun _ a =>
    a.getD c!"biospart" = .none ∧ a.getD c!"partition" ≠ .none ∨ a.getD c!"biospart" ≠ .none ∧ a.getD c!"partition" = .none := by
  unfold FC3_HardDrive.parse
  iterate 5 own_step
  refine own_self_then fun b => own_check fun h1 s hs => ?_
  have hb := hs.2
  simp only [hb c!"biospart" (by decide), hb c!"partition" (by decide)] at h1
  by_cases e : s.getD c!"biospart" = .none <;> by_cases e' : s.getD c!"partition" = .none <;> simp [e, e'] at h1 ⊢

/-! ## ignoredisk -/

theorem F8_IgnoreDisk.one (k : Info) (args : List Str) (n : Nat) : M.Self n freeNs (F8_IgnoreDisk.parse k args) fun _ a =>
    a.on c!"ignoredisk" ∧ ¬ a.on c!"onlyuse" ∨ ¬ a.on c!"ignoredisk" ∧ a.on c!"onlyuse" := by
  unfold F8_IgnoreDisk.parse
  have h0 : M.Self n freeNs (FC3_IgnoreDisk.parse k args) fun _ => freeNs := by
    unfold FC3_IgnoreDisk.parse
    repeat' own_step
  refine self_call h0 fun _ => own_self_then fun b => own_check fun h1 s hs => ?_
  have hb := hs.2
  simp only [hb c!"ignoredisk" (by decide), hb c!"onlyuse" (by decide)] at h1
  simp only [Ns.on]
  by_cases e : (s.getD c!"ignoredisk").truthy = true <;> by_cases e' : (s.getD c!"onlyuse").truthy = true <;> simp [e, e'] at h1 ⊢

theorem F29_IgnoreDisk.one (k : Info) (args : List Str) (n : Nat) : M.Self n freeNs (F29_IgnoreDisk.parse k args) fun _ a =>
    a.on c!"ignoredisk" ∧ ¬ a.on c!"onlyuse" ∨ ¬ a.on c!"ignoredisk" ∧ a.on c!"onlyuse" := F8_IgnoreDisk.one k args n

theorem RHEL6_IgnoreDisk.one (k : Info) (args : List Str) (n : Nat) : M.Self n freeNs (RHEL6_IgnoreDisk.parse k args) fun _ a =>
    a.on c!"ignoredisk" ∧ ¬ a.on c!"onlyuse" ∧ ¬ a.on c!"interactive" ∨ ¬ a.on c!"ignoredisk" ∧ a.on c!"onlyuse" ∧ ¬ a.on c!"interactive" ∨
      ¬ a.on c!"ignoredisk" ∧ ¬ a.on c!"onlyuse" ∧ a.on c!"interactive" := by
  unfold RHEL6_IgnoreDisk.parse
  have h0 : M.Self n freeNs (FC3_IgnoreDisk.parse k args) fun _ => freeNs := by
    unfold FC3_IgnoreDisk.parse
    repeat' own_step
  refine self_call h0 fun _ => own_self_then fun b => ?_
  extract_lets h2 h3 h4
  have key : ∀ s : Ns, (∀ k, k ≠ c!"seen" → b.getD k = s.getD k) → decide (h4 ≠ 1) = false →
    (s.on c!"ignoredisk" ∧ ¬ s.on c!"onlyuse" ∧ ¬ s.on c!"interactive" ∨ ¬ s.on c!"ignoredisk" ∧ s.on c!"onlyuse" ∧ ¬ s.on c!"interactive" ∨
      ¬ s.on c!"ignoredisk" ∧ ¬ s.on c!"onlyuse" ∧ s.on c!"interactive") := by
    intro s hb h1
    simp only [h4, h3, h2, hb c!"ignoredisk" (by decide), hb c!"onlyuse" (by decide), hb c!"interactive" (by decide)] at h1
    simp only [Ns.on]
    by_cases e : (s.getD c!"ignoredisk").truthy = true <;> by_cases e' : (s.getD c!"onlyuse").truthy = true <;>
      by_cases e'' : (s.getD c!"interactive").truthy = true <;> simp [e, e', e''] at h1 ⊢
  refine own_check_then fun h1 _ => self_bind (self_when_if (fun ht => own_set fun s hs => ?_) fun s hs => key s hs.2 h1) fun _ => self_pure fun _ h => h
  have hk := key s hs.2 h1
  rw [hs.2 c!"interactive" (by decide)] at ht
  have e1 : (s.set c!"ignoredisk" (Val.list [])).getD c!"ignoredisk" = .list [] := getD_set_self
  have e2 : (s.set c!"ignoredisk" (Val.list [])).getD c!"onlyuse" = s.getD c!"onlyuse" := getD_set_ne (by decide)
  have e3 : (s.set c!"ignoredisk" (Val.list [])).getD c!"interactive" = s.getD c!"interactive" := getD_set_ne (by decide)
  have hl : ¬ (Val.list []).truthy = true := by decide
  simp only [Ns.on, e1, e2, e3] at hk ⊢
  rcases hk with ⟨_, _, h⟩ | ⟨_, _, h⟩ | ⟨_, h5, h6⟩
  · exact absurd ht h
  · exact absurd ht h
  · exact .inr (.inr ⟨hl, h5, h6⟩)

/-! ## logging, ostreesetup, rescue -/

theorem FC6_Logging.host (k : Info) (args : List Str) (n : Nat) : M.Self n freeNs (FC6_Logging.parse k args) fun _ a => a.on c!"port" → a.on c!"host" := by
  unfold FC6_Logging.parse
  iterate 5 own_step
  refine own_self_then fun b => own_check_then fun h1 _ => own_set fun s hs => ?_
  have hb := hs.2
  simp only [hb c!"port" (by decide), hb c!"host" (by decide)] at h1
  simp only [Ns.on, getD_set_ne (show c!"_level_provided" ≠ c!"port" by decide), getD_set_ne (show c!"_level_provided" ≠ c!"host" by decide)]
  intro h2
  rw [h2] at h1
  simpa using h1

theorem F21_OSTreeSetup.url (k : Info) (args : List Str) (n : Nat) : M.Self n freeNs (F21_OSTreeSetup.parse k args) fun _ a =>
    (∃ s, a.getD c!"url" = .str s ∧ (startsWith s c!"file:" = true ∨ startsWith s c!"http:" = true ∨ startsWith s c!"https:" = true)) ∧
      (a.on c!"remote" ∨ a.getD c!"remote" = a.getD c!"osname") := by
  unfold F21_OSTreeSetup.parse
  iterate 5 own_step
  refine own_self_then fun b => ?_
  refine self_call (R := fun a => a.on c!"remote" ∨ a.getD c!"remote" = a.getD c!"osname") (own_when (fun ht => own_set fun s hs => ?_) fun ht s hs => ?_) fun _ => ?_
  · rw [getD_set_self, getD_set_ne (by decide), hs.2 c!"osname" (by decide)]; exact .inr rfl
  · rw [hs.2 c!"remote" (by decide)] at ht
    exact .inl (by simpa [Ns.on] using ht)
  · refine own_self_then fun b => own_check fun h1 s hs => ⟨?_, hs.1⟩
    rw [hs.2 c!"url" (by decide)] at h1
    cases hu : s.getD c!"url" <;> rw [hu] at h1 <;> simp [Val.startsWith] at h1
    rename_i w
    refine ⟨w, rfl, ?_⟩
    by_cases e1 : startsWith w c!"file:" = true
    · exact .inl e1
    by_cases e2 : startsWith w c!"http:" = true
    · exact .inr (.inl e2)
    · exact .inr (.inr (h1 (by simpa using e1) (by simpa using e2)))

theorem F10_Rescue.on (k : Info) (args : List Str) (n : Nat) : M.Self n freeNs (F10_Rescue.parse k args) fun _ a => a.getD c!"rescue" = .bool true := by
  unfold F10_Rescue.parse
  iterate 8 own_step
  exact own_set fun _ _ => getD_set_self

theorem F10_Rescue.one (k : Info) (init : Ns) (h2 : ¬ init.on c!"nomount") (h3 : ¬ init.on c!"romount") (args : List Str) (n : Nat) :
    M.Self n (fun s => s = init) (F10_Rescue.parse k args) fun _ a => ¬ (a.on c!"nomount" ∧ a.on c!"romount") := by
  unfold F10_Rescue.parse
  refine self_q (by self_quiet; done) (by self_post) fun ns hns => own_check_then fun h1 _ => ?_
  refine self_call (R := fun a => ¬ (a.on c!"nomount" ∧ a.on c!"romount")) (own_setTo fun s hs => ?_) fun _ => own_set fun s hs => ?_
  · subst hs
    rintro ⟨h4, h5⟩
    have h4 := on_setTo (parseArgs_known hns) h2 h4
    have h5 := on_setTo (parseArgs_known hns) h3 h5
    rw [h4, h5] at h1
    exact absurd h1 (by decide)
  · simp only [Ns.on, getD_set_ne (show c!"rescue" ≠ c!"nomount" by decide), getD_set_ne (show c!"rescue" ≠ c!"romount" by decide)]
    exact hs

/-! ## rhsm, rootpw, services -/

theorem RHEL8_RHSM.keys (k : Info) (init : Ns) (hi : (init.getD c!"activation_keys").items = []) (args : List Str) (n : Nat) :
    M.Self n (fun s => s = init) (RHEL8_RHSM.parse k args) fun _ a => ∀ k ∈ (a.getD c!"activation_keys").items, k ≠ [] := by
  unfold RHEL8_RHSM.parse
  refine self_q (by self_quiet; done) (by self_post) fun ns hns => own_check_then fun h1 _ => own_setTo fun s hs => ?_
  subst hs
  rw [getD_setTo (parseArgs_known hns)]
  split
  · rw [hi]; simp
  · intro w hw e
    subst e
    rw [List.any_eq_false] at h1
    exact h1 _ hw rfl

theorem FC3_RootPw.given (k : Info) (args : List Str) (n : Nat) : M.Self n freeNs (FC3_RootPw.parse k args) fun _ a => a.on c!"password" := by
  unfold FC3_RootPw.parse
  refine self_q (by self_quiet; done) (by self_post) fun r hr => ?_
  obtain ⟨ns, ex⟩ := r
  refine own_check_then fun h1 _ => own_check_then fun _ _ => own_setTo fun s _ => ?_
  have h1 : (ns.getD c!"password").truthy = true := by simpa using h1
  rw [Ns.on, getD_setTo_on hr s h1]; exact h1

theorem F18_RootPw.given (k : Info) (args : List Str) (n : Nat) : M.Self n freeNs (F18_RootPw.parse k args) fun _ a => a.on c!"password" ∨ a.on c!"lock" := by
  unfold F18_RootPw.parse
  refine self_q (by self_quiet; done) (by self_post) fun r hr => ?_
  obtain ⟨ns, ex⟩ := r
  refine own_check_then fun h1 _ => own_check_then fun _ _ => own_setTo fun s _ => ?_
  by_cases e : (ns.getD c!"password").truthy = true
  · left; rw [Ns.on, getD_setTo_on hr s e]; exact e
  · have h1 : (ns.getD c!"lock").truthy = true := by simpa [e] using h1
    right; rw [Ns.on, getD_setTo_on hr s h1]; exact h1

theorem FC6_Services.given (k : Info) (args : List Str) (n : Nat) : M.Self n freeNs (FC6_Services.parse k args) fun _ a => a.on c!"disabled" ∨ a.on c!"enabled" := by
  unfold FC6_Services.parse
  iterate 5 own_step
  refine own_self_then fun b => own_check fun h1 s hs => ?_
  have hb := hs.2
  simp only [hb c!"disabled" (by decide), hb c!"enabled" (by decide)] at h1
  simp only [Ns.on]
  by_cases e : (s.getD c!"disabled").truthy = true
  · exact .inl e
  · exact .inr (by simpa [e] using h1)

/-! ## timezone -/

/-- What `timezone` checks. -/
abbrev ntpRule (a : Ns) : Prop := ¬ (a.on c!"nontp" ∧ a.on c!"ntpservers")

theorem ntp_check {P : Ns → Prop} (n : Nat) {msg : Str} : M.Self n P (do
    let self ← M.self
    M.failIf ((self.getD c!"ntpservers").truthy && (self.getD c!"nontp").truthy) msg) fun _ => ntpRule := by
  refine own_self_then fun b => own_check fun h1 s hs => ?_
  have hb := hs.2
  simp only [hb c!"ntpservers" (by decide), hb c!"nontp" (by decide)] at h1
  rintro ⟨h2, h3⟩
  simp only [Ns.on] at h2 h3
  rw [h2, h3] at h1
  exact absurd h1 (by decide)

theorem FC3_Timezone.any (k : Info) (args : List Str) (n : Nat) : M.Self n freeNs (FC3_Timezone.parse k args) fun _ => freeNs := by
  unfold FC3_Timezone.parse
  repeat' own_step

theorem F18_Timezone.ntp (k : Info) (args : List Str) (n : Nat) : M.Self n freeNs (F18_Timezone.parse k args) fun _ => ntpRule := by
  unfold F18_Timezone.parse
  exact self_call (FC3_Timezone.any k args n) fun _ => own_self_then fun b => self_call (R := freeNs) (own_set fun _ _ => trivial) fun _ => ntp_check n

theorem F23_Timezone.ntp (k : Info) (args : List Str) (n : Nat) : M.Self n freeNs (F23_Timezone.parse k args) fun _ => ntpRule := by
  unfold F23_Timezone.parse
  exact self_call (FC3_Timezone.any k args n) fun _ => ntp_check n

theorem RHEL7_Timezone.ntp (k : Info) (args : List Str) (n : Nat) : M.Self n freeNs (RHEL7_Timezone.parse k args) fun _ a => ntpRule a ∧ args ≠ [] := by
  unfold RHEL7_Timezone.parse
  refine self_q (by self_quiet; done) (by self_post) fun ns hns => self_call (R := freeNs) (own_setTo fun _ _ => trivial) fun _ => own_check_then fun h1 _ => ?_
  have hne : args ≠ [] := by simpa using h1
  have hend : ∀ msg : Str, M.Self n freeNs (do
      let self ← M.self
      M.failIf ((self.getD c!"ntpservers").truthy && (self.getD c!"nontp").truthy) msg) fun _ a => ntpRule a ∧ args ≠ [] :=
    fun msg => own_weaken (ntp_check n) fun _ _ h => ⟨h, hne⟩
  refine self_ite ?_ ?_
  · exact self_q (by self_quiet; done) (by self_post) fun _ _ => self_call (R := freeNs) (own_set fun _ _ => trivial) fun _ => hend _
  · exact self_q (by self_quiet; done) (by self_post) fun _ _ => hend _

theorem F25_Timezone.ntp (k : Info) (args : List Str) (n : Nat) : M.Self n freeNs (F25_Timezone.parse k args) fun _ a => ntpRule a ∧ args ≠ [] := RHEL7_Timezone.ntp k args n

theorem F32_Timezone.ntp (k : Info) (args : List Str) (n : Nat) : M.Self n freeNs (F32_Timezone.parse k args) fun _ a => ntpRule a ∧ args ≠ [] := by
  unfold F32_Timezone.parse
  refine self_call (F25_Timezone.ntp k args n) fun _ => ?_
  own_quiet

theorem F33_Timezone.ntp (k : Info) (args : List Str) (n : Nat) : M.Self n freeNs (F33_Timezone.parse k args) fun _ a => ntpRule a ∧ args ≠ [] := by
  unfold F33_Timezone.parse
  refine self_call (F32_Timezone.ntp k args n) fun _ => ?_
  own_quiet

/-! ## upgrade, url -/

theorem F11_Upgrade.root (k : Info) (args : List Str) (n : Nat) : M.Self n freeNs (F11_Upgrade.parse k args) fun _ a => a.getD c!"root_device" ≠ .str [] := by
  unfold F11_Upgrade.parse
  refine self_q (by self_quiet; done) (by self_post) fun ns hns => own_check_then fun h1 _ => ?_
  have h1 : ns.getD c!"root_device" ≠ .str [] := by intro e; rw [e] at h1; exact absurd h1 (by decide)
  refine self_call (R := fun a => a.getD c!"root_device" ≠ .str []) (own_set fun _ _ => by rw [getD_set_self]; exact h1) fun _ => ?_
  refine self_q (by self_quiet; done) (by self_post) fun x _ => self_ite (self_bind (own_set fun s hs => ?_) fun _ => self_pure fun _ h => h) (self_bind (own_set fun s hs => ?_) fun _ => self_pure fun _ h => h)
  · rw [getD_set_ne (by decide)]; exact hs
  · rw [getD_set_ne (by decide)]; exact hs

theorem F18_Url.given (k : Info) (hk : ∀ o ∈ k.exclusive, o.1 = c!"url" ∨ o.1 = c!"mirrorlist" ∨ o.1 = c!"metalink") (args : List Str) (n : Nat) :
    M.Self n freeNs (F18_Url.parse k args) fun _ a => a.on c!"url" ∨ a.on c!"mirrorlist" ∨ a.on c!"metalink" := by
  unfold F18_Url.parse
  have h0 : M.Self n freeNs (FC3_Url.parse k args) fun _ a => ∃ ns s, k.op.parseArgs (some (n : Int)) args = .ok ns ∧ a = setToObj ns s := by
    unfold FC3_Url.parse
    exact self_q (by self_quiet; done) (by self_post) fun ns hns => own_setTo fun s _ => ⟨ns, s, hns, rfl⟩
  refine self_call h0 fun _ => self_q (by self_quiet; done) (by self_post) fun ns hns => ?_
  extract_lets used
  refine own_check_then fun h1 _ => own_check fun h2 s hs => ?_
  obtain ⟨ns', s0, h3, rfl⟩ := hs
  rw [hns] at h3; cases h3
  have : used ≠ [] := by intro e; rw [e] at h1; exact absurd h1 (by decide)
  obtain ⟨o, ho⟩ := List.exists_mem_of_ne_nil _ this
  obtain ⟨o, ho, -⟩ := List.mem_map.1 ho
  obtain ⟨ho, ht⟩ := List.mem_filter.1 ho
  have := getD_setTo_on (parseArgs_known hns) s0 ht
  have hon : (setToObj ns s0).on o.1 := by rw [Ns.on, this]; exact ht
  rcases hk o ho with e | e | e <;> rw [e] at hon
  · exact .inl hon
  · exact .inr (.inl hon)
  · exact .inr (.inr hon)

theorem F18_Url.one (k : Info) (hk : k.exclusive = [(c!"mirrorlist", c!"--mirrorlist"), (c!"url", c!"--url")] ∧ k.op.never c!"metalink" = true ∨
      k.exclusive = [(c!"mirrorlist", c!"--mirrorlist"), (c!"url", c!"--url"), (c!"metalink", c!"--metalink")])
    (init : Ns) (i1 : ¬ init.on c!"url") (i2 : ¬ init.on c!"mirrorlist") (i3 : ¬ init.on c!"metalink") (args : List Str) (n : Nat) :
    M.Self n (fun s => s = init) (F18_Url.parse k args) fun _ a =>
      ¬ (a.on c!"url" ∧ a.on c!"mirrorlist") ∧ ¬ (a.on c!"url" ∧ a.on c!"metalink") ∧ ¬ (a.on c!"mirrorlist" ∧ a.on c!"metalink") := by
  unfold F18_Url.parse
  have h0 : M.Self n (fun s => s = init) (FC3_Url.parse k args) fun _ a => ∃ ns, k.op.parseArgs (some (n : Int)) args = .ok ns ∧ a = setToObj ns init := by
    unfold FC3_Url.parse
    exact self_q (by self_quiet; done) (by self_post) fun ns hns => own_setTo fun s hs => ⟨ns, hns, by rw [hs]⟩
  refine self_call h0 fun _ => self_q (by self_quiet; done) (by self_post) fun ns hns => ?_
  extract_lets used
  refine own_check_then fun _ _ => own_check fun h2 s hs => ?_
  obtain ⟨ns', h3, rfl⟩ := hs
  rw [hns] at h3; cases h3
  have hkn := parseArgs_known hns
  have hm : k.op.never c!"metalink" = true → ¬ (ns.getD c!"metalink").truthy = true := by
    intro hn
    rw [Ns.getD, never_known hn hkn]; decide
  have key : ¬ ((ns.getD c!"url").truthy = true ∧ (ns.getD c!"mirrorlist").truthy = true) ∧ ¬ ((ns.getD c!"url").truthy = true ∧ (ns.getD c!"metalink").truthy = true) ∧
      ¬ ((ns.getD c!"mirrorlist").truthy = true ∧ (ns.getD c!"metalink").truthy = true) := by
    rcases hk with ⟨hk, hn⟩ | hk
    · have hm := hm hn
      simp only [used, hk, List.filter_cons, List.filter_nil] at h2
      by_cases e1 : (ns.getD c!"url").truthy = true <;> by_cases e2 : (ns.getD c!"mirrorlist").truthy = true <;> simp [e1, e2, hm] at h2 ⊢
    · simp only [used, hk, List.filter_cons, List.filter_nil] at h2
      by_cases e1 : (ns.getD c!"url").truthy = true <;> by_cases e2 : (ns.getD c!"mirrorlist").truthy = true <;>
        by_cases e3 : (ns.getD c!"metalink").truthy = true <;> simp [e1, e2, e3] at h2 ⊢
  exact ⟨fun h => key.1 ⟨on_setTo hkn i1 h.1, on_setTo hkn i2 h.2⟩, fun h => key.2.1 ⟨on_setTo hkn i1 h.1, on_setTo hkn i3 h.2⟩,
    fun h => key.2.2 ⟨on_setTo hkn i2 h.1, on_setTo hkn i3 h.2⟩⟩

end Cmd
end Ks
