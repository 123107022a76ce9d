import Verif.Commands.SelfBack1
import Verif.Commands.SelfBack2
import Verif.Commands.SelfBack3
import Verif.Props.ReadBackProps
import Verif.Props.StageProps
import Verif.Props.UnreadProps
/-!
# C62: the text of a command without a data list is read back
-/
namespace Ks

open Cmd

/-! ## The commands with sheets -/

theorem stages_complete : (commandMaps.all fun m => m.2.all fun x =>
    x.2.prio.isSome || (deprecatedIn.any fun p => p.1 == m.1 && p.2.contains x.1) || (removedIn.any fun p => p.1 == m.1 && p.2.contains x.1)) = true := by decide +kernel

/-- A command that is neither deprecated nor removed is served by a class of its own. -/
theorem not_stage {v : Nat} (hv : Supported v) {n : Str} {c : Command} (hc : (commandMap v).lookup n = some c) (hd : ¬ Deprecated v n) (hr : ¬ Removed v n) :
    ¬ Command.IsDeprecated c ∧ ¬ Command.IsRemoved c := by
  have := List.all_eq_true.1 (List.all_eq_true.1 stages_complete _ (supported_mem hv)) _ (mem_of_lookup' hc)
  simp only [Bool.or_eq_true, List.any_eq_true, Bool.and_eq_true, beq_iff_eq, List.contains_eq_mem, decide_eq_true_eq] at this
  have : c.prio.isSome = true := by
    rcases this with (h | ⟨p, h1, h2, h3⟩) | ⟨p, h1, h2, h3⟩
    · exact h
    · exact absurd ⟨p.2, h2 ▸ h1, h3⟩ hd
    · exact absurd ⟨p.2, h2 ▸ h1, h3⟩ hr
  constructor
  · rintro ⟨nm, init, rfl⟩; cases this
  · rintro ⟨nm, init, rfl⟩; cases this

theorem selfSheets_readsBack : ∀ x ∈ selfSheets, ∀ y ∈ commandMaps, ∀ c, y.2.lookup x.1 = some c → x.2.1 ≤ y.1 → ¬ Command.IsDeprecated c → ¬ Command.IsRemoved c →
    ∃ base, c.SelfReadsBack (x.2.2 y.1) base := by
  unfold selfSheets
  exact all_cons selfBack_autopart (all_cons selfBack_autostep (all_cons selfBack_bootloader (all_cons selfBack_clearpart (all_cons selfBack_eula
    (all_cons selfBack_harddrive (all_cons selfBack_ignoredisk (all_cons selfBack_lang (all_cons selfBack_liveimg (all_cons selfBack_logging
    (all_cons selfBack_monitor (all_cons selfBack_mouse (all_cons selfBack_nfs (all_cons selfBack_ostreesetup (all_cons selfBack_reboot
    (all_cons selfBack_reqpart (all_cons selfBack_rescue (all_cons selfBack_selinux (all_cons selfBack_services (all_cons selfBack_timezone
    (all_cons selfBack_url (all_cons selfBack_urlMirror (all_cons selfBack_urlMeta (all_cons selfBack_vnc (all_cons selfBack_xconfig
    (all_cons selfBack_zipl (List.forall_mem_nil _))))))))))))))))))))))))))

/-- The names of a command of the table have one class. -/
theorem self_names : ∀ x ∈ selfSheets, ∀ v, ∀ m ∈ (x.2.2 v).names, SameCommand m x.1 ∧
    ∀ y ∈ commandMaps, (y.2.lookup m).map (·.name) = (y.2.lookup x.1).map (·.name) := by
  have h : ∀ x ∈ selfSheets, (∀ v, (x.2.2 v).names = (x.2.2 0).names) ∧ ∀ m ∈ (x.2.2 0).names, SameCommand m x.1 ∧
      ∀ y ∈ commandMaps, (y.2.lookup m).map (·.name) = (y.2.lookup x.1).map (·.name) := by
    unfold selfSheets
    iterate 26 refine all_cons ⟨fun _ => rfl, by decide +kernel⟩ ?_
    exact List.forall_mem_nil _
  intro x hx v m hm
  rw [(h x hx).1 v] at hm
  exact (h x hx).2 m hm

/-- An accepted line of a command that has read nothing. -/
theorem accepted_self {v : Nat} (hv : Supported v) {h : Handler CState Ns} (s : Session v h) {n : Str} (hu : Unread h n)
    {l : Nat} {args : List Str} {line : Str} (ok : (h.dispatch l (n :: args) line).2 = none) {c : Command} (hc : (commandMap v).lookup n = some c)
    (hnl : ∀ i d, (c.addData d i).attrs.attrs = i.attrs.attrs → c.hasList i = false) :
    ∃ t i x, i.attrs.attrs = c.init.attrs ∧ (c.parse t args i).2 = .ok x ∧
      objectOf (h.dispatch l (n :: args) line).1 n = some ⟨c, (c.parse t args i).1⟩ := by
  obtain ⟨o, ho, hs⟩ := Option.map_eq_some_iff.1 hu
  have inv := session_inv hv s
  have hmap := supported_mapOk hv
  unfold objectOf at ho
  split at ho
  · rename_i r hlk
    obtain ⟨o', ho', hmem⟩ := inv.served n r hlk
    rw [ho] at ho'; cases ho'
    have hoc : o.cls = c := by
      have := (mem_iff_lookup hmap.dict).1 hmem
      rw [hc] at this; cases this; rfl
    obtain ⟨I, hI⟩ := hmap.ok _ hmem
    have hd := dispatch_eq hlk ho l args line
    simp only at hd
    have hfresh : o.inst.attrs.attrs = o.cls.init.attrs := by rw [fresh_session hv s r o ho hs]; rfl
    generalize hp : o.cls.parse (h.setInst r o (o.inst.noted n line l)).seenAttr args (o.inst.noted n line l) = p at hd
    rw [hd] at ok ⊢
    obtain ⟨j, x⟩ := p
    cases x with
    | error e => cases ok
    | ok x =>
      have hj : (c.parse (h.setInst r o (o.inst.noted n line l)).seenAttr args (o.inst.noted n line l)).1 = j := by rw [← hoc, hp]
      refine ⟨(h.setInst r o (o.inst.noted n line l)).seenAttr, o.inst.noted n line l, x, ?_, by rw [← hoc, hp], ?_⟩
      · show o.inst.attrs.attrs = _
        rw [hfresh, hoc]
      · have hr : r < h.heap.length := (List.getElem?_eq_some_iff.1 ho).1
        have hst : CmdClass.stored o.cls (j, .ok x) = j := by
          cases x with
          | none => rfl
          | some d =>
            simp only [CmdClass.stored]
            rw [hoc, hnl j d (by rw [← hoc]; exact hI.add d j)]; rfl
        rw [hj]
        unfold objectOf
        rw [show (h.setInst r o (CmdClass.stored o.cls (j, .ok x))).commands.lookup n = some (some r) from hlk]
        simp only [Handler.setInst, List.getElem?_set_self hr, hst]
        rw [← hoc]
  · cases ho

/-- The commands of the table have no data list. -/
theorem self_noList : ∀ x ∈ selfSheets, ∀ y ∈ commandMaps, ∀ c, y.2.lookup x.1 = some c → c.hasList { attrs := {} } = false := by
  have h : ∀ x ∈ selfSheets.map (·.1), ∀ y ∈ commandMaps, (match y.2.lookup x with | some c => c.hasList { attrs := {} } | none => false) = false := by decide +kernel
  intro x hx y hy c hc
  have := h x.1 (List.mem_map_of_mem hx) y hy
  rw [hc] at this
  exact this

/-! ## C62 -/

/-- C62: take a command of the table `selfSheets` that is neither deprecated nor removed, and any handler
that has read any lines, but none of this command. Let it read and accept a line of the command, after which
the values of the command's attributes are words. What the command prints consists of words: none, or its
name and arguments. If another handler that has read no line of the command reads these words as a line and
accepts them, the attributes agree with the first ones: every claimed attribute has the same value, or the
value it has without options; and it has the same value whenever that is true and is written (`lossy`), and
for the attributes in `full` also if it is false. The value without options is the one after every line
without options. -/
theorem C62_read_back {v : Nat} (hv : Supported v) {n : Str} {first : Nat} {sheet : Nat → Sheet} (hn : (n, first, sheet) ∈ selfSheets) (hf : first ≤ v)
    (hd : ¬ Deprecated v n) (hr : ¬ Removed v n) :
    ∃ base : Ns, (∀ h, Session v h → Unread h n → ∀ l args line, (∀ a ∈ args, startsWith a c!"-" = false) →
        (h.dispatch l (n :: args) line).2 = none → ∀ k, k ∉ (sheet v).skip → (attrsOf (h.dispatch l (n :: args) line).1 n).get k = base.get k) ∧
      ∀ h, Session v h → Unread h n → ∀ l args line, (h.dispatch l (n :: args) line).2 = none →
      (sheet v).Plain (attrsOf (h.dispatch l (n :: args) line).1 n) →
      ∃ words, shlexSplit (textOf (h.dispatch l (n :: args) line).1 n) true = .ok words ∧
        ((words = [] ∧ ∀ g ∈ (sheet v).given, g.eval (attrsOf (h.dispatch l (n :: args) line).1 n) = false) ∨
         ∃ m args', words = m :: args' ∧ SameCommand m n ∧
          ∀ h', Session v h' → Unread h' m → ∀ l' line', (h'.dispatch l' (m :: args') line').2 = none →
            (sheet v).Agree base (attrsOf (h.dispatch l (n :: args) line).1 n) (attrsOf (h'.dispatch l' (m :: args') line').1 m)) := by
  have hnone : ∀ m, (commandMap v).lookup m = none → ∀ h, Session v h → ¬ Unread h m := by
    intro m hm h s hu
    obtain ⟨o, ho, -⟩ := Option.map_eq_some_iff.1 hu
    have := ((session_inv hv s).names m).2 hm
    simp [objectOf, this] at ho
  match hc : (commandMap v).lookup n with
  | none => exact ⟨[], fun h s hu => absurd hu (hnone n hc h s), fun h s hu => absurd hu (hnone n hc h s)⟩
  | some c =>
    obtain ⟨hd', hr'⟩ := not_stage hv hc hd hr
    obtain ⟨base, hb, ht⟩ := selfSheets_readsBack _ hn _ (supported_mem hv) c hc hf hd' hr'
    have hL := session_lists hv (mem_of_lookup' hc)
    have hnl : ∀ i d, (c.addData d i).attrs.attrs = i.attrs.attrs → c.hasList i = false := fun i _ _ => by
      rw [hL.one i { attrs := {} }]; exact self_noList _ hn _ (supported_mem hv) c hc
    refine ⟨base, fun h s hu l args line ha ok k hk => ?_, fun h s hu l args line ok hp => ?_⟩
    · obtain ⟨t, i, x, h1, h2, h3⟩ := accepted_self hv s hu ok hc hnl
      have := hb t args i x h1 ha h2 k hk
      simpa only [attrsOf, h3] using this
    · obtain ⟨t, i, x, h1, h2, h3⟩ := accepted_self hv s hu ok hc hnl
      simp only [attrsOf, textOf, h3] at hp ⊢
      obtain ⟨words, h4, h5⟩ := ht t args i x h1 h2 hp
      refine ⟨words, h4, ?_⟩
      rcases h5 with h5 | ⟨m, hm, args', e, h5⟩
      · exact .inl h5
      obtain ⟨hs, hcls⟩ := self_names _ hn v m hm
      refine .inr ⟨m, args', e, hs, fun h' s' hu' l' line' ok' => ?_⟩
      have hcm : (commandMap v).lookup m = some c := by
        have := hcls _ (supported_mem hv)
        simp only [hc, Option.map_some] at this
        match hlm : (commandMap v).lookup m with
        | none => exact absurd hu' (hnone m hlm h' s')
        | some c' =>
          rw [hlm] at this
          exact congrArg some ((supported_mapOk hv).cls_eq (mem_of_lookup' hlm) (mem_of_lookup' hc) (by simpa using this))
      obtain ⟨t', i', x', h6, h7, h8⟩ := accepted_self hv s' hu' ok' hcm hnl
      simp only [h8]
      exact h5 t' i' x' h6 h7

/-! ### The hypotheses can be met -/

instance (v : Nat) (n : Str) : Decidable (Deprecated v n) :=
  decidable_of_iff (∃ p ∈ deprecatedIn, p.1 = v ∧ n ∈ p.2) ⟨fun ⟨p, h1, h2, h3⟩ => ⟨p.2, h2 ▸ h1, h3⟩, fun ⟨l, h1, h2⟩ => ⟨(v, l), h1, rfl, h2⟩⟩

instance (v : Nat) (n : Str) : Decidable (Removed v n) :=
  decidable_of_iff (∃ p ∈ removedIn, p.1 = v ∧ n ∈ p.2) ⟨fun ⟨p, h1, h2, h3⟩ => ⟨p.2, h2 ▸ h1, h3⟩, fun ⟨l, h1, h2⟩ => ⟨(v, l), h1, rfl, h2⟩⟩

example : Unread (newHandler Version.F34) c!"url" ∧ ¬ Deprecated Version.F34 c!"url" ∧ ¬ Removed Version.F34 c!"url" ∧
    c!"url" ∈ selfSheets.map (·.1) := by decide +kernel

/-- The words of the text. -/
def selfWords (h : Handler CState Ns) (n : Str) : Option (List Str) :=
  match shlexSplit (textOf h n) true with
  | .ok ws => some ws
  | .error _ => none

/-- Read the line, and check that the attributes can be written, what the words of the text are, and that a new
handler accepts them. -/
def reread (v : Nat) (n : Str) (sheet : Nat → Sheet) (args words : List Str) : Prop :=
  ((newHandler v).dispatch 1 (n :: args) []).2 = none ∧ (sheet v).Plain (attrsOf (readOne v (n :: args)) n) ∧
    selfWords (readOne v (n :: args)) n = some words ∧ ((newHandler v).dispatch 1 words []).2 = none

instance (v : Nat) (n : Str) (sheet : Nat → Sheet) (args words : List Str) : Decidable (reread v n sheet args words) := by unfold reread; infer_instance

example : reread Version.F34 c!"url" urlSheet [c!"--noverifyssl", c!"--proxy=http://p", c!"--url", c!"http://a/b c"]
    [c!"url", c!"--url=http://a/b c", c!"--proxy=http://p", c!"--noverifyssl"] := by decide +kernel

example : reread Version.F34 c!"timezone" timezoneSheet [c!"--utc", c!"Europe/Prague"] [c!"timezone", c!"Europe/Prague", c!"--utc"] := by decide +kernel

example : reread Version.F34 c!"autopart" autopartSheet [c!"--nohome", c!"--type=thinp", c!"--encrypted", c!"--passphrase=a b"]
    [c!"autopart", c!"--encrypted", c!"--passphrase=a b", c!"--type=thinp", c!"--nohome"] := by decide +kernel

example : reread Version.F34 c!"bootloader" bootloaderSheet [c!"--append=a b", c!"--timeout=0"]
    [c!"bootloader", c!"--append=a b", c!"--location=mbr", c!"--timeout=0"] := by decide +kernel

/-! ### What is not written

The conditions in the sheets cannot be dropped. -/

/-- The value of an attribute after a line. -/
def selfValue (v : Nat) (ws : List Str) (k : Str) : Option Val := (attrsOf (readOne v ws) (ws.headD [])).get k

/-- Without `--encrypted`, a passphrase is not written. -/
theorem C62_passphrase_lost : selfValue Version.F34 [c!"autopart", c!"--passphrase=x"] c!"passphrase" = some (.str c!"x") ∧
    selfWords (readOne Version.F34 [c!"autopart", c!"--passphrase=x"]) c!"autopart" = some [c!"autopart"] := by decide +kernel

/-- Without a type, `clearpart` is not written at all: neither `--drives` nor `--initlabel`. -/
theorem C62_clearpart_lost : selfValue Version.F34 [c!"clearpart", c!"--initlabel", c!"--drives=sda"] c!"drives" = some (.list [c!"sda"]) ∧
    selfValue Version.F34 [c!"clearpart", c!"--initlabel", c!"--drives=sda"] c!"initAll" = some (.bool true) ∧
    selfWords (readOne Version.F34 [c!"clearpart", c!"--initlabel", c!"--drives=sda"]) c!"clearpart" = some [] := by decide +kernel

/-- Without a host, the port of `vnc` is not written. -/
theorem C62_vnc_port_lost : selfValue Version.F34 [c!"vnc", c!"--port=5901"] c!"port" = some (.str c!"5901") ∧
    selfWords (readOne Version.F34 [c!"vnc", c!"--port=5901"]) c!"vnc" = some [c!"vnc"] := by decide +kernel

/-- In Fedora 34, the level of `logging` is accepted and not written. -/
theorem C62_level_lost : selfValue Version.F34 [c!"logging", c!"--level=debug"] c!"level" = some (.str c!"debug") ∧
    selfWords (readOne Version.F34 [c!"logging", c!"--level=debug"]) c!"logging" = some [] := by decide +kernel

/-- A boot loader that is disabled loses its other options. -/
theorem C62_disabled_lost : selfValue Version.F34 [c!"bootloader", c!"--disabled", c!"--append=x"] c!"appendLine" = some (.str c!"x") ∧
    selfWords (readOne Version.F34 [c!"bootloader", c!"--disabled", c!"--append=x"]) c!"bootloader" = some [c!"bootloader", c!"--disabled"] := by decide +kernel

end Ks
