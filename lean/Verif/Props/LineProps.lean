import Verif.Commands.FirstLines
import Verif.Props.OwnRuleProps
/-!
# C65: what the first line of a command does

For every command that keeps settings, `commandLines` says which options it has in which versions and which
attributes they give values to.  The handlers do what the table says.
-/
namespace Ks

open Cmd

/-- The objects with the settings of a command: the data objects of a command with a data list, or else the command
itself. -/
def objectsOf (h : Handler CState Ns) (n : Str) : List Ns :=
  match objectOf h n with
  | some o => if o.cls.hasList o.inst then o.inst.attrs.data else [o.inst.attrs.attrs]
  | none => []

/-- The commands, by the attributes of the handler, that a command looks at and does not agree with. -/
def rivals (n : Str) : List Str :=
  if n ∈ [c!"part", c!"partition", c!"raid", c!"volgroup", c!"logvol", c!"reqpart"] then [c!"autopart", c!"mount"]
  else if n = c!"autopart" then [c!"partition", c!"raid", c!"volgroup", c!"logvol", c!"reqpart", c!"mount"]
  else if n = c!"mount" then [c!"autopart", c!"partition", c!"raid", c!"volgroup", c!"logvol", c!"reqpart"]
  else []

/-- No line of the command, and none of a command that does not agree with it, has been read. -/
def FirstOf (h : Handler CState Ns) (n : Str) : Prop := Unread h n ∧ ∀ m ∈ rivals n, h.seenAttr m ≠ some true

instance (h : Handler CState Ns) (n : Str) : Decidable (FirstOf h n) := by unfold FirstOf; infer_instance

/-! ## What the command sees of others -/

theorem looksAt_rivals : ∀ p ∈ storageAttrs, ∀ a ∈ looksAt p.2, a ∈ rivals p.1 := by decide +kernel

theorem looksAt_self (a : Str) : a ∉ looksAt a := by
  intro h
  have := (looksAt_storage h).1
  revert h
  exact (show ∀ a ∈ storageAttrs.map (·.2), a ∉ looksAt a by decide +kernel) a this

theorem commandMaps_partitioning : commandMaps.all (fun m =>
    [c!"partition", c!"raid", c!"volgroup", c!"logvol", c!"autopart"].all fun a => m.2.any fun x => attrName x.2.name == a) = true := by decide +kernel

theorem looksAt_cases : ∀ p ∈ storageAttrs, ∀ a ∈ looksAt p.2, a = c!"mount" ∨ a = c!"reqpart" ∨
    a ∈ [c!"partition", c!"raid", c!"volgroup", c!"logvol", c!"autopart"] := by decide +kernel

theorem first_quiet {v : Nat} (hv : Supported v) {h : Handler CState Ns} (s : Session v h) {n : Str} (hf : FirstOf h n) {r : Nat} {o : Obj CState Ns}
    (hs : h.Serves n r) (ho : h.heap[r]? = some o) :
    ∃ b b', Off b ∧ Off b' ∧ ∀ i args j, o.cls.parse (h.setInst r o i).seenAttr args j = o.cls.parse (quiet b b') args j := by
  have inv := session_inv hv s
  obtain ⟨p, hp, hm⟩ := inv.served n r hs
  rw [ho] at hp; cases hp
  have hoff : ∀ a, h.seenAttr a ≠ some true → Off (h.seenAttr a) := by
    intro a ha
    match he : h.seenAttr a with
    | none => exact .inl rfl
    | some false => exact .inr rfl
    | some true => exact absurd he ha
  have hother : ∀ i, ∀ a ∈ looksAt (attrName o.cls.name), (h.setInst r o i).seenAttr a = h.seenAttr a := by
    intro i a ha
    rw [seenAttr_setInst ho]
    split
    · rename_i hr
      have := session_attr_class hv s a r hr
      have hcr : h.className r = o.cls.name := by simp [Handler.className, ho]
      rw [hcr] at this
      rw [← this] at ha
      exact absurd ha (looksAt_self _)
    · rfl
  refine ⟨if h.seenAttr c!"mount" = some true then none else h.seenAttr c!"mount",
    if h.seenAttr c!"reqpart" = some true then none else h.seenAttr c!"reqpart", ?_, ?_, fun i args j => session_local hv hm _ _ (fun a ha => ?_) args j⟩
  · split
    · exact .inl rfl
    · exact hoff _ (by assumption)
  · split
    · exact .inl rfl
    · exact hoff _ (by assumption)
  · have hst := storage_name hv hm (looksAt_storage ha).1
    have hne := hf.2 a (looksAt_rivals _ hst a ha)
    rw [hother i a ha]
    rcases looksAt_cases _ hst a ha with rfl | rfl | hc
    · simp [quiet, hne]
    · simp [quiet, hne]
    · have h1 := List.all_eq_true.1 commandMaps_partitioning _ (supported_mem hv)
      have h2 := List.all_eq_true.1 h1 a hc
      obtain ⟨x, hx, hxa⟩ := List.any_eq_true.1 h2
      obtain ⟨q, hq⟩ := inv.attrs x hx
      rw [eq_of_beq hxa] at hq
      have hz : h.seenAttr a = some false := by
        obtain ⟨p, hp⟩ : ∃ p, h.heap[q]? = some p := by
          have := (reachable_wf inv.reach).attrs _ _ hq
          exact ⟨_, List.getElem?_eq_getElem this⟩
        have hsa : h.seenAttr a = some p.inst.seen := by simp [Handler.seenAttr, hq, hp]
        rw [hsa] at hne ⊢
        cases hps : p.inst.seen
        · rfl
        · rw [hps] at hne; exact absurd rfl hne
      rw [hz]
      have : a ≠ c!"mount" ∧ a ≠ c!"reqpart" := by
        clear hne hother h2 hxa hq hz ha
        revert a; decide
      simp [quiet, this.1, this.2]

/-! ## The first line -/

/-- The first line of a command makes the object that `parse` makes in a new object. -/
theorem first_line {v : Nat} (hv : Supported v) {h : Handler CState Ns} (s : Session v h) {n : Str} (hn : n ≠ c!"multipath") (hf : FirstOf h n) :
    ∃ c b b', (commandMap v).lookup n = some c ∧ Off b ∧ Off b' ∧ objectsOf h n = (if c.hasList c.new.inst then [] else [c.init.attrs]) ∧
      ∀ l args line, match outcome (c.parse (quiet b b') args (firstInst c n line l)) with
        | some d => (h.dispatch l (n :: args) line).2 = none ∧ objectsOf (h.dispatch l (n :: args) line).1 n = [d]
        | none => (h.dispatch l (n :: args) line).2 ≠ none := by
  have inv := session_inv hv s
  have hmap := supported_mapOk hv
  obtain ⟨c, hc, ho⟩ := unread_object hv s hf.1
  have ho' := ho
  unfold objectOf at ho'
  split at ho'
  · rename_i r hlk
    obtain ⟨o', ho'', hmem⟩ := inv.served n r hlk
    rw [ho'] at ho''; cases ho''
    have hL : Command.Lists c := session_lists hv hmem
    obtain ⟨b, b', hb, hb', hq⟩ := first_quiet hv s hf hlk ho'
    have hcls : (CmdClass.new c).cls = c := rfl
    rw [hcls] at hq hmem
    refine ⟨c, b, b', hc, hb, hb', ?_, fun l args line => ?_⟩
    · unfold objectsOf
      rw [ho]
      show (if c.hasList c.new.inst = true then c.init.data else [c.init.attrs]) = _
      rw [hL.empty]
    · have hd := dispatch_eq hlk ho' l args line
      simp only at hd
      rw [hcls, hq] at hd
      obtain ⟨I, hI⟩ := hmap.ok _ hmem
      have hst := hasStorage_setInst ho' (c.new.inst.noted n line l) (inv.storage hmap)
      have hfr := hI.frame (not_multipath hv hmem hn) _ args (c.new.inst.noted n line l) hst ((inv.objs r _ ho').2 I _ hI)
      rw [hq] at hfr
      have hval := hL.value (quiet b b') args (c.new.inst.noted n line l)
      have hpl := hL.plain (quiet b b') args (c.new.inst.noted n line l)
      show match outcome (c.parse (quiet b b') args (c.new.inst.noted n line l)) with
        | some d => (h.dispatch l (n :: args) line).2 = none ∧ objectsOf (h.dispatch l (n :: args) line).1 n = [d]
        | none => (h.dispatch l (n :: args) line).2 ≠ none
      change ObjFrame _ (c.parse (quiet b b') args (c.new.inst.noted n line l)).1 at hfr
      generalize c.parse (quiet b b') args (c.new.inst.noted n line l) = p at hd hfr hval hpl ⊢
      have hr : r < h.heap.length := (List.getElem?_eq_some_iff.1 ho').1
      have hob : ∀ i, objectsOf (h.setInst r c.new i) n = if c.hasList i then i.attrs.data else [i.attrs.attrs] := by
        intro i
        simp only [objectsOf, objectOf, Handler.setInst, hlk, List.getElem?_set_self hr]
        rfl
      obtain ⟨j, x⟩ := p
      rw [hd]
      cases x with
      | error e => exact Option.some_ne_none e
      | ok x =>
        cases hl : c.hasList (c.new.inst.noted n line l) with
        | true =>
          obtain ⟨d, rfl, _⟩ := hval x rfl hl
          refine ⟨rfl, ?_⟩
          rw [hob]
          have hj : ∀ i, c.hasList i = true := fun i => by rw [hL.one i]; exact hl
          simp only [CmdClass.stored, hj, if_true]
          rw [hL.add, if_pos (hj _), hfr.data]
          show c.init.data ++ [d] = [d]
          rw [hL.empty]; rfl
        | false =>
          cases hpl x rfl hl
          refine ⟨rfl, ?_⟩
          rw [hob]
          have hj : ∀ i, c.hasList i = false := fun i => by rw [hL.one i]; exact hl
          simp only [CmdClass.stored, hj, Bool.false_eq_true, if_false]
  · cases ho'

theorem lines_multipath : ∀ e ∈ commandLines, e.cmd ≠ c!"multipath" := by decide +kernel

/-- The objects that the first lines of a command make, and what the table says about them. -/
theorem first_obeys {v : Nat} (hv : Supported v) {h : Handler CState Ns} (s : Session v h) {e : CommandLines} (he : e ∈ commandLines)
    (hev : e.versions v = true) (hf : FirstOf h e.cmd) : ∃ (c : Command) (d : Nat → Ns), (commandMap v).lookup e.cmd = some c ∧
      objectsOf h e.cmd = (if c.hasList c.new.inst then [] else [c.init.attrs]) ∧
      (∀ l line, (h.dispatch l (e.cmd :: e.base) line).2 = none ∧ objectsOf (h.dispatch l (e.cmd :: e.base) line).1 e.cmd = [d l]) ∧
      (∀ x ∈ e.start, x.1.has v = true → c.FirstStart d x.2) ∧
      ∀ r ∈ e.lines, r.versions.has v = true → ∀ x, x ≠ [] → ∀ l line,
        match r.sets with
        | some f => (h.dispatch l (e.cmd :: (e.base ++ r.args x)) line).2 = none ∧
          objectsOf (h.dispatch l (e.cmd :: (e.base ++ r.args x)) line).1 e.cmd = [assigned (f x) (d l)]
        | none => (h.dispatch l (e.cmd :: (e.base ++ r.args x)) line).2 ≠ none := by
  obtain ⟨c, b, b', hc, hb, hb', h1, h2⟩ := first_line hv s (lines_multipath e he) hf
  obtain ⟨d, h3, h4, h5⟩ := commandLines_obeyed e he _ (supported_mem hv) hev c hc
  refine ⟨c, d, hc, h1, fun l line => ?_, h4, fun r hr hrv x hx l line => ?_⟩
  · have := h2 l e.base line
    rw [h3 b b' hb hb' line l] at this
    exact this
  · have := h2 l (e.base ++ r.args x) line
    rw [h5 r hr hrv b b' hb hb' x hx line l] at this
    cases hs : r.sets with
    | none => rw [hs] at this; exact this
    | some f => rw [hs] at this; exact this

/-! ## C65 -/

/-- C65: in every state in which no line of a command, and none of a command that does not agree with it, has been
read, its base line is accepted.  For a command with a data list, it makes one object that has the values in the
table; for another command, the attributes change in the values of the table alone. -/
theorem C65_base {v : Nat} (hv : Supported v) {h : Handler CState Ns} (s : Session v h) {e : CommandLines} (he : e ∈ commandLines)
    (hev : e.versions v = true) (hf : FirstOf h e.cmd) (l : Nat) (line : Str) :
    (h.dispatch l (e.cmd :: e.base) line).2 = none ∧
    ∀ x ∈ e.start, x.1.has v = true →
      (ListCommand v e.cmd → ∃ d, objectsOf (h.dispatch l (e.cmd :: e.base) line).1 e.cmd = [d] ∧ ∀ p ∈ x.2, d.get p.1 = some p.2) ∧
      (¬ ListCommand v e.cmd → objectsOf (h.dispatch l (e.cmd :: e.base) line).1 e.cmd = (objectsOf h e.cmd).map (assigned x.2)) := by
  obtain ⟨c, d, hc, h1, h2, h3, _⟩ := first_obeys hv s he hev hf
  refine ⟨(h2 l line).1, fun x hx hxv => ?_⟩
  rw [(h2 l line).2, h1]
  rcases h3 x hx hxv l with ⟨ha, hb⟩ | ⟨ha, hb⟩
  · exact ⟨fun _ => ⟨d l, rfl, hb⟩, fun hn => absurd ⟨c, hc, ha _⟩ hn⟩
  · refine ⟨fun ⟨c', hc', hl⟩ => ?_, fun _ => ?_⟩
    · rw [hc] at hc'; cases hc'
      rw [ha] at hl; cases hl
    · rw [ha, hb]; rfl

/-- C65: further arguments that the table accepts in the version are accepted after the base line, with every value
that an option may have, and change the object that the base line makes in the values of the table alone. -/
theorem C65_line {v : Nat} (hv : Supported v) {h : Handler CState Ns} (s : Session v h) {e : CommandLines} (he : e ∈ commandLines)
    (hev : e.versions v = true) (hf : FirstOf h e.cmd) {r : LineSpec} (hr : r ∈ e.lines) (hrv : r.versions.has v = true)
    {f : Str → List (Str × Val)} (hs : r.sets = some f) {x : Str} (hx : x ≠ []) (l : Nat) (line line' : Str) :
    (h.dispatch l (e.cmd :: (e.base ++ r.args x)) line).2 = none ∧
    objectsOf (h.dispatch l (e.cmd :: (e.base ++ r.args x)) line).1 e.cmd = (objectsOf (h.dispatch l (e.cmd :: e.base) line').1 e.cmd).map (assigned (f x)) := by
  obtain ⟨c, d, _, _, h2, _, h3⟩ := first_obeys hv s he hev hf
  have := h3 r hr hrv x hx l line
  rw [hs] at this
  rw [(h2 l line').2]
  exact this

/-- C65: further arguments that the table refuses in the version are refused. -/
theorem C65_refused {v : Nat} (hv : Supported v) {h : Handler CState Ns} (s : Session v h) {e : CommandLines} (he : e ∈ commandLines)
    (hev : e.versions v = true) (hf : FirstOf h e.cmd) {r : LineSpec} (hr : r ∈ e.lines) (hrv : r.versions.has v = true)
    (hs : r.sets = none) {x : Str} (hx : x ≠ []) (l : Nat) (line : Str) :
    (h.dispatch l (e.cmd :: (e.base ++ r.args x)) line).2 ≠ none := by
  obtain ⟨c, d, _, _, _, _, h3⟩ := first_obeys hv s he hev hf
  have := h3 r hr hrv x hx l line
  rw [hs] at this
  exact this

/-- The hypotheses are met: a new handler of Fedora 34 has read no line, and the table has the lines of `autopart`
with `--luks-version` (Fedora 28 refuses it) and of `rootpw`. -/
example : Supported Version.F34 ∧ Session Version.F34 (newHandler Version.F34) ∧ FirstOf (newHandler Version.F34) c!"autopart" ∧
    autopartLines ∈ commandLines ∧ autopartLines.versions Version.F34 = true ∧
    (autopartLines.lines.any fun r => r.versions.has Version.F34 && r.sets.isSome) = true := by
  refine ⟨by decide +kernel, .new, by decide +kernel, List.mem_cons_self, by decide +kernel, by decide +kernel⟩

/-- The line `autopart --luks-version=X`, for every `X`. -/
example (x : Str) (hx : x ≠ []) (l : Nat) (line : Str) :
    objectsOf ((newHandler Version.F34).dispatch l (c!"autopart" :: [c!"--luks-version=" ++ x]) line).1 c!"autopart" =
      (objectsOf ((newHandler Version.F34).dispatch l [c!"autopart"] line).1 c!"autopart").map (assigned [(c!"luks_version", .str x)]) :=
  (C65_line (v := Version.F34) (by decide +kernel) .new (e := autopartLines) List.mem_cons_self (by decide +kernel) (by decide +kernel)
    (r := text [(Version.RHEL8, Version.F34)] c!"--luks-version" c!"luks_version") (by unfold autopartLines; simp) (by decide +kernel) rfl hx l line line).2

end Ks
