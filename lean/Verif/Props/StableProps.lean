import Verif.Props.NumberProps
import Verif.Props.UnreadProps
import Verif.Props.LineProps
/-!
# C75: what a handler writes, read again, is written again
-/
namespace Ks

open Cmd

/-! ## Specification -/

/-- What a line without sections is to the parser: a comment or blank line, or a command with its words. -/
def lineItem (l : Str) : Item :=
  if isBlankOrComment l = true then .skip l else .cmd l (match shlexSplit l true with | .ok ws => ws | .error _ => [])

/-- The lines of a text. -/
def lineItems (text : Str) : List Item := (splitLines text).map lineItem

/-- In version `v`, both names stand for one object. -/
def SameObject (v : Nat) (m n : Str) : Prop := (newHandler v).commands.lookup m = (newHandler v).commands.lookup n

instance (v : Nat) (m n : Str) : Decidable (SameObject v m n) := by unfold SameObject; infer_instance

/-- A line that belongs to the command: one of its own or a comment (that does not give the platform). -/
def OwnLine (v : Nat) (n : Str) : Item → Prop
  | .skip l => SkipLine l ∧ l.take 10 ≠ c!"#platform="
  | .cmd l ws => CmdLine l ws ∧ SameObject v (ws.headD []) n
  | _ => False

instance (v : Nat) (n : Str) : DecidablePred (OwnLine v n) := fun it => by
  cases it <;> unfold OwnLine <;> infer_instance

/-- The text of a command is stable: it consists of whole lines that belong to the command, and a new handler that reads
them and nothing else accepts them all and then has the same text for the command. -/
def StableText (v : Nat) (n text : Str) : Prop :=
  (text = [] ∨ text.getLast? = some '\n') ∧ (∀ it ∈ lineItems text, OwnLine v n it) ∧
  (runCommands Handler.dispatch 0 (lineItems text) (newHandler v)).2 = none ∧
  textOf (runCommands Handler.dispatch 0 (lineItems text) (newHandler v)).1 n = text

instance (v : Nat) (n text : Str) : Decidable (StableText v n text) := by unfold StableText; infer_instance

/-- The versions that have `lilo`, whose object writes `bootloader` lines. -/
def liloVersions : List Nat := [Version.FC3, Version.RHEL3, Version.RHEL4]

/-! ## Lines -/

theorem lineItems_append {a b : Str} (h : a = [] ∨ a.getLast? = some '\n') : lineItems (a ++ b) = lineItems a ++ lineItems b := by
  unfold lineItems
  rw [splitLines_append h, List.map_append]

theorem lineItem_lines (l : Str) : (lineItem l).lines = [l] := by
  unfold lineItem; split <;> rfl

theorem own_wf {v u : Nat} {tags : List Str} {n : Str} {it : Item} (h : OwnLine v n it) : it.WF u tags ∧ CommandItem it ∧ ∀ l f, it ≠ .incl l f := by
  cases it <;> simp only [OwnLine] at h
  · exact ⟨h.1, h.2, by simp⟩
  · exact ⟨h.1, trivial, by simp⟩

theorem own_doc {u : Nat} {tags : List Str} {text : Str} (h : ∀ it ∈ lineItems text, ∃ v n, OwnLine v n it) : IsDoc u tags text (lineItems text) := by
  refine ⟨?_, fun it hit => ?_, fun it hit => ?_⟩
  · unfold lineItems
    generalize splitLines text = ls
    induction ls with
    | nil => rfl
    | cons l ls ih => rw [List.map_cons, List.flatMap_cons, lineItem_lines, ← ih]; rfl
  · obtain ⟨v, n, ho⟩ := h it hit; exact (own_wf (u := u) (tags := tags) ho).2.2
  · obtain ⟨v, n, ho⟩ := h it hit; exact (own_wf ho).1

/-! ## Running the lines of one object -/

/-- `runCommands` for a handler. -/
abbrev runH (k : Nat) (items : List Item) (h : Handler CState Ns) : Handler CState Ns × Option Exc := runCommands Handler.dispatch k items h

theorem runH_append {a b : List Item} {k : Nat} {h h' : Handler CState Ns} (ha : runH k a h = (h', none)) : runH k (a ++ b) h = runH (k + a.length) b h' := by
  induction a generalizing k h with
  | nil => unfold runH runCommands at ha; cases ha; rfl
  | cons it t ih =>
    have e : k + (it :: t).length = (k + 1) + t.length := by simp; omega
    rw [e]
    cases it with
    | cmd l ws =>
      unfold runH at ha ⊢
      rw [List.cons_append, runCommands]
      rw [runCommands] at ha
      split at ha
      · exact ih ha
      · cases ha
    | _ => exact ih ha

theorem runH_session {v : Nat} {h : Handler CState Ns} (s : Session v h) (items : List Item) (k : Nat) : Session v (runH k items h).1 ∧ SameShape h (runH k items h).1 := by
  induction items generalizing k h with
  | nil => exact ⟨s, .refl _⟩
  | cons it t ih =>
    cases it with
    | cmd l ws =>
      unfold runH
      rw [runCommands]
      have hs := s.dispatch (k + 1) ws l
      have hsh := dispatch_shape h (k + 1) ws l
      split
      · rename_i c hc; rw [hc] at hs hsh; exact ⟨(ih hs _).1, hsh.trans (ih hs _).2⟩
      · rename_i c e hc; rw [hc] at hs hsh; exact ⟨hs, hsh⟩
    | _ => exact ih s _

/-- The line numbers do not matter. -/
theorem runH_near {v : Nat} (hv : Supported v) (items : List Item) {h h' : Handler CState Ns} (hn : NearSession v h h') (k k' : Nat) :
    NearSession v (runH k items h).1 (runH k' items h').1 ∧ (runH k items h).2.map Exc.noLine = (runH k' items h').2.map Exc.noLine := by
  induction items generalizing k k' h h' with
  | nil => exact ⟨hn, rfl⟩
  | cons it t ih =>
    cases it with
    | cmd l ws =>
      obtain ⟨h1, h2⟩ := C72_dispatch hv (k + 1) (k' + 1) ws l _ _ hn
      unfold runH
      rw [runCommands, runCommands]
      split
      · rename_i c hc
        rw [hc] at h1 h2
        split
        · rename_i c' hc'
          rw [hc'] at h1
          exact ih h1 _ _
        · rename_i c' e' hc'
          rw [hc'] at h2
          simp at h2
      · rename_i c e hc
        rw [hc] at h1 h2
        split
        · rename_i c' hc'
          rw [hc'] at h2
          simp at h2
        · rename_i c' e' hc'
          rw [hc'] at h1 h2
          exact ⟨h1, h2⟩
    | _ => exact ih hn _ _

/-- Two handlers of one shape in which an object is the same and sees the same. -/
structure SameAt (v : Nat) (r : Nat) (g g' : Handler CState Ns) : Prop where
  left : Session v g
  right : Session v g'
  shape : SameShape g g'
  obj : g'.heap[r]? = g.heap[r]?
  seen : ∀ a ∈ looksAt (attrName (g.className r)), g'.seenAttr a = g.seenAttr a

/-- An object does not look at its own attribute. -/
theorem seenAttr_other {v : Nat} (hv : Supported v) {g : Handler CState Ns} (s : Session v g) {r : Nat} {o : Obj CState Ns} (ho : g.heap[r]? = some o) (i : Inst CState) :
    ∀ a ∈ looksAt (attrName (g.className r)), (g.setInst r o i).seenAttr a = g.seenAttr a := by
  intro a ha
  rw [seenAttr_setInst ho]
  split
  · rename_i hr
    have := session_attr_class hv s a r hr
    rw [← this] at ha
    exact absurd ha (looksAt_self _)
  · rfl

theorem sameAt_dispatch {v : Nat} (hv : Supported v) {r : Nat} {g g' : Handler CState Ns} (hg : SameAt v r g g') {m : Str} (hm : g.Serves m r) (k : Nat) (args : List Str) (line : Str) :
    SameAt v r (g.dispatch k (m :: args) line).1 (g'.dispatch k (m :: args) line).1 ∧
    (g'.dispatch k (m :: args) line).2 = (g.dispatch k (m :: args) line).2 ∧ ∀ x, x ≠ r → (g.dispatch k (m :: args) line).1.heap[x]? = g.heap[x]? := by
  have inv := session_inv hv hg.left
  obtain ⟨o, ho, hmem⟩ := inv.served m r hm
  have ho' : g'.heap[r]? = some o := by rw [hg.obj, ho]
  have hm' : g'.Serves m r := by unfold Handler.Serves; rw [hg.shape.commands]; exact hm
  have hcr : g.className r = o.cls.name := by simp [Handler.className, ho]
  have hcr' : g'.className r = o.cls.name := by simp [Handler.className, ho']
  have hsh := dispatch_shape g k (m :: args) line
  have hsh' := dispatch_shape g' k (m :: args) line
  have hd := dispatch_eq hm ho k args line
  have hd' := dispatch_eq hm' ho' k args line
  simp only at hd hd'
  have hseen : ∀ i, ∀ a ∈ looksAt (attrName o.cls.name), (g'.setInst r o i).seenAttr a = (g.setInst r o i).seenAttr a := by
    intro i a ha
    rw [seenAttr_other hv hg.left ho i a (by rw [hcr]; exact ha), seenAttr_other hv hg.right ho' i a (by rw [hcr']; exact ha)]
    exact hg.seen a (by rw [hcr]; exact ha)
  have hp := session_local hv hmem _ _ (hseen (o.inst.noted m line k)) args (o.inst.noted m line k)
  have hr : r < g.heap.length := (List.getElem?_eq_some_iff.1 ho).1
  have hr' : r < g'.heap.length := (List.getElem?_eq_some_iff.1 ho').1
  refine ⟨⟨hg.left.dispatch _ _ _, hg.right.dispatch _ _ _, ?_, ?_, ?_⟩, ?_, ?_⟩
  · exact ⟨by rw [hsh'.commands, hsh.commands, hg.shape.commands], by rw [hsh'.writeOrder, hsh.writeOrder, hg.shape.writeOrder],
          by rw [hsh'.attrs, hsh.attrs, hg.shape.attrs], by rw [hsh'.classes, hsh.classes, hg.shape.classes]⟩
  · rw [hd, hd', hp]
    simp only [Handler.setInst, List.getElem?_set_self hr, List.getElem?_set_self hr']
  · intro a ha
    rw [hsh.className, hcr] at ha
    rw [hd, hd', hp]
    exact hseen _ a ha
  · rw [hd, hd', hp]
  · intro x hx
    rw [hd]
    simp only [Handler.setInst, List.getElem?_set_ne (fun e => hx e.symm)]

/-- The lines of an object do the same in both. -/
theorem sameAt_run {v : Nat} (hv : Supported v) {r : Nat} {n : Str} {items : List Item} (hi : ∀ it ∈ items, OwnLine v n it) (hn : (newHandler v).Serves n r)
    {g g' : Handler CState Ns} (hN : SameShape (newHandler v) g) (hg : SameAt v r g g') (k : Nat) :
    SameAt v r (runH k items g).1 (runH k items g').1 ∧ (runH k items g').2 = (runH k items g).2 ∧ ∀ x, x ≠ r → (runH k items g).1.heap[x]? = g.heap[x]? := by
  induction items generalizing k g g' with
  | nil => exact ⟨hg, rfl, fun _ _ => rfl⟩
  | cons it t ih =>
    have ho := hi it (by simp)
    have ht : ∀ it ∈ t, OwnLine v n it := fun x hx => hi x (List.mem_cons_of_mem _ hx)
    cases it with
    | cmd l ws =>
      obtain ⟨⟨_, _, c, w, rest, hws, _⟩, hso⟩ := ho
      subst hws
      rw [List.headD_cons] at hso
      have hm : g.Serves (c :: w) r := by unfold Handler.Serves; rw [hN.commands, hso]; exact hn
      obtain ⟨h1, h2, h3⟩ := sameAt_dispatch hv hg hm (k + 1) rest l
      have hsh := hN.trans (dispatch_shape g (k + 1) ((c :: w) :: rest) l)
      unfold runH
      rw [runCommands, runCommands]
      split
      · rename_i a ha
        rw [ha] at h1 h2 h3 hsh
        split
        · rename_i b hb
          rw [hb] at h1
          obtain ⟨i1, i2, i3⟩ := ih ht hsh h1 (k + 1)
          exact ⟨i1, i2, fun x hx => by rw [i3 x hx, h3 x hx]⟩
        · rename_i b e hb
          rw [hb] at h2
          simp at h2
      · rename_i a e ha
        rw [ha] at h1 h2 h3
        split
        · rename_i b hb
          rw [hb] at h2
          simp at h2
        · rename_i b e' hb
          rw [hb] at h1 h2
          exact ⟨h1, h2, h3⟩
    | skip l => exact ih ht hN hg (k + 1)
    | _ => exact absurd ho (by simp [OwnLine])

/-! ## All objects -/

theorem serves_text {h : Handler CState Ns} {n : Str} {r : Nat} (hs : h.Serves n r) : textOf h n = h.text r := by
  have : objectOf h n = h.heap[r]? := by
    unfold objectOf
    rw [show h.commands.lookup n = some (some r) from hs]
  unfold textOf Handler.text
  rw [this]
  cases h.heap[r]? <;> rfl

/-- The text of an object does not depend on line numbers. -/
theorem near_text {v : Nat} (hv : Supported v) {h h' : Handler CState Ns} (n : NearSession v h h') (r : Nat) : h.text r = h'.text r := by
  obtain ⟨s, -, n⟩ := n
  unfold Handler.text
  cases ho : h.heap[r]? with
  | none => rw [n.noObj ho]
  | some o =>
    obtain ⟨i, hi, hn⟩ := n.obj ho
    rw [hi]
    exact (session_allBlind hv s o (List.mem_of_getElem? ho)).str _ _ hn

/-- The attributes that a class looks at belong to the objects that have these names. -/
theorem attr_names : commandMaps.all (fun y => y.2.all fun x => 
    !((storageAttrs.map (·.2)).contains (attrName x.2.name)) || (match y.2.lookup (attrName x.2.name) with | some c => c.name == x.2.name | none => false)) = true := by decide +kernel

/-- Reading the lines of objects one after the other. -/
theorem run_objects {v : Nat} (hv : Supported v) {names : Nat → Str} {texts : Nat → Str} {L : List Nat} (hnd : L.Nodup)
    (hserve : ∀ r ∈ L, (newHandler v).Serves (names r) r) (hst : ∀ r ∈ L, StableText v (names r) (texts r))
    (hR : ∀ r ∈ L, texts r ≠ [] → ∀ a ∈ looksAt (attrName ((newHandler v).className r)), ∀ x ∈ L, (newHandler v).attrs.lookup a = some x → texts x = [])
    (k : Nat) {g : Handler CState Ns} (s : Session v g) (hsh : SameShape (newHandler v) g) (hfresh : ∀ r ∈ L, g.heap[r]? = (newHandler v).heap[r]?)
    (hseen : ∀ r ∈ L, texts r ≠ [] → ∀ a ∈ looksAt (attrName ((newHandler v).className r)), g.seenAttr a = (newHandler v).seenAttr a) :
    (runH k (lineItems (L.map texts).flatten) g).2 = none ∧ (∀ r ∈ L, (runH k (lineItems (L.map texts).flatten) g).1.text r = texts r) ∧
    ∀ x, x ∉ L → (runH k (lineItems (L.map texts).flatten) g).1.heap[x]? = g.heap[x]? := by
  induction L generalizing k g with
  | nil => exact ⟨rfl, by simp, fun _ _ => rfl⟩
  | cons r L ih =>
    obtain ⟨hr, hnd⟩ := List.nodup_cons.1 hnd
    obtain ⟨hterm, hown, hok, htext⟩ := hst r (by simp)
    have hsr := hserve r (by simp)
    have hfr := hfresh r (by simp)
    have tl : ∀ {P : Nat → Prop}, (∀ x ∈ r :: L, P x) → ∀ x ∈ L, P x := fun h x hx => h x (List.mem_cons_of_mem _ hx)
    -- alone, at this place in the file
    obtain ⟨hnear, hnex⟩ := runH_near hv (lineItems (texts r)) (h := newHandler v) (h' := newHandler v) ⟨.new, .new, .refl _⟩ k 0
    have hok' : (runH k (lineItems (texts r)) (newHandler v)).2 = none := by
      unfold runH at hnex ⊢
      rw [hok] at hnex
      simpa using hnex
    have htext' : (runH k (lineItems (texts r)) (newHandler v)).1.text r = texts r := by
      have h1 := (runH_session (v := v) .new (lineItems (texts r)) 0).2
      have : textOf (runH 0 (lineItems (texts r)) (newHandler v)).1 (names r) = texts r := htext
      rw [serves_text (r := r) (by unfold Handler.Serves; rw [h1.commands]; exact hsr)] at this
      exact (near_text hv hnear r).trans this
    -- here
    have hpair : (texts r = [] ∧ (runH k (lineItems (texts r)) g) = (g, none) ∧ g.text r = texts r) ∨
        ((runH k (lineItems (texts r)) g).2 = none ∧ (runH k (lineItems (texts r)) g).1.text r = texts r ∧
          ∀ x, x ≠ r → (runH k (lineItems (texts r)) g).1.heap[x]? = g.heap[x]?) := by
      by_cases he : texts r = []
      · left
        rw [he] at htext' ⊢
        refine ⟨rfl, rfl, ?_⟩
        unfold Handler.text
        rw [hfr]
        exact htext'
      · right
        have hsame : SameAt v r g (newHandler v) :=
          ⟨s, .new, ⟨hsh.commands.symm, hsh.writeOrder.symm, hsh.attrs.symm, hsh.classes.symm⟩, hfr.symm,
            fun a ha => (hseen r (by simp) he a (by rw [← hsh.className]; exact ha)).symm⟩
        obtain ⟨i1, i2, i3⟩ := sameAt_run hv hown hsr hsh hsame k
        refine ⟨by rw [← i2, hok'], ?_, i3⟩
        unfold Handler.text
        rw [← i1.obj]
        exact htext'
    have hmid : ∃ g', runH k (lineItems (texts r)) g = (g', none) ∧ g'.text r = texts r ∧ (∀ x, x ≠ r → g'.heap[x]? = g.heap[x]?) ∧ (texts r = [] → g' = g) ∧
        Session v g' ∧ SameShape (newHandler v) g' := by
      obtain ⟨j1, j2⟩ := runH_session s (lineItems (texts r)) k
      rcases hpair with ⟨h1, h2, h3⟩ | ⟨h1, h2, h3⟩
      · exact ⟨g, h2, h3, fun _ _ => rfl, fun _ => rfl, s, hsh⟩
      · refine ⟨(runH k (lineItems (texts r)) g).1, by rw [← h1], h2, h3, fun he => ?_, j1, hsh.trans j2⟩
        rw [he]; rfl
    obtain ⟨g', e1, e2, e3, e4, e5, e6⟩ := hmid
    have hne : ∀ x ∈ L, x ≠ r := fun x hx e => hr (e ▸ hx)
    obtain ⟨f1, f2, f3⟩ := ih hnd (tl hserve) (tl hst) (fun x hx hxe a ha y hy => hR x (by simp [hx]) hxe a ha y (by simp [hy])) (k + (lineItems (texts r)).length) e5 e6
      (fun x hx => by rw [e3 x (hne x hx)]; exact hfresh x (by simp [hx]))
      (fun x hx hxe a ha => by
        rw [← hseen x (by simp [hx]) hxe a ha]
        unfold Handler.seenAttr
        rw [e6.attrs, hsh.attrs]
        cases hat : (newHandler v).attrs.lookup a with
        | none => rfl
        | some y =>
          by_cases hy : y = r
          · subst hy
            rw [e4 (hR x (by simp [hx]) hxe a ha y (by simp) hat)]
          · simp only [e3 y hy])
    have hrun : runH k (lineItems ((r :: L).map texts).flatten) g = runH (k + (lineItems (texts r)).length) (lineItems (L.map texts).flatten) g' := by
      rw [List.map_cons, List.flatten_cons, lineItems_append hterm, runH_append e1]
    rw [hrun]
    refine ⟨f1, ?_, ?_⟩
    · intro x hx
      rcases List.mem_cons.1 hx with rfl | hx
      · unfold Handler.text
        rw [f3 x hr]
        exact e2
      · exact f2 x hx
    · intro x hx
      rw [List.mem_cons, not_or] at hx
      rw [f3 x hx.2, e3 x hx.1]

/-- The object that has an attribute that some class looks at has the name of the attribute. -/
theorem attr_serves {v : Nat} (hv : Supported v) {a : Str} {x : Nat} (ha : a ∈ storageAttrs.map (·.2)) (hx : (newHandler v).attrs.lookup a = some x) :
    (newHandler v).Serves a x := by
  have b : Registered (newHandler v) (commandMap v) := registerAll_registered (supported_mapOk hv).dict
  have hlt := b.wf.attrs _ _ hx
  obtain ⟨o, ho⟩ : ∃ o, (newHandler v).heap[x]? = some o := ⟨_, List.getElem?_eq_getElem hlt⟩
  have hcl := session_attr_class hv .new a x hx
  have hcx : (newHandler v).className x = o.cls.name := by simp [Handler.className, ho]
  obtain ⟨_, n, hn, _⟩ := b.objs x o ho
  have h1 := List.all_eq_true.1 (List.all_eq_true.1 attr_names _ (supported_mem hv)) _ (mem_of_lookup' hn)
  rw [hcx] at hcl
  simp only [hcl, List.contains_iff_mem.2 ha, Bool.not_true, Bool.false_or] at h1
  cases hl : (commandMap v).lookup a with
  | none => rw [hl] at h1; simp at h1
  | some c =>
    rw [hl] at h1
    obtain ⟨r, o', h2, h3, h4⟩ := b.served a c hl
    have hr : r < (newHandler v).heap.length := (List.getElem?_eq_some_iff.1 h3).1
    have : r = x := b.distinct r x hr hlt (by
      rw [hcx]
      simp only [Handler.className, h3]
      rw [h4]
      simpa using h1)
    rw [← this]
    exact h2

theorem readLines_shape (v : Nat) (ls : List (Nat × List Str × Str)) : SameShape (newHandler v) (readLines v ls) := by
  have : ∀ h : Handler CState Ns, SameShape h (ls.foldl (fun h l => (h.dispatch l.1 l.2.1 l.2.2).1) h) := by
    induction ls with
    | nil => exact fun _ => .refl _
    | cons l ls ih => exact fun h => (dispatch_shape h l.1 l.2.1 l.2.2).trans (ih _)
  exact this _

/-- The lines of one object, read without a handler: `t` is what it sees of other commands. -/
def runClass (c : Command) (t : Str → Option Bool) : Nat → List Item → Inst CState → Option (Inst CState)
  | _, [], i => some i
  | k, .cmd l (m :: args) :: rest, i =>
    match c.parse t args (i.noted m l (k + 1)) with
    | (_, .error _) => none
    | p => runClass c t (k + 1) rest (c.stored p)
  | k, _ :: rest, i => runClass c t (k + 1) rest i

/-- The object of a new handler. -/
theorem new_object {v : Nat} (hv : Supported v) {n : Str} {c : Command} (hc : (commandMap v).lookup n = some c) :
    ∃ r, (newHandler v).Serves n r ∧ (newHandler v).heap[r]? = some ⟨c, c.new.inst⟩ := by
  have b : Registered (newHandler v) (commandMap v) := registerAll_registered (supported_mapOk hv).dict
  obtain ⟨r, o, h1, h2, -⟩ := b.served n c hc
  obtain ⟨o', ho', hmem⟩ := (session_inv hv (.new : Session v (newHandler v))).served n r h1
  rw [h2] at ho'; cases ho'
  have hoc : o.cls = c := by
    have := (mem_iff_lookup (supported_mapOk hv).dict).1 hmem
    rw [hc] at this; cases this; rfl
  refine ⟨r, h1, ?_⟩
  rw [h2, (b.objs r o h2).1, hoc]
  rfl

/-- A line of the command under one of its names, or a comment. -/
def PlainOwn (v : Nat) (n : Str) : Item → Prop
  | .skip l => SkipLine l ∧ l.take 10 ≠ c!"#platform="
  | .cmd l ws => CmdLine l ws ∧ ((commandMap v).lookup (ws.headD [])).map (·.name) = ((commandMap v).lookup n).map (·.name)
  | _ => False

instance (v : Nat) (n : Str) : DecidablePred (PlainOwn v n) := fun it => by
  cases it <;> unfold PlainOwn <;> infer_instance

theorem plainOwn_own {v : Nat} (hv : Supported v) {n : Str} {c : Command} (hc : (commandMap v).lookup n = some c) {it : Item} (h : PlainOwn v n it) : OwnLine v n it := by
  cases it <;> simp only [PlainOwn] at h
  · exact h
  · rename_i l ws
    refine ⟨h.1, ?_⟩
    rw [hc] at h
    obtain ⟨c', hc', hcn⟩ := Option.map_eq_some_iff.1 h.2
    obtain ⟨r, h1, h2⟩ := new_object hv hc
    obtain ⟨r', h3, h4⟩ := new_object hv hc'
    have b : Registered (newHandler v) (commandMap v) := registerAll_registered (supported_mapOk hv).dict
    have : r' = r := b.distinct r' r (List.getElem?_eq_some_iff.1 h4).1 (List.getElem?_eq_some_iff.1 h2).1 (by simp only [Handler.className, h2, h4, hcn])
    unfold SameObject
    rw [show (newHandler v).commands.lookup (ws.headD []) = _ from h3, show (newHandler v).commands.lookup n = _ from h1, this]

theorem run_class {v : Nat} (hv : Supported v) {n : Str} {r : Nat} {c : Command} {t : Str → Option Bool} {items : List Item} (hi : ∀ it ∈ items, OwnLine v n it)
    (hn : (newHandler v).Serves n r) {g : Handler CState Ns} (s : Session v g) (hN : SameShape (newHandler v) g) {i j : Inst CState} (ho : g.heap[r]? = some ⟨c, i⟩)
    (ht : ∀ a ∈ looksAt (attrName c.name), t a = g.seenAttr a) {k : Nat} (hr : runClass c t k items i = some j) :
    (runH k items g).2 = none ∧ (runH k items g).1.heap[r]? = some ⟨c, j⟩ := by
  induction items generalizing k g i with
  | nil => rw [runClass] at hr; cases hr; exact ⟨rfl, ho⟩
  | cons it rest ih =>
    have h1 := hi it (by simp)
    have h2 : ∀ it ∈ rest, OwnLine v n it := fun x hx => hi x (List.mem_cons_of_mem _ hx)
    cases it with
    | cmd l ws =>
      obtain ⟨⟨_, _, ch, w, args, hws, _⟩, hso⟩ := h1
      subst hws
      rw [List.headD_cons] at hso
      have hm : g.Serves (ch :: w) r := by unfold Handler.Serves; rw [hN.commands, hso]; exact hn
      obtain ⟨o', ho', hmem⟩ := (session_inv hv s).served _ r hm
      rw [ho] at ho'; cases ho'
      have hcr : g.className r = c.name := by simp [Handler.className, ho]
      have hd := dispatch_eq hm ho (k + 1) args l
      have hview := session_local hv hmem (g.setInst r ⟨c, i⟩ (i.noted (ch :: w) l (k + 1))).seenAttr t
        (fun a ha => by rw [seenAttr_other hv s ho _ a (by rw [hcr]; exact ha)]; exact (ht a ha).symm) args (i.noted (ch :: w) l (k + 1))
      simp only at hd
      rw [hview] at hd
      rw [runClass] at hr
      have hlen : r < g.heap.length := (List.getElem?_eq_some_iff.1 ho).1
      have hs' := s.dispatch (k + 1) ((ch :: w) :: args) l
      have hsh' := hN.trans (dispatch_shape g (k + 1) ((ch :: w) :: args) l)
      unfold runH
      rw [runCommands]
      split at hr
      · cases hr
      · rename_i hne
        have hnone : (g.dispatch (k + 1) ((ch :: w) :: args) l).2 = none := by
          rw [hd]
          dsimp only
          split
          · rename_i e he
            exact (hne _ e (Prod.ext rfl he)).elim
          · rfl
        have hg : (g.dispatch (k + 1) ((ch :: w) :: args) l).1 = g.setInst r ⟨c, i⟩ (c.stored (c.parse t args (i.noted (ch :: w) l (k + 1)))) := by rw [hd]
        split
        · rename_i g' hg'
          rw [hg'] at hg hs' hsh'
          simp only at hg hs' hsh'
          refine ih h2 hs' hsh' ?_ ?_ hr
          · rw [hg]
            simp only [Handler.setInst, List.getElem?_set_self hlen]
          · intro a ha
            rw [ht a ha, hg, seenAttr_other hv s ho _ a (by rw [hcr]; exact ha)]
        · rename_i g' e hg'
          rw [hg'] at hnone
          cases hnone
    | skip l => exact ih h2 s hN ho ht hr
    | _ => exact absurd h1 (by simp [OwnLine])

/-- Whether a text is stable can be seen from the class. -/
theorem stable_of_class {v : Nat} (hv : Supported v) {n : Str} {c : Command} (hc : (commandMap v).lookup n = some c) {t : Str → Option Bool}
    (ht : ∀ a ∈ looksAt (attrName c.name), t a = (newHandler v).seenAttr a) {text : Str} (hterm : text = [] ∨ text.getLast? = some '\n')
    (hown : ∀ it ∈ lineItems text, PlainOwn v n it) {i : Inst CState} (hr : runClass c t 0 (lineItems text) c.new.inst = some i) (htx : c.str i = text) : StableText v n text := by
  obtain ⟨r, h1, h2⟩ := new_object hv hc
  obtain ⟨e1, e2⟩ := run_class hv (fun it hit => plainOwn_own hv hc (hown it hit)) h1 .new (.refl _) h2 ht hr
  refine ⟨hterm, fun it hit => plainOwn_own hv hc (hown it hit), e1, ?_⟩
  have hsh := (runH_session (v := v) .new (lineItems text) 0).2
  rw [serves_text (r := r) (by unfold Handler.Serves; rw [hsh.commands]; exact h1)]
  unfold Handler.text
  rw [e2]
  exact htx

/-- What the commands of a new handler write (the boot loader a line, some others a blank line) is stable, but for `lilo`. -/
theorem new_stable : commandMaps.all (fun y => y.2.all fun x =>
    (liloVersions.contains y.1 && x.1 == c!"lilo") ||
    let text := x.2.str x.2.new.inst
    decide (looksAt (attrName x.2.name) = [] ∨ text = []) && decide (text = [] ∨ text.getLast? = some '\n') && (lineItems text).all (fun it => decide (PlainOwn y.1 x.1 it)) &&
    decide ((runClass x.2 (fun _ => none) 0 (lineItems text) x.2.new.inst).map x.2.str = some text)) = true := by decide +kernel

/-- The text of a command that has read no line is stable. -/
theorem unread_stable {v : Nat} (hv : Supported v) (hl : v ∉ liloVersions) {h : Handler CState Ns} (s : Session v h) {n : Str} (hu : Unread h n) :
    StableText v n (textOf h n) := by
  obtain ⟨c, hc, ho⟩ := unread_object hv s hu
  have htx : textOf h n = c.str c.new.inst := by simp only [textOf, ho]; rfl
  have := List.all_eq_true.1 (List.all_eq_true.1 new_stable _ (supported_mem hv)) _ (mem_of_lookup' hc)
  have hlf : liloVersions.contains v = false := by simpa using hl
  simp only [hlf, Bool.false_and, Bool.false_or, Bool.and_eq_true, decide_eq_true_eq, List.all_eq_true] at this
  obtain ⟨⟨⟨h1, h2⟩, h3⟩, h4⟩ := this
  obtain ⟨i, hi, htx'⟩ := Option.map_eq_some_iff.1 h4
  rw [htx]
  rcases h1 with h1 | h1
  · exact stable_of_class hv hc (t := fun _ => none) (fun a ha => by rw [h1] at ha; cases ha) h2 h3 hi htx'
  · exact stable_of_class hv hc (t := (newHandler v).seenAttr) (fun _ _ => rfl) h2 h3 (i := c.new.inst) (by rw [h1]; rfl) rfl

/-- C75: take the handler of a version without `lilo` after any lines.  If the text of each command that has read one is stable, on its
own, and there is no text of a command next to one of a command that excludes it, then the whole text is stable: it consists of
lines of commands and comments; a new handler accepts all these lines, wherever in a file they stand; and it then writes
the same text, for each command and as a whole. -/
theorem C75_stable {v : Nat} (hv : Supported v) (hl : v ∉ liloVersions) (ls : List (Nat × List Str × Str))
    (hst : ∀ n c, (commandMap v).lookup n = some c → c.prio ≠ none → ¬ Unread (readLines v ls) n → StableText v n (textOf (readLines v ls) n))
    (hR : ∀ n, textOf (readLines v ls) n ≠ [] → ∀ a ∈ rivals n, textOf (readLines v ls) a = []) :
    let text := (readLines v ls).str
    (text = [] ∨ text.getLast? = some '\n') ∧ (∀ it ∈ lineItems text, ∃ n, OwnLine v n it) ∧
    ∀ k, (runCommands Handler.dispatch k (lineItems text) (newHandler v)).2 = none ∧
      (runCommands Handler.dispatch k (lineItems text) (newHandler v)).1.str = text ∧
      ∀ n c, (commandMap v).lookup n = some c → c.prio ≠ none →
        textOf (runCommands Handler.dispatch k (lineItems text) (newHandler v)).1 n = textOf (readLines v ls) n := by
  intro text
  have b : Registered (newHandler v) (commandMap v) := registerAll_registered (supported_mapOk hv).dict
  have hsh : SameShape (newHandler v) (readLines v ls) := readLines_shape v ls
  have hst : ∀ n c, (commandMap v).lookup n = some c → c.prio ≠ none → StableText v n (textOf (readLines v ls) n) := by
    intro n c hc hp
    by_cases hu : Unread (readLines v ls) n
    · exact unread_stable hv hl (readLines_session v ls) hu
    · exact hst n c hc hp hu
  have htext : text = (readLines v ls).str := rfl
  clear_value text
  generalize readLines v ls = h at *
  have hL : h.written = (newHandler v).written := hsh.written
  have htx : text = ((newHandler v).written.map h.text).flatten := by rw [← hL, htext]; exact h.str_eq
  have hname : ∀ r, ∃ n, r ∈ (newHandler v).written → (newHandler v).Serves n r ∧ StableText v n (h.text r) := by
    intro r
    by_cases hr : r ∈ (newHandler v).written
    · obtain ⟨hlt, hp⟩ := (b.written r).1 hr
      obtain ⟨o, ho⟩ : ∃ o, (newHandler v).heap[r]? = some o := ⟨_, List.getElem?_eq_getElem hlt⟩
      obtain ⟨_, n, hn, hs⟩ := b.objs r o ho
      refine ⟨n, fun _ => ⟨hs, ?_⟩⟩
      have := hst n _ hn (by simpa [Handler.prioOf, ho] using hp)
      rwa [serves_text (r := r) (by unfold Handler.Serves; rw [hsh.commands]; exact hs)] at this
    · exact ⟨[], fun h => absurd h hr⟩
  obtain ⟨names, hnames⟩ := Classical.axiomOfChoice hname
  have hterm : ∀ L : List Nat, (∀ r ∈ L, r ∈ (newHandler v).written) →
      ((L.map h.text).flatten = [] ∨ (L.map h.text).flatten.getLast? = some '\n') ∧ ∀ it ∈ lineItems (L.map h.text).flatten, ∃ n, OwnLine v n it := by
    intro L
    induction L with
    | nil => exact fun _ => ⟨.inl rfl, by simp [lineItems, splitLines]⟩
    | cons r L ih =>
      intro hL
      obtain ⟨i1, i2⟩ := ih fun x hx => hL x (List.mem_cons_of_mem _ hx)
      obtain ⟨hs, h1, h2, -, -⟩ := hnames r (hL r (by simp))
      rw [List.map_cons, List.flatten_cons]
      constructor
      · rcases i1 with i1 | i1
        · rw [i1, List.append_nil]; exact h1
        · right; rw [List.getLast?_append, i1]; rfl
      · intro it hit
        rw [lineItems_append h1] at hit
        rcases List.mem_append.1 hit with hit | hit
        · exact ⟨_, h2 it hit⟩
        · exact i2 it hit
  rw [htx]
  obtain ⟨t1, t2⟩ := hterm _ fun _ h => h
  refine ⟨t1, t2, fun k => ?_⟩
  obtain ⟨e1, e2, e3⟩ := run_objects hv (names := names) (texts := h.text) (L := (newHandler v).written) (written_nodup b.wf)
    (fun r hr => (hnames r hr).1) (fun r hr => (hnames r hr).2) (fun r hr hne a ha x hx hat => by
      have hst := looksAt_storage ha
      have hs := (hnames r hr).1
      obtain ⟨o, ho, hmem⟩ := (session_inv hv (.new : Session v (newHandler v))).served _ _ hs
      have hcr : (newHandler v).className r = o.cls.name := by simp [Handler.className, ho]
      rw [hcr] at ha hst
      have hriv := looksAt_rivals _ (storage_name hv hmem hst.1) a ha
      have hax := attr_serves hv hst.2 hat
      have := hR (names r) (by rw [serves_text (r := r) (by unfold Handler.Serves; rw [hsh.commands]; exact hs)]; exact hne) a hriv
      rwa [serves_text (r := x) (by unfold Handler.Serves; rw [hsh.commands]; exact hax)] at this)
    k (g := newHandler v) .new (.refl _) (fun _ _ => rfl) (fun _ _ _ _ _ => rfl)
  have hsh2 := (runH_session (v := v) .new (lineItems ((newHandler v).written.map h.text).flatten) k).2
  refine ⟨e1, ?_, fun n c hn hp => ?_⟩
  · rw [Handler.str_eq, hsh2.written]
    congr 1
    exact List.map_congr_left e2
  · obtain ⟨r, o, h1, h2, h3⟩ := b.served n c hn
    have hinv := (session_inv hv (.new : Session v (newHandler v))).served n r h1
    obtain ⟨o', ho', hmem⟩ := hinv
    have hoc : o'.cls = c := by
      have := (mem_iff_lookup (supported_mapOk hv).dict).1 hmem
      rw [hn] at this; cases this; rfl
    have hr : r ∈ (newHandler v).written := (b.written r).2 ⟨(List.getElem?_eq_some_iff.1 ho').1, by simpa [Handler.prioOf, ho', hoc] using hp⟩
    rw [serves_text (r := r) (by unfold Handler.Serves; rw [hsh2.commands]; exact h1), serves_text (r := r) (by unfold Handler.Serves; rw [hsh.commands]; exact h1)]
    exact e2 r hr

/-! ## The whole file -/

/-- C75: let a parser of a version `v` without `lilo` hold commands that have read any lines, whose texts are stable (as in `C75_stable`),
and scripts, sections and packages as in C54.  A new parser reads the file that is written without an error, and the
commands then have the same text.  If there are no packages and no kept sections, the scripts end with a line feed and
the platform has no space around it, the file that is then written is the same, character by character. -/
theorem C75_file {v : Nat} (hv : Supported v) (hl : v ∉ liloVersions) (ls : List (Nat × List Str × Str))
    (hst : ∀ n c, (commandMap v).lookup n = some c → c.prio ≠ none → ¬ Unread (readLines v ls) n → StableText v n (textOf (readLines v ls) n))
    (hR : ∀ n, textOf (readLines v ls) n ≠ [] → ∀ a ∈ rivals n, textOf (readLines v ls) a = [])
    {h : PState (Handler CState Ns)} (hcmds : h.cmds = readLines v ls) {cfg : Cfg} {w : World} {d : Nat} {ver : Str} {version sver : Nat} {text : Str} {p : Packages}
    (hw : writeHandler ver version sver h = .ok (text, p)) (hver : NoBreak ver) (hplat : NoBreak h.platform) (hsver : sver ≥ Version.F8)
    (hscr : ∀ sc ∈ h.scripts, sc.Writable standardTags)
    {ks : List Kept} (hks : h.nullStrings = ks.map Kept.text) (hkok : ∀ k ∈ ks, k.OK standardTags)
    (hpw : h.packages.Writable) (hps : h.packages.Supported cfg.version) :
    let r := readString cfg w Handler.dispatch d text { cmds := newHandler v }
    r.2 = none ∧ r.1.errorsCount = 0 ∧ r.1.cmds.str = h.cmds.str ∧
    (∀ n c, (commandMap v).lookup n = some c → c.prio ≠ none → textOf r.1.cmds n = textOf h.cmds n) ∧
    (h.packages.Untouched → h.nullStrings = [] → (∀ sc ∈ h.scripts, endsWith sc.script c!"\n" = true) → strip h.platform = h.platform →
      ∃ p', writeHandler ver version sver r.1 = .ok (text, p')) := by
  intro r
  obtain ⟨t1, t2, t3⟩ := C75_stable hv hl ls hst hR
  rw [← hcmds] at t1 t2 t3 hst
  obtain ⟨e1, e2, e3⟩ := t3 (if h.platform = [] then 2 else 3)
  have hdoc : IsDoc cfg.version standardTags h.cmds.str (lineItems h.cmds.str) := own_doc fun it hit => ⟨v, t2 it hit⟩
  have := C54_file_roundtrip (s := { cmds := newHandler v }) (cfg := cfg) (w := w) (disp := Handler.dispatch) (d := d) hw hver hplat hsver
    (clean_new _) (pending_new _) rfl (show ∀ t ∈ standardTags, startsWith t c!"%end" = false ∧ t.head? = some '%' by decide) hdoc t1 (fun it hit => by obtain ⟨n, ho⟩ := t2 it hit; exact (own_wf (u := v) (tags := []) ho).2.1)
    (c := (runCommands Handler.dispatch (if h.platform = [] then 2 else 3) (lineItems h.cmds.str) (newHandler v)).1) (by rw [← e1]) hscr hks hkok hpw hps
  simp only at this
  change let r := r; _ at this
  obtain ⟨r1, r2, r3, r4, r5, r6, r7, r8⟩ := this
  refine ⟨r1, r8, by rw [r2]; exact e2, fun n c hn hp => by rw [r2]; exact e3 n c hn hp, fun hu hnull hend hstrip => ?_⟩
  have hnull' : r.1.nullStrings = [] := by
    rw [r5]
    have : ks = [] := by rw [hnull] at hks; exact List.map_eq_nil_iff.1 hks.symm
    rw [this]; rfl
  have hplat' : r.1.platform = h.platform := by
    rw [r3]
    split
    · rename_i he; exact he.symm
    · exact hstrip
  have hscr' : (r.1.scripts.map (Script.str sver)).flatten = (h.scripts.map (Script.str sver)).flatten := by
    refine congrArg List.flatten (script_str_lineno sver ?_)
    rw [r4]
    simp only [List.map_nil, List.nil_append]
    refine List.map_congr_left fun sc hsc => ?_
    unfold Script.ended
    rw [if_pos (hend sc hsc)]
  have hp1 : (r.1.packages.str sver).1 = [] := by
    rw [r6 hu]
    exact (C23_empty_iff sver {}).2 ⟨rfl, .inl rfl⟩
  have hp2 : (h.packages.str sver).1 = [] := (C23_empty_iff sver _).2 hu
  have hc : r.1.cmds.str = h.cmds.str := by rw [r2]; exact e2
  unfold writeHandler at hw ⊢
  cases hn : Version.versionToString version false with
  | error e => rw [hn] at hw; cases hw
  | ok nm =>
    rw [hn] at hw
    simp only [Except.ok.injEq, Prod.mk.injEq] at hw ⊢
    exact ⟨_, by rw [← hw.1, hc, hplat', hscr', hp1, hp2, hnull', hnull], rfl⟩

/-! ## The conditions cannot be dropped -/

/-- In the versions with `lilo` the file has a `bootloader` line for each of two objects.  Both lines are read by the
object for `bootloader`, and the second, which nobody asked for, undoes the first. -/
theorem C75_lilo : liloVersions.all (fun v =>
    let h := readLines v [(1, [c!"bootloader", c!"--location=partition"], [])]
    let r := runCommands Handler.dispatch 0 (lineItems h.str) (newHandler v)
    decide (h.str = c!"\n\n# System bootloader configuration\nbootloader --linear --location=partition\n# System bootloader configuration\nbootloader --linear --location=none\n" ∧
      r.2 = none ∧ r.1.str = c!"\n\n# System bootloader configuration\nbootloader --linear --location=none\n# System bootloader configuration\nbootloader --linear --location=none\n")) = true := by decide +kernel

/-! ### The hypotheses can be met -/

/-- A small file. -/
def stableLines : List (Nat × List Str × Str) :=
  [(1, [c!"lang", c!"en_US"], []), (2, [c!"bootloader", c!"--append=a b"], []), (3, [c!"part", c!"/", c!"--size=100"], []), (4, [c!"part", c!"swap", c!"--recommended"], []),
   (5, [c!"user", c!"--name=joe", c!"--gecos=Joe X"], []), (6, [c!"reboot", c!"--eject"], [])]

/-- The commands that have read a line. -/
def stableRead : List Str := [c!"lang", c!"bootloader", c!"part", c!"partition", c!"user", c!"reboot", c!"poweroff", c!"halt", c!"shutdown"]

theorem stableLines_read : (commandMap Version.F34).all (fun x => stableRead.contains x.1 || decide (Unread (readLines Version.F34 stableLines) x.1)) = true := by decide +kernel

theorem stableLines_stable : ∀ n ∈ stableRead, StableText Version.F34 n (textOf (readLines Version.F34 stableLines) n) := by decide +kernel

theorem noRivals_of {h : Handler CState Ns} (hs : ∀ n ∈ [c!"part", c!"partition", c!"raid", c!"volgroup", c!"logvol", c!"reqpart", c!"autopart", c!"mount"],
    textOf h n ≠ [] → ∀ a ∈ rivals n, textOf h a = []) (n : Str) : textOf h n ≠ [] → ∀ a ∈ rivals n, textOf h a = [] := by
  by_cases hn : n ∈ [c!"part", c!"partition", c!"raid", c!"volgroup", c!"logvol", c!"reqpart", c!"autopart", c!"mount"]
  · exact hs n hn
  · intro _ a ha
    unfold rivals at ha
    split at ha
    · rename_i h1
      exact absurd (List.mem_append_left [c!"autopart", c!"mount"] h1) hn
    · split at ha
      · rename_i _ h1; subst h1; exact absurd (by decide) hn
      · split at ha
        · rename_i _ _ h1; subst h1; exact absurd (by decide) hn
        · cases ha

example : let text := (readLines Version.F34 stableLines).str
    (runCommands Handler.dispatch 7 (lineItems text) (newHandler Version.F34)).2 = none ∧ (runCommands Handler.dispatch 7 (lineItems text) (newHandler Version.F34)).1.str = text :=
  have h := C75_stable (v := Version.F34) (by decide +kernel) (by decide) stableLines
    (fun n c hc _ hu => by
      have := List.all_eq_true.1 stableLines_read _ (mem_of_lookup' hc)
      simp only [Bool.or_eq_true, decide_eq_true_eq] at this
      rcases this with h | h
      · exact stableLines_stable n (List.contains_iff_mem.1 h)
      · exact absurd h hu)
    (noRivals_of (by decide +kernel))
  ⟨(h.2.2 7).1, (h.2.2 7).2.1⟩

example : (readLines Version.F34 stableLines).str =
    c!"# System language\nlang en_US\n# Reboot after installation\nreboot --eject\nuser --name=joe --gecos=\"Joe X\"\n# System bootloader configuration\nbootloader --append=\"a b\" --location=mbr\n# Disk partitioning information\npart / --size=100\npart swap --recommended\n" := by
  decide +kernel

/-- A line of `autopart` after one of `part` is refused (C56) but leaves its mark: if errors are not fatal, the file that is written has
both, and is refused. -/
theorem C75_refused_is_written : let h := readLines Version.F34 [(1, [c!"part", c!"/", c!"--size=1"], []), (2, [c!"autopart"], [])]
    ((readLines Version.F34 [(1, [c!"part", c!"/", c!"--size=1"], [])]).dispatch 2 [c!"autopart"] []).2 ≠ none ∧
    textOf h c!"autopart" = c!"autopart\n" ∧ StableText Version.F34 c!"autopart" (textOf h c!"autopart") ∧ StableText Version.F34 c!"part" (textOf h c!"part") ∧
    (runCommands Handler.dispatch 0 (lineItems h.str) (newHandler Version.F34)).2 ≠ none := by decide +kernel

end Ks
