import Verif.Props.RuleProps
/-!
# C63: commands that have read nothing
-/
namespace Ks

open Cmd

/-! ## Specification -/

/-- The object that the handler has for the name. -/
def objectOf (h : Handler CState Ns) (n : Str) : Option (Obj CState Ns) :=
  match h.commands.lookup n with
  | some (some r) => h.heap[r]?
  | _ => none

/-- The handler has an object for the name and has read no line of its command. -/
def Unread (h : Handler CState Ns) (n : Str) : Prop := (objectOf h n).map (fun o => o.inst.seen) = some false

instance (h : Handler CState Ns) (n : Str) : Decidable (Unread h n) := by unfold Unread; infer_instance

/-- The attributes of the object for the name. -/
def attrsOf (h : Handler CState Ns) (n : Str) : Ns :=
  match objectOf h n with
  | some o => selfOf o.inst
  | none => []

/-- What the object for the name prints. -/
def textOf (h : Handler CState Ns) (n : Str) : Str :=
  match objectOf h n with
  | some o => o.cls.str o.inst
  | none => []

/-! ## Objects that have read nothing -/

/-- An object that is not marked as seen is as a new one. -/
def FreshInv (h : Handler CState Ns) : Prop :=
  ∀ (r : Nat) (o : Obj CState Ns), h.heap[r]? = some o → o.inst.seen = false → o = o.cls.new

theorem fresh_session {v : Nat} (hv : Supported v) {h : Handler CState Ns} (s : Session v h) : FreshInv h := by
  have hmap := supported_mapOk hv
  induction s with
  | new =>
    have b : Registered (newHandler v) (commandMap v) := registerAll_registered hmap.dict
    intro r o ho _
    exact (b.objs r o ho).1
  | @dispatch h k args line s ih =>
    have inv := session_inv hv s
    match args with
    | [] => exact ih
    | n :: args =>
      match hlk : h.commands.lookup n with
      | none => rw [C48_unknown h k n args line hlk]; exact ih
      | some none => rw [C48_masked h k n args line hlk]; exact ih
      | some (some r) =>
        obtain ⟨o, ho, hmem⟩ := inv.served n r hlk
        have hr : r < h.heap.length := (List.getElem?_eq_some_iff.1 ho).1
        have hd := dispatch_eq hlk ho k args line
        simp only at hd
        obtain ⟨I, hI⟩ := hmap.ok _ hmem
        have hst := hasStorage_setInst ho (o.inst.noted n line k) (inv.storage hmap)
        have hmark := hI.mark _ args (o.inst.noted n line k) hst ((inv.objs r o ho).2 I _ hI)
        generalize hp : o.cls.parse (h.setInst r o (o.inst.noted n line k)).seenAttr args (o.inst.noted n line k) = p at hd hmark
        rw [hd]
        intro r' o' ho' hs'
        by_cases hrr : r' = r
        · subst hrr
          simp only [Handler.setInst, List.getElem?_set_self hr, Option.some.injEq] at ho'
          subst ho'
          have hmark : p.1.seen = true := hmark
          obtain ⟨j, x⟩ := p
          have : (CmdClass.stored o.cls (j, x)).seen = true := by
            match x with
            | .error e => exact hmark
            | .ok none => exact hmark
            | .ok (some e) =>
              simp only [CmdClass.stored]
              split
              · rw [hI.seen]; exact hmark
              · exact hmark
          rw [show (CmdClass.stored o.cls (j, x)).seen = false from hs'] at this
          cases this
        · simp only [Handler.setInst, List.getElem?_set_ne (Ne.symm hrr)] at ho'
          exact ih r' o' ho' hs'
  | @reset h n s ih =>
    have inv := session_inv hv s
    match hlk : h.commands.lookup n with
    | none => rw [C47_unknown h n hlk]; exact ih
    | some none => rw [show h.reset n = (h, some .attribute) by simp [Handler.reset, hlk]]; exact ih
    | some (some r) =>
      obtain ⟨o, ho, hmem⟩ := inv.served n r hlk
      rw [reset_eq hlk ho]
      intro r' o' ho' hs'
      simp only [create_heap] at ho'
      by_cases hr' : r' < h.heap.length
      · rw [List.getElem?_append_left hr'] at ho'; exact ih r' o' ho' hs'
      · rw [List.getElem?_append_right (Nat.le_of_not_lt hr')] at ho'
        obtain ⟨_, he⟩ : r' - h.heap.length = 0 ∧ o.cls.new = o' := by
          cases hd : r' - h.heap.length with
          | zero => rw [hd] at ho'; exact ⟨rfl, by simpa using ho'⟩
          | succ k => rw [hd] at ho'; simp at ho'
        subst he
        rfl
  | mask lst s ih => exact ih

/-! ## C63 -/

/-- What commands write before they have read anything: a boot loader line, and before Fedora Core 4 a
second one for `lilo`. -/
def defaultWords (v : Nat) (n : Str) : List Str :=
  if v ∈ [Version.RHEL3, Version.FC3, Version.RHEL4] then
    if n ∈ [c!"bootloader", c!"lilo"] then [c!"bootloader", c!"--linear", c!"--location=none"] else []
  else if n = c!"bootloader" then [c!"bootloader", c!"--location=none"] else []

theorem new_words : (commandMaps.all fun m => m.2.all fun x => decide (shlexSplit (x.2.str x.2.new.inst) true = .ok (defaultWords m.1 x.1))) = true := by decide +kernel

/-- The object of a command that has read nothing. -/
theorem unread_object {v : Nat} (hv : Supported v) {h : Handler CState Ns} (s : Session v h) {n : Str} (hu : Unread h n) :
    ∃ c, (commandMap v).lookup n = some c ∧ objectOf h n = some c.new := by
  obtain ⟨o, ho, hs⟩ := Option.map_eq_some_iff.1 hu
  have ho' := ho
  unfold objectOf at ho'
  split at ho'
  · rename_i r hlk
    obtain ⟨o', ho'', hmem⟩ := (session_inv hv s).served n r hlk
    rw [ho'] at ho''; cases ho''
    exact ⟨_, (mem_iff_lookup (supported_mapOk hv).dict).1 hmem, by rw [ho, ← fresh_session hv s r o ho' hs]⟩
  · cases ho'

/-- C63: whatever lines a handler has read, a command that was in none of them has the attributes and the
text that it has in a new handler. -/
theorem C63_unread {v : Nat} (hv : Supported v) {h h' : Handler CState Ns} (s : Session v h) (s' : Session v h') {n : Str} (hu : Unread h n) (hu' : Unread h' n) :
    attrsOf h n = attrsOf h' n ∧ textOf h n = textOf h' n := by
  obtain ⟨c, hc, ho⟩ := unread_object hv s hu
  obtain ⟨c', hc', ho'⟩ := unread_object hv s' hu'
  rw [hc] at hc'; cases hc'
  simp only [attrsOf, textOf, ho, ho', and_self]

/-- C63: the text of such a command holds no words, except for the boot loader. -/
theorem C63_text {v : Nat} (hv : Supported v) {h : Handler CState Ns} (s : Session v h) {n : Str} (hu : Unread h n) :
    shlexSplit (textOf h n) true = .ok (defaultWords v n) := by
  obtain ⟨c, hc, ho⟩ := unread_object hv s hu
  have := List.all_eq_true.1 (List.all_eq_true.1 new_words _ (supported_mem hv)) _ (mem_of_lookup' hc)
  simp only [textOf, ho]
  exact of_decide_eq_true this

/-- The hypotheses can be met: after a `part` line, `clearpart` has read nothing. -/
example : Unread ((newHandler Version.F34).dispatch 1 [c!"part", c!"/", c!"--size=1"] []).1 c!"clearpart" ∧ ¬ Unread ((newHandler Version.F34).dispatch 1 [c!"part", c!"/", c!"--size=1"] []).1 c!"part" := by
  decide +kernel

/-- A line that is refused counts as read. -/
theorem C63_refused_is_read : ¬ Unread ((newHandler Version.F34).dispatch 1 [c!"part"] []).1 c!"part" ∧ ((newHandler Version.F34).dispatch 1 [c!"part"] []).2.isSome = true := by
  decide +kernel

end Ks
